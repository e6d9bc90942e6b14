import Verif.Spec.JsonText

/-!
# Texts with parts that are not looked at
-/

namespace Verif.Json.Grammar

/-! ## What is skipped

The grammar of JSON with any four digits after `\u`, numbers of any size, and any nesting. -/

/-- One character of a string. -/
inductive AnyLetter : List Char → Prop
  | plain (c : Char) : 0x20 ≤ c.toNat → c ≠ '"' → c ≠ '\\' → AnyLetter [c]
  | short (e : Char) (n : Nat) : (e, n) ∈ shortEscapes → AnyLetter ['\\', e]
  | unicode {s : List Char} (n : Nat) : Hex4 s n → AnyLetter ('\\' :: 'u' :: s)

/-- The characters of a string. -/
inductive AnyLetters : List Char → Prop
  | nil : AnyLetters []
  | cons {s t : List Char} : AnyLetter s → AnyLetters t → AnyLetters (s ++ t)

/-- `string`. -/
def AnyText (s : List Char) : Prop := ∃ t, s = '"' :: (t ++ ['"']) ∧ AnyLetters t

/-- `number`. -/
def AnyNumber (s : List Char) : Prop := ∃ m d p e, s = m ++ (d ++ (p ++ e)) ∧ m ∈ [[], ['-']] ∧ Int d ∧ Frac p ∧ Exp e

mutual

/-- `value`. -/
inductive AnyValue : List Char → Prop
  | null : AnyValue "null".toList
  | true : AnyValue "true".toList
  | false : AnyValue "false".toList
  | number {s : List Char} : AnyNumber s → AnyValue s
  | text {s : List Char} : AnyText s → AnyValue s
  | noElements {w : List Char} : Space w → AnyValue ('[' :: (w ++ [']']))
  | elements {s : List Char} : AnyElements s → AnyValue ('[' :: (s ++ [']']))
  | noMembers {w : List Char} : Space w → AnyValue ('{' :: (w ++ ['}']))
  | members {s : List Char} : AnyMembers s → AnyValue ('{' :: (s ++ ['}']))

/-- One or more values with commas between them. -/
inductive AnyElements : List Char → Prop
  | one {w s w' : List Char} : Space w → AnyValue s → Space w' → AnyElements (w ++ (s ++ w'))
  | cons {w s w' t : List Char} : Space w → AnyValue s → Space w' → AnyElements t → AnyElements (w ++ (s ++ (w' ++ ',' :: t)))

/-- One or more members with commas between them. -/
inductive AnyMembers : List Char → Prop
  | one {w k w1 w2 s w' : List Char} : Space w → AnyText k → Space w1 → Space w2 → AnyValue s → Space w' →
      AnyMembers (w ++ (k ++ (w1 ++ ':' :: (w2 ++ (s ++ w')))))
  | cons {w k w1 w2 s w' t : List Char} : Space w → AnyText k → Space w1 → Space w2 → AnyValue s → Space w' → AnyMembers t →
      AnyMembers (w ++ (k ++ (w1 ++ ':' :: (w2 ++ (s ++ (w' ++ ',' :: t))))))

end

/-! ## Documents with blanks

The text of a document in which the values of some members may be anything that can be skipped.  What it denotes depends on what is put in for them. -/

mutual

/-- `value`. -/
inductive Blank (finite : List Char → Bool) : List Char → (Json → Json) → Prop
  | value {s : List Char} {j : Json} : Value finite s j → Blank finite s fun _ => j
  | elements {s : List Char} {l : Json → List Json} : BlankElements finite s l → Blank finite ('[' :: (s ++ [']'])) fun x => .arr (l x)
  | members {s : List Char} {m : Json → List (String × Json)} : BlankMembers finite s m → Blank finite ('{' :: (s ++ ['}'])) fun x => .obj (m x)

/-- One or more values with commas between them. -/
inductive BlankElements (finite : List Char → Bool) : List Char → (Json → List Json) → Prop
  | one {w s w' : List Char} {j : Json → Json} : Space w → Blank finite s j → Space w' → BlankElements finite (w ++ (s ++ w')) fun x => [j x]
  | cons {w s w' t : List Char} {j : Json → Json} {l : Json → List Json} : Space w → Blank finite s j → Space w' → BlankElements finite t l →
      BlankElements finite (w ++ (s ++ (w' ++ ',' :: t))) fun x => j x :: l x

/-- One or more members with commas between them. -/
inductive BlankMembers (finite : List Char → Bool) : List Char → (Json → List (String × Json)) → Prop
  | one {w k w1 w2 s w' : List Char} {x : String} {j : Json → Json} : Space w → Text k x → Space w1 → Space w2 → Blank finite s j → Space w' →
      BlankMembers finite (w ++ (k ++ (w1 ++ ':' :: (w2 ++ (s ++ w'))))) fun v => [(x, j v)]
  | cons {w k w1 w2 s w' t : List Char} {x : String} {j : Json → Json} {m : Json → List (String × Json)} : Space w → Text k x → Space w1 → Space w2 →
      Blank finite s j → Space w' → BlankMembers finite t m →
      BlankMembers finite (w ++ (k ++ (w1 ++ ':' :: (w2 ++ (s ++ (w' ++ ',' :: t)))))) fun v => (x, j v) :: m v
  | blankOne {w k w1 w2 s w' : List Char} {x : String} : Space w → Text k x → Space w1 → Space w2 → AnyValue s → Space w' →
      BlankMembers finite (w ++ (k ++ (w1 ++ ':' :: (w2 ++ (s ++ w'))))) fun v => [(x, v)]
  | blankCons {w k w1 w2 s w' t : List Char} {x : String} {m : Json → List (String × Json)} : Space w → Text k x → Space w1 → Space w2 →
      AnyValue s → Space w' → BlankMembers finite t m →
      BlankMembers finite (w ++ (k ++ (w1 ++ ':' :: (w2 ++ (s ++ (w' ++ ',' :: t)))))) fun v => (x, v) :: m v

end

/-- A value with white space around it. -/
def BlankDocument (finite : List Char → Bool) (s : List Char) (j : Json → Json) : Prop :=
  ∃ w t w', s = w ++ (t ++ w') ∧ Space w ∧ Blank finite t j ∧ Space w'

end Verif.Json.Grammar
