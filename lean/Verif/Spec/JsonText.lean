import Verif.Spec.Number
import Verif.Model.Json

/-!
# The grammar of JSON (RFC 8259)

Which texts denote which documents, as a grammar, without a parser.
-/

namespace Verif.Json

/-- All numbers in the document are integers that fit. -/
inductive Whole : Json → Prop
  | null : Whole .null
  | bool (b : Bool) : Whole (.bool b)
  | nat (n : U64) : Whole (.nat n)
  | neg (k : BitVec 63) : Whole (.neg k)
  | str (s : String) : Whole (.str s)
  | arr {l : List Json} : (∀ j ∈ l, Whole j) → Whole (.arr l)
  | obj {m : List (String × Json)} : (∀ p ∈ m, Whole p.2) → Whole (.obj m)

namespace Grammar

/-- `ws`: blanks, tabs and ends of lines. -/
def Space (s : List Char) : Prop := ∀ c ∈ s, c ∈ [' ', '\t', '\n', '\r']

/-- The digits of base 16, in both cases, and their values. -/
def hexDigits : List (Char × Nat) :=
  [('0', 0), ('1', 1), ('2', 2), ('3', 3), ('4', 4), ('5', 5), ('6', 6), ('7', 7), ('8', 8), ('9', 9), ('a', 10), ('b', 11), ('c', 12), ('d', 13),
    ('e', 14), ('f', 15), ('A', 10), ('B', 11), ('C', 12), ('D', 13), ('E', 14), ('F', 15)]

/-- Four digits of base 16. -/
def Hex4 (s : List Char) (n : Nat) : Prop :=
  ∃ a b c d x y z w, s = [a, b, c, d] ∧ (a, x) ∈ hexDigits ∧ (b, y) ∈ hexDigits ∧ (c, z) ∈ hexDigits ∧ (d, w) ∈ hexDigits ∧
    n = 4096 * x + 256 * y + 16 * z + w

/-- The escapes of two characters. -/
def shortEscapes : List (Char × Nat) :=
  [('"', 0x22), ('\\', 0x5c), ('/', 0x2f), ('b', 0x08), ('f', 0x0c), ('n', 0x0a), ('r', 0x0d), ('t', 0x09)]

/-- `char`: one character of a string. -/
inductive Letter : List Char → Char → Prop
  | plain (c : Char) : 0x20 ≤ c.toNat → c ≠ '"' → c ≠ '\\' → Letter [c] c
  | short (e c : Char) : (e, c.toNat) ∈ shortEscapes → Letter ['\\', e] c
  | unicode (c : Char) {s : List Char} : Hex4 s c.toNat → Letter ('\\' :: 'u' :: s) c
  | pair (c : Char) {s t : List Char} {hi lo : Nat} : Hex4 s hi → Hex4 t lo → 0xd800 ≤ hi → hi < 0xdc00 → 0xdc00 ≤ lo → lo < 0xe000 →
      c.toNat = 0x10000 + (hi - 0xd800) * 0x400 + (lo - 0xdc00) → Letter ('\\' :: 'u' :: s ++ '\\' :: 'u' :: t) c

/-- The characters of a string. -/
inductive Letters : List Char → List Char → Prop
  | nil : Letters [] []
  | cons {s t : List Char} {c : Char} {r : List Char} : Letter s c → Letters t r → Letters (s ++ t) (c :: r)

/-- `string`. -/
def Text (s : List Char) (x : String) : Prop := ∃ t, s = '"' :: (t ++ ['"']) ∧ Letters t x.toList

/-- `int`: digits without a zero in front. -/
def Int (d : List Char) : Prop := Digits d ∧ (d.head? = some '0' → d = ['0'])

/-- `frac`, possibly absent. -/
def Frac (p : List Char) : Prop := p = [] ∨ ∃ d, p = '.' :: d ∧ Digits d

/-- `exp`, possibly absent. -/
def Exp (e : List Char) : Prop := e = [] ∨ ∃ c g d, e = c :: (g ++ d) ∧ c ∈ ['e', 'E'] ∧ g ∈ [[], ['+'], ['-']] ∧ Digits d

/-- `number`: the integers from 0 to 2^64 - 1 and from -2^63 to -1 keep their value. -/
inductive Number (finite : List Char → Bool) : List Char → Json → Prop
  | nat {d : List Char} (n : U64) : Int d → decimal d = n.toNat → Number finite d (.nat n)
  | neg {d : List Char} (k : BitVec 63) : Int d → decimal d = k.toNat + 1 → Number finite ('-' :: d) (.neg k)
  | float {m d p e : List Char} : m ∈ [[], ['-']] → Int d → Frac p → Exp e → finite (m ++ d ++ p ++ e) = true →
      (p = [] → e = [] → m = [] → 2 ^ 64 ≤ decimal d) → (p = [] → e = [] → m = ['-'] → decimal d = 0 ∨ 2 ^ 63 < decimal d) →
      Number finite (m ++ d ++ p ++ e) .float

mutual

/-- `value`. -/
inductive Value (finite : List Char → Bool) : List Char → Json → Prop
  | null : Value finite "null".toList .null
  | true : Value finite "true".toList (.bool true)
  | false : Value finite "false".toList (.bool false)
  | number {s : List Char} {j : Json} : Number finite s j → Value finite s j
  | text {s : List Char} {x : String} : Text s x → Value finite s (.str x)
  | noElements {w : List Char} : Space w → Value finite ('[' :: (w ++ [']'])) (.arr [])
  | elements {s : List Char} {l : List Json} : Elements finite s l → Value finite ('[' :: (s ++ [']'])) (.arr l)
  | noMembers {w : List Char} : Space w → Value finite ('{' :: (w ++ ['}'])) (.obj [])
  | members {s : List Char} {m : List (String × Json)} : Members finite s m → Value finite ('{' :: (s ++ ['}'])) (.obj m)

/-- One or more values with commas between them. -/
inductive Elements (finite : List Char → Bool) : List Char → List Json → Prop
  | one {w s w' : List Char} {j : Json} : Space w → Value finite s j → Space w' → Elements finite (w ++ (s ++ w')) [j]
  | cons {w s w' t : List Char} {j : Json} {l : List Json} : Space w → Value finite s j → Space w' → Elements finite t l →
      Elements finite (w ++ (s ++ (w' ++ ',' :: t))) (j :: l)

/-- One or more members with commas between them. -/
inductive Members (finite : List Char → Bool) : List Char → List (String × Json) → Prop
  | one {w k w1 w2 s w' : List Char} {x : String} {j : Json} : Space w → Text k x → Space w1 → Space w2 → Value finite s j → Space w' →
      Members finite (w ++ (k ++ (w1 ++ ':' :: (w2 ++ (s ++ w'))))) [(x, j)]
  | cons {w k w1 w2 s w' t : List Char} {x : String} {j : Json} {m : List (String × Json)} : Space w → Text k x → Space w1 → Space w2 →
      Value finite s j → Space w' → Members finite t m → Members finite (w ++ (k ++ (w1 ++ ':' :: (w2 ++ (s ++ (w' ++ ',' :: t)))))) ((x, j) :: m)

end

/-- `JSON-text`: a value with white space around it. -/
def Document (finite : List Char → Bool) (s : List Char) (j : Json) : Prop :=
  ∃ w t w', s = w ++ (t ++ w') ∧ Space w ∧ Value finite t j ∧ Space w'

end Grammar

end Verif.Json
