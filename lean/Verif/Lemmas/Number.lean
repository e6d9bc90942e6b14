import Verif.Spec.Number
import Verif.Lemmas.Arith

/-!
# Decimal text
-/

namespace Verif

/-! ## Digits -/

theorem char_toNat_inj {c d : Char} (h : c.toNat = d.toNat) : c = d := Char.toNat_inj.mp h

theorem isDigit_iff (c : Char) : isDigit c = true ↔ c ∈ digitChars := by
  unfold isDigit
  simp only [Bool.and_eq_true, decide_eq_true_eq]
  constructor
  · rintro ⟨h1, h2⟩
    have : ∀ n : Fin 10, ∃ d ∈ digitChars, d.toNat = 48 + n.1 := by decide
    obtain ⟨d, hd, e⟩ := this ⟨c.toNat - 48, by omega⟩
    have : c = d := char_toNat_inj (by rw [e]; simp only; omega)
    rw [this]; exact hd
  · have : ∀ d ∈ digitChars, 48 ≤ d.toNat ∧ d.toNat ≤ 57 := by decide
    exact this c

theorem digit_value {c : Char} (h : c ∈ digitChars) : digitChars.idxOf c = c.toNat - 48 := by
  have : ∀ d ∈ digitChars, digitChars.idxOf d = d.toNat - 48 := by decide
  exact this c h

theorem digit_lt {c : Char} (h : c ∈ digitChars) : digitChars.idxOf c < 10 := by
  have : ∀ d ∈ digitChars, digitChars.idxOf d < 10 := by decide
  exact this c h

theorem decimal_lt {s : List Char} (h : ∀ c ∈ s, c ∈ digitChars) : decimal s < 10 ^ s.length := by
  induction s with
  | nil => simp [decimal]
  | cons c s ih =>
    rw [decimal, List.length_cons, Nat.pow_succ]
    have h1 := digit_lt (h c (by simp))
    have h2 := ih (fun d hd => h d (by simp [hd]))
    have : digitChars.idxOf c * 10 ^ s.length ≤ 9 * 10 ^ s.length := Nat.mul_le_mul_right _ (by omega)
    omega

theorem decimal_append (s t : List Char) : decimal (s ++ t) = decimal s * 10 ^ t.length + decimal t := by
  induction s with
  | nil => simp [decimal]
  | cons c s ih =>
    rw [List.cons_append, decimal, decimal, ih, List.length_append, Nat.pow_add, Nat.add_mul, Nat.mul_assoc, Nat.add_assoc]

theorem parseDigits_ok (s : List Char) : ∀ acc n : Nat, acc < 2 ^ 128 → (parseDigits acc s = .ok n ↔
    (∀ c ∈ s, c ∈ digitChars) ∧ n = acc * 10 ^ s.length + decimal s ∧ n < 2 ^ 128) := by
  induction s with
  | nil =>
    intro acc n h
    rw [parseDigits]
    simp only [decimal, List.length_nil, Nat.pow_zero, Nat.mul_one, Nat.add_zero]
    constructor
    · intro e; cases e; exact ⟨by simp, rfl, h⟩
    · rintro ⟨-, rfl, -⟩; rfl
  | cons c s ih =>
    intro acc n hacc
    rw [parseDigits]
    by_cases hd : c ∈ digitChars
    · rw [if_pos ((isDigit_iff c).mpr hd), ← digit_value hd]
      have hpow : 1 ≤ 10 ^ s.length := Nat.one_le_pow _ _ (by decide)
      have eq : acc * 10 ^ (c :: s).length + decimal (c :: s) = (10 * acc + digitChars.idxOf c) * 10 ^ s.length + decimal s := by
        rw [decimal, List.length_cons, Nat.pow_succ, Nat.add_mul, Nat.add_assoc]
        congr 1
        rw [Nat.mul_comm (10 ^ s.length) 10, ← Nat.mul_assoc, Nat.mul_comm acc 10]
      have hbig : ∀ x, 2 ^ 128 ≤ x → 2 ^ 128 ≤ x * 10 ^ s.length := fun x hx => Nat.le_trans hx (Nat.le_mul_of_pos_right _ hpow)
      by_cases h1 : 10 * acc < 2 ^ 128
      · rw [if_pos h1]
        by_cases h2 : 10 * acc + digitChars.idxOf c < 2 ^ 128
        · rw [if_pos h2, ih _ n h2, eq]
          simp [hd]
        · rw [if_neg h2]
          constructor
          · intro h; cases h
          · rintro ⟨-, rfl, h⟩
            rw [eq] at h
            have := hbig _ (Nat.le_of_not_lt h2)
            omega
      · rw [if_neg h1]
        constructor
        · intro h; cases h
        · rintro ⟨-, rfl, h⟩
          rw [eq] at h
          have := hbig (10 * acc + digitChars.idxOf c) (by omega)
          omega
    · rw [if_neg (by rw [isDigit_iff]; exact hd)]
      constructor
      · intro h; cases h
      · rintro ⟨h, -⟩
        exact absurd (h c (by simp)) hd

theorem parseDigits_error (s : List Char) : ∀ acc : Nat, acc < 2 ^ 128 → (∀ c ∈ s, c ∈ digitChars) →
    2 ^ 128 ≤ acc * 10 ^ s.length + decimal s → parseDigits acc s = .error .posOverflow := by
  induction s with
  | nil => intro acc h _ h'; simp only [decimal, List.length_nil, Nat.pow_zero, Nat.mul_one, Nat.add_zero] at h'; omega
  | cons c s ih =>
    intro acc hacc hall hov
    have hd := hall c (by simp)
    have eq : acc * 10 ^ (c :: s).length + decimal (c :: s) = (10 * acc + digitChars.idxOf c) * 10 ^ s.length + decimal s := by
      rw [decimal, List.length_cons, Nat.pow_succ, Nat.add_mul, Nat.add_assoc]
      congr 1
      rw [Nat.mul_comm (10 ^ s.length) 10, ← Nat.mul_assoc, Nat.mul_comm acc 10]
    rw [parseDigits, if_pos ((isDigit_iff c).mpr hd), ← digit_value hd]
    by_cases h1 : 10 * acc < 2 ^ 128
    · rw [if_pos h1]
      by_cases h2 : 10 * acc + digitChars.idxOf c < 2 ^ 128
      · rw [if_pos h2]
        exact ih _ h2 (fun d hd => hall d (by simp [hd])) (by rwa [eq] at hov)
      · rw [if_neg h2]
    · rw [if_neg h1]

theorem not_sign {c : Char} (h : c ∈ digitChars) : c ≠ '+' ∧ c ≠ '-' := by
  have : ∀ d ∈ digitChars, d ≠ '+' ∧ d ≠ '-' := by decide
  exact this c h

/-- The integer parser on strings of digits and points. -/
theorem parseU128_ok {s : List Char} (hp : ∀ c ∈ s, c ∈ digitChars ∨ c = '.') (v : U128) :
    parseU128 s = .ok v ↔ Digits s ∧ v.toNat = decimal s := by
  cases s with
  | nil =>
    rw [parseU128]
    constructor
    · intro h; cases h
    · rintro ⟨h, -⟩; exact absurd rfl h.1
  | cons c s =>
    have hs : c ≠ '+' ∧ c ≠ '-' := by
      rcases hp c (by simp) with h | h
      · exact not_sign h
      · subst h; decide
    rw [parseU128, if_neg (by rintro ⟨h | h, -⟩; exact hs.1 h; exact hs.2 h), if_neg hs.1]
    have key := parseDigits_ok (c :: s) 0
    simp only [Nat.zero_mul, Nat.zero_add] at key
    constructor
    · intro h
      cases hd : parseDigits 0 (c :: s) with
      | error e => rw [hd] at h; cases h
      | ok n =>
        rw [hd] at h
        obtain ⟨h1, h2, h3⟩ := (key n (by decide)).mp hd
        cases h
        refine ⟨⟨by simp, h1⟩, ?_⟩
        rw [BitVec.toNat_ofNat, Nat.mod_eq_of_lt h3, h2]
    · rintro ⟨h1, h2⟩
      rw [(key v.toNat (by decide)).mpr ⟨h1.2, h2, v.isLt⟩]
      simp

theorem parseU128_some {s : List Char} (h : Digits s) (hlt : decimal s < 2 ^ 128) :
    parseU128 s = .ok (BitVec.ofNat 128 (decimal s)) :=
  (parseU128_ok (fun c hc => .inl (h.2 c hc)) _).mpr ⟨h, by rw [BitVec.toNat_ofNat, Nat.mod_eq_of_lt hlt]⟩

theorem parseU128_bad {s : List Char} (hp : ∀ c ∈ s, c ∈ digitChars ∨ c = '.') (h : ¬ (Digits s ∧ decimal s < 2 ^ 128)) :
    ∃ e, parseU128 s = .error e := by
  cases hs : parseU128 s with
  | error e => exact ⟨e, rfl⟩
  | ok v =>
    obtain ⟨h1, h2⟩ := (parseU128_ok hp v).mp hs
    exact absurd ⟨h1, by rw [← h2]; exact v.isLt⟩ h

/-! ## Splitting -/

/-- What belongs to the number. -/
def isNum (c : Char) : Bool := isDigit c || c == '.'

theorem isNum_iff (c : Char) : isNum c = true ↔ c ∈ digitChars ∨ c = '.' := by
  unfold isNum
  rw [Bool.or_eq_true, isDigit_iff, beq_iff_eq]

theorem isWhite_iff (c : Char) : isWhite c = true ↔ Blank [c] := by
  unfold isWhite Blank
  simp only [List.contains_eq_mem, List.mem_cons, List.not_mem_nil, or_false, decide_eq_true_eq, forall_eq]
  omega

theorem blank_iff (s : List Char) : Blank s ↔ ∀ c ∈ s, isWhite c = true := by
  simp only [isWhite_iff]
  unfold Blank
  simp

theorem takeWhile_append {α : Type} {p : α → Bool} {a b : List α} (ha : ∀ x ∈ a, p x = true) (hb : ∀ x ∈ b.head?, p x = false) :
    (a ++ b).takeWhile p = a ∧ (a ++ b).dropWhile p = b := by
  induction a with
  | nil =>
    cases b with
    | nil => simp
    | cons x b => have := hb x (by simp); simp [this]
  | cons x a ih =>
    have h := ih (fun y hy => ha y (by simp [hy]))
    simp [ha x (by simp), h.1, h.2]

theorem dropWhile_white (s : List Char) : ∃ w, s = w ++ s.dropWhile isWhite ∧ Blank w ∧
    ∀ x ∈ (s.dropWhile isWhite).head?, isWhite x = false := by
  induction s with
  | nil => exact ⟨[], by simp, by simp [Blank], by simp⟩
  | cons c s ih =>
    by_cases h : isWhite c = true
    · obtain ⟨w, h1, h2, h3⟩ := ih
      refine ⟨c :: w, ?_, ?_, ?_⟩
      · rw [List.dropWhile_cons_of_pos h, List.cons_append, ← h1]
      · rw [blank_iff] at h2 ⊢
        intro x hx
        rcases List.mem_cons.mp hx with rfl | hx
        · exact h
        · exact h2 x hx
      · rw [List.dropWhile_cons_of_pos h]; exact h3
    · refine ⟨[], ?_, by simp [Blank], ?_⟩
      · rw [List.dropWhile_cons_of_neg h]; rfl
      · rw [List.dropWhile_cons_of_neg h]; simpa using h

/-- `trim` takes white space off both ends. -/
theorem trim_split (s : List Char) : ∃ w w', s = w ++ trim s ++ w' ∧ Blank w ∧ Blank w' := by
  obtain ⟨w, h1, h2, -⟩ := dropWhile_white s
  obtain ⟨v, h3, h4, -⟩ := dropWhile_white (s.dropWhile isWhite).reverse
  refine ⟨w, v.reverse, ?_, h2, ?_⟩
  · have := congrArg List.reverse h3
    rw [List.reverse_reverse, List.reverse_append] at this
    unfold trim
    rw [List.append_assoc, ← this, ← h1]
  · rw [blank_iff] at h4 ⊢
    intro x hx
    exact h4 x (by simpa using hx)

theorem trim_eq {w u w' : List Char} (hw : Blank w) (hw' : Blank w') (hu : ∀ c ∈ u, isWhite c = false) :
    trim (w ++ u ++ w') = u := by
  rw [blank_iff] at hw hw'
  unfold trim
  cases u with
  | nil =>
    have h1 : (w ++ [] ++ w').dropWhile isWhite = [] := by
      have := (takeWhile_append (p := isWhite) (a := w ++ [] ++ w') (b := []) (by
        intro x hx
        rcases List.mem_append.mp hx with hx | hx
        · exact hw x (by simpa using hx)
        · exact hw' x hx) (by simp)).2
      rwa [List.append_nil] at this
    rw [h1]
    rfl
  | cons c u =>
    rw [List.append_assoc, (takeWhile_append (p := isWhite) hw (by simpa using hu c (by simp))).2, List.reverse_append]
    rw [(takeWhile_append (p := isWhite) (by simpa using hw') ?_).2, List.reverse_reverse]
    intro x hx
    exact hu x (List.mem_reverse.mp (List.mem_of_mem_head? hx))

/-- How `parse_string` cuts its argument. -/
theorem cut_iff (s t u : List Char) (ht : ∀ c ∈ t, isNum c = true) (hu : ∀ c ∈ u, isNum c = false ∧ isWhite c = false) :
    (∃ w w', s = t ++ w ++ u ++ w' ∧ Blank w ∧ Blank w') ↔ s.takeWhile isNum = t ∧ trim (s.dropWhile isNum) = u := by
  have wn : ∀ c, isWhite c = true → isNum c = false := by
    intro c hc
    cases hn : isNum c with
    | false => rfl
    | true =>
      have : ∀ d ∈ digitChars, isWhite d = false := by decide
      rcases (isNum_iff c).mp hn with h | h
      · rw [this c h] at hc; cases hc
      · subst h; revert hc; decide
  constructor
  · rintro ⟨w, w', rfl, hw, hw'⟩
    have hhead : ∀ x ∈ (w ++ u ++ w').head?, isNum x = false := by
      intro x hx
      have hx := List.mem_of_mem_head? hx
      rw [blank_iff] at hw hw'
      rcases List.mem_append.mp hx with hx | hx
      · rcases List.mem_append.mp hx with hx | hx
        · exact wn x (hw x hx)
        · exact (hu x hx).1
      · exact wn x (hw' x hx)
    have := takeWhile_append (p := isNum) ht hhead
    rw [show t ++ w ++ u ++ w' = t ++ (w ++ u ++ w') by simp]
    exact ⟨this.1, by rw [this.2]; exact trim_eq hw hw' (fun c hc => (hu c hc).2)⟩
  · rintro ⟨h1, h2⟩
    obtain ⟨w, w', h3, h4, h5⟩ := trim_split (s.dropWhile isNum)
    refine ⟨w, w', ?_, h4, h5⟩
    rw [h2] at h3
    rw [← h1, List.append_assoc, List.append_assoc, ← List.append_assoc w, ← h3, List.takeWhile_append_dropWhile]

theorem takeWhile_num (s : List Char) : ∀ c ∈ s.takeWhile isNum, c ∈ digitChars ∨ c = '.' := by
  intro c hc
  have h : isNum c = true := by
    have := List.all_takeWhile (p := isNum) (l := s)
    rw [List.all_eq_true] at this
    exact this c hc
  exact (isNum_iff c).mp h

theorem trim_num (s : List Char) : trim (s.takeWhile isNum) = s.takeWhile isNum := by
  have := trim_eq (w := []) (w' := []) (u := s.takeWhile isNum) (by simp [Blank]) (by simp [Blank]) (by
    intro c hc
    rcases takeWhile_num s c hc with h | h
    · have : ∀ d ∈ digitChars, isWhite d = false := by decide
      exact this c h
    · subst h; decide)
  simpa using this

theorem splitDot_ne (s : List Char) : splitDot s ≠ [] := by
  cases s with
  | nil => simp [splitDot]
  | cons c s =>
    rw [splitDot]
    split
    · simp
    · split <;> simp

theorem splitDot_nodot {s : List Char} (h : '.' ∉ s) : splitDot s = [s] := by
  induction s with
  | nil => rfl
  | cons c s ih =>
    rw [splitDot, if_neg (fun e => h (by simp [e])), ih (fun e => h (by simp [e]))]

theorem splitDot_append {a : List Char} (h : '.' ∉ a) (b : List Char) : splitDot (a ++ '.' :: b) = a :: splitDot b := by
  induction a with
  | nil => simp [splitDot]
  | cons c a ih =>
    rw [List.cons_append, splitDot, if_neg (fun e => h (by simp [e])), ih (fun e => h (by simp [e]))]

theorem first_dot {s : List Char} (h : '.' ∈ s) : ∃ a b, '.' ∉ a ∧ s = a ++ '.' :: b := by
  induction s with
  | nil => simp at h
  | cons c s ih =>
    by_cases hc : c = '.'
    · exact ⟨[], s, by simp, by rw [hc]; rfl⟩
    · have : '.' ∈ s := by
        rcases List.mem_cons.mp h with h | h
        · exact absurd h.symm hc
        · exact h
      obtain ⟨a, b, h1, h2⟩ := ih this
      refine ⟨c :: a, b, ?_, by rw [h2]; rfl⟩
      intro hm
      rcases List.mem_cons.mp hm with hm | hm
      · exact hc hm.symm
      · exact h1 hm

/-- The three cases of the number of points. -/
theorem splitDot_cases (s : List Char) : ('.' ∉ s ∧ splitDot s = [s]) ∨
    (∃ a b, s = a ++ '.' :: b ∧ '.' ∉ a ∧ '.' ∉ b ∧ splitDot s = [a, b]) ∨
    (∃ a b, s = a ++ '.' :: b ∧ '.' ∉ a ∧ '.' ∈ b ∧ 2 < (splitDot s).length) := by
  by_cases h : '.' ∈ s
  · obtain ⟨a, b, h1, rfl⟩ := first_dot h
    rw [splitDot_append h1]
    by_cases hb : '.' ∈ b
    · obtain ⟨x, y, h2, rfl⟩ := first_dot hb
      refine .inr (.inr ⟨a, _, rfl, h1, hb, ?_⟩)
      rw [splitDot_append h2]
      have := splitDot_ne y
      cases hy : splitDot y with
      | nil => exact absurd hy this
      | cons p ps => simp
    · exact .inr (.inl ⟨a, b, rfl, h1, hb, by rw [splitDot_nodot hb]⟩)
  · exact .inl ⟨h, splitDot_nodot h⟩

/-! ## Units and the arithmetic -/

theorem scalingFactor_some (u : List Char) (x : Int) : scalingFactor u = some x ↔ ∃ e : Nat, (u, e) ∈ units ∧ x = (e : Int) - 24 := by
  constructor
  · intro h
    unfold scalingFactor at h
    repeat' split at h
    all_goals cases h
    all_goals subst_vars
    all_goals first
      | exact ⟨12, by decide, by decide⟩
      | exact ⟨15, by decide, by decide⟩
      | exact ⟨18, by decide, by decide⟩
      | exact ⟨21, by decide, by decide⟩
      | exact ⟨24, by decide, by decide⟩
      | exact ⟨27, by decide, by decide⟩
      | exact ⟨30, by decide, by decide⟩
      | exact ⟨33, by decide, by decide⟩
      | exact ⟨36, by decide, by decide⟩
  · rintro ⟨e, he, rfl⟩
    simp only [units, List.mem_cons, Prod.mk.injEq, List.not_mem_nil, or_false] at he
    rcases he with ⟨rfl, rfl⟩ | ⟨rfl, rfl⟩ | ⟨rfl, rfl⟩ | ⟨rfl, rfl⟩ | ⟨rfl, rfl⟩ | ⟨rfl, rfl⟩ | ⟨rfl, rfl⟩ | ⟨rfl, rfl⟩ | ⟨rfl, rfl⟩ <;> decide

theorem unit_range {u : List Char} {e : Nat} (h : (u, e) ∈ units) : 12 ≤ e ∧ e ≤ 36 := by
  have : ∀ p ∈ units, 12 ≤ p.2 ∧ p.2 ≤ 36 := by decide
  exact this _ h

theorem unit_letters {u : List Char} {e : Nat} (h : (u, e) ∈ units) : ∀ c ∈ u, isNum c = false ∧ isWhite c = false := by
  have : ∀ p ∈ units, ∀ c ∈ p.1, isNum c = false ∧ isWhite c = false := by decide
  exact this _ h

theorem unit_unique {u : List Char} {e e' : Nat} (h : (u, e) ∈ units) (h' : (u, e') ∈ units) : e = e' := by
  have := ((scalingFactor_some u _).mpr ⟨e, h, rfl⟩).symm.trans ((scalingFactor_some u _).mpr ⟨e', h', rfl⟩)
  injection this with this
  omega

theorem not_hastings {u : List Char} {e : Nat} (h : (u, e) ∈ units) : ¬ (u = [] ∨ u = ['H']) := by
  have : ∀ p ∈ units, ¬ (p.1 = [] ∨ p.1 = ['H']) := by decide
  exact this _ h

theorem scale_toInt {e : Nat} (h1 : 12 ≤ e) (h2 : e ≤ 36) : (BitVec.ofInt 32 ((e : Int) - 24)).toInt = (e : Int) - 24 := by
  rw [BitVec.toInt_ofInt]
  have : (2 : Int) ^ 32 = 4294967296 := by decide
  rw [Int.bmod_def]
  split <;> omega

theorem scale_toNat {e : Nat} (_ : 12 ≤ e) (_ : e ≤ 36) : (BitVec.ofInt 32 ((e : Int) - 24)).toNat = (e + 4294967272) % 4294967296 := by
  rw [BitVec.toNat_ofInt]
  omega

theorem pow10_mul {n : Nat} : 10 ^ n < 2 ^ 128 ↔ n ≤ 38 := by
  constructor
  · intro h
    apply Classical.byContradiction
    intro hn
    have : 10 ^ 39 ≤ 10 ^ n := Nat.pow_le_pow_right (by decide) (by omega)
    have : (2 : Nat) ^ 128 < 10 ^ 39 := by decide
    omega
  · intro h
    exact Nat.lt_of_le_of_lt (Nat.pow_le_pow_right (by decide) h) (by decide)

/-- The arithmetic of a checked build, for a fraction of fewer than 2^31 digits. -/
theorem scaledAmount_checked (i f : U128) {k e : Nat} (h1 : 12 ≤ e) (h2 : e ≤ 36) (hk : k < 2 ^ 31) :
    scaledAmount .checked i f (BitVec.ofNat 32 k) (BitVec.ofInt 32 ((e : Int) - 24)) =
      if k ≤ e ∧ i.toNat * 10 ^ e + f.toNat * 10 ^ (e - k) < 2 ^ 128 then
        .ok ⟨BitVec.ofNat 128 (i.toNat * 10 ^ e + f.toNat * 10 ^ (e - k))⟩
      else .panic := by
  have hs := scale_toInt h1 h2
  have hn := scale_toNat h1 h2
  have hkn : (BitVec.ofNat 32 k).toNat = k := by
    rw [BitVec.toNat_ofNat]; omega
  have hki : (BitVec.ofNat 32 k).toInt = k := by
    rw [BitVec.toInt_eq_toNat_bmod, hkn, Int.bmod_def]
    split <;> omega
  have h24 : (24 : BitVec 32).toInt = 24 := by decide
  have h24n : (24 : BitVec 32).toNat = 24 := by decide
  have e1 : ((24 : BitVec 32) + BitVec.ofInt 32 ((e : Int) - 24)).toNat = e := by
    rw [BitVec.toNat_add, hn, h24n]; omega
  have e2i : ((24 : BitVec 32) - BitVec.ofNat 32 k).toInt = 24 - (k : Int) := by
    rw [BitVec.toInt_sub, h24, hki, Int.bmod_def]
    split <;> omega
  have e2n : ((24 : BitVec 32) - BitVec.ofNat 32 k).toNat = (24 + 4294967296 - k) % 4294967296 := by
    rw [BitVec.toNat_sub, hkn, h24n]; omega
  obtain ⟨x, e3, hx1, hx2⟩ : ∃ x, ((24 : BitVec 32) - BitVec.ofNat 32 k + BitVec.ofInt 32 ((e : Int) - 24)).toNat = x ∧
      (k ≤ e → x = e - k) ∧ (¬ k ≤ e → 128 ≤ x) := by
    refine ⟨_, rfl, ?_, ?_⟩ <;> rw [BitVec.toNat_add, hn, e2n] <;> omega
  have hpe : (BitVec.ofNat 128 (10 ^ e)).toNat = 10 ^ e := by
    rw [BitVec.toNat_ofNat, Nat.mod_eq_of_lt (pow10_mul.mpr (by omega))]
  unfold scaledAmount
  simp only [addS, subS, mulU, addU]
  rw [if_pos (by rw [h24, hs]; omega)]
  simp only [Res.ok_bind]
  rw [pow10_checked, e1, if_pos (pow10_mul.mpr (by omega))]
  simp only [Res.ok_bind, hpe]
  by_cases c1 : i.toNat * 10 ^ e < 2 ^ 128
  · rw [if_pos c1]
    simp only [Res.ok_bind]
    rw [if_pos (by rw [h24, hki]; omega)]
    simp only [Res.ok_bind]
    rw [e2i, hs, if_pos (by omega)]
    simp only [Res.ok_bind]
    rw [pow10_checked, e3]
    by_cases c2 : k ≤ e
    · rw [hx1 c2, if_pos (pow10_mul.mpr (by omega))]
      have hpk : (BitVec.ofNat 128 (10 ^ (e - k))).toNat = 10 ^ (e - k) := by
        rw [BitVec.toNat_ofNat, Nat.mod_eq_of_lt (pow10_mul.mpr (by omega))]
      simp only [Res.ok_bind, hpk]
      by_cases c3 : f.toNat * 10 ^ (e - k) < 2 ^ 128
      · rw [if_pos c3]
        simp only [Res.ok_bind]
        have m1 : (i * BitVec.ofNat 128 (10 ^ e)).toNat = i.toNat * 10 ^ e := by
          rw [BitVec.toNat_mul, hpe, Nat.mod_eq_of_lt c1]
        have m2 : (f * BitVec.ofNat 128 (10 ^ (e - k))).toNat = f.toNat * 10 ^ (e - k) := by
          rw [BitVec.toNat_mul, hpk, Nat.mod_eq_of_lt c3]
        rw [m1, m2]
        by_cases c4 : i.toNat * 10 ^ e + f.toNat * 10 ^ (e - k) < 2 ^ 128
        · rw [if_pos c4, if_pos ⟨c2, c4⟩]
          simp only [Res.ok_bind, Res.pure_eq]
          congr 2
          apply BitVec.eq_of_toNat_eq
          rw [BitVec.toNat_add, m1, m2, BitVec.toNat_ofNat]
        · rw [if_neg c4, if_neg (fun h => c4 h.2)]; simp only [Res.panic_bind]
      · have c5 : ¬ (k ≤ e ∧ i.toNat * 10 ^ e + f.toNat * 10 ^ (e - k) < 2 ^ 128) := fun h => c3 (by omega)
        rw [if_neg c3, if_neg c5]; simp only [Res.panic_bind]
    · have c5 : ¬ (k ≤ e ∧ i.toNat * 10 ^ e + f.toNat * 10 ^ (e - k) < 2 ^ 128) := fun h => c2 h.1
      have c6 : ¬ (10 ^ x < 2 ^ 128) := by have := hx2 c2; rw [pow10_mul]; omega
      rw [if_neg c6, if_neg c5]; simp only [Res.panic_bind]
  · have c5 : ¬ (k ≤ e ∧ i.toNat * 10 ^ e + f.toNat * 10 ^ (e - k) < 2 ^ 128) := fun h => c1 (by omega)
    rw [if_neg c1, if_neg c5]; simp only [Res.panic_bind]

theorem ten_pow_mod {n : Nat} (h : 128 ≤ n) : 10 ^ n % 2 ^ 128 = 0 := by
  obtain ⟨m, rfl⟩ : ∃ m, n = 128 + m := ⟨n - 128, by omega⟩
  rw [Nat.pow_add, show (10 : Nat) = 2 * 5 from rfl, Nat.mul_pow]
  rw [Nat.mul_assoc, Nat.mul_mod_right]

/-- The arithmetic of an unchecked build. -/
theorem scaledAmount_unchecked (i f : U128) {k e : Nat} (h1 : 12 ≤ e) (h2 : e ≤ 36) (hk : k < 2 ^ 31) :
    scaledAmount .unchecked i f (BitVec.ofNat 32 k) (BitVec.ofInt 32 ((e : Int) - 24)) =
      .ok ⟨BitVec.ofNat 128 (i.toNat * 10 ^ e + (if k ≤ e then f.toNat * 10 ^ (e - k) else 0))⟩ := by
  have hn := scale_toNat h1 h2
  have hkn : (BitVec.ofNat 32 k).toNat = k := by
    rw [BitVec.toNat_ofNat]; omega
  have h24n : (24 : BitVec 32).toNat = 24 := by decide
  have e1 : ((24 : BitVec 32) + BitVec.ofInt 32 ((e : Int) - 24)).toNat = e := by
    rw [BitVec.toNat_add, hn, h24n]; omega
  have e2n : ((24 : BitVec 32) - BitVec.ofNat 32 k).toNat = (24 + 4294967296 - k) % 4294967296 := by
    rw [BitVec.toNat_sub, hkn, h24n]; omega
  obtain ⟨x, e3, hx1, hx2⟩ : ∃ x, ((24 : BitVec 32) - BitVec.ofNat 32 k + BitVec.ofInt 32 ((e : Int) - 24)).toNat = x ∧
      (k ≤ e → x = e - k) ∧ (¬ k ≤ e → 128 ≤ x) := by
    refine ⟨_, rfl, ?_, ?_⟩ <;> rw [BitVec.toNat_add, hn, e2n] <;> omega
  unfold scaledAmount
  simp only [addS, subS, mulU, addU, Res.ok_bind, pow10_unchecked, e1, e3, Res.pure_eq]
  congr 2
  apply BitVec.eq_of_toNat_eq
  by_cases c : k ≤ e
  · rw [if_pos c, hx1 c]
    simp only [BitVec.toNat_add, BitVec.toNat_mul, BitVec.toNat_ofNat, Nat.mul_mod_mod, Nat.add_mod_mod, Nat.mod_add_mod]
  · rw [if_neg c]
    simp only [BitVec.toNat_add, BitVec.toNat_mul, BitVec.toNat_ofNat, Nat.mul_mod_mod, Nat.add_mod_mod, Nat.mod_add_mod]
    obtain ⟨y, hy⟩ := Nat.dvd_of_mod_eq_zero (ten_pow_mod (hx2 c))
    rw [hy, show f.toNat * (2 ^ 128 * y) = 2 ^ 128 * (f.toNat * y) by rw [Nat.mul_left_comm], Nat.add_mul_mod_self_left, Nat.add_zero]

end Verif

namespace Verif

/-! ## `parse_string` -/

/-- The number and the unit `parse_string` works with. -/
def valueOf (s : List Char) : List Char := s.takeWhile isNum

@[inherit_doc valueOf] def unitOf (s : List Char) : List Char := trim (s.dropWhile isNum)

theorem parseCurrency_eq (m : Mode) (s : List Char) : parseCurrency m s =
    if unitOf s = [] ∨ unitOf s = ['H'] then
      match parseU128 (valueOf s) with
      | .ok v => .ok ⟨v⟩
      | .error e => .err (.parseInt e)
    else match scalingFactor (unitOf s) with
      | none => .err (.invalidUnit (unitOf s))
      | some scale =>
        if (splitDot (valueOf s)).length > 2 then .err (.invalidFormat "too many decimal points")
        else match parseU128 ((splitDot (valueOf s)).getD 0 []) with
          | .error _ => .err (.invalidFormat "invalid integer part")
          | .ok integerPart =>
            if (splitDot (valueOf s)).length = 2 then
              match parseU128 ((splitDot (valueOf s)).getD 1 []) with
              | .error _ => .err (.invalidFormat "invalid integer part")
              | .ok fractionPart =>
                Out.lift (scaledAmount m integerPart fractionPart (BitVec.ofNat 32 ((splitDot (valueOf s)).getD 1 []).length)
                  (BitVec.ofInt 32 scale)) .ok
            else Out.lift (scaledAmount m integerPart 0 0 (BitVec.ofInt 32 scale)) .ok := by
  have h : trim (s.takeWhile fun c => isDigit c || c == '.') = valueOf s := trim_num s
  unfold parseCurrency
  simp only [h]
  rfl

theorem digits_num {s : List Char} (h : Digits s) : ∀ c ∈ s, isNum c = true :=
  fun c hc => (isNum_iff c).mpr (.inl (h.2 c hc))

theorem inHastings_iff (s : List Char) (n : Nat) :
    InHastings s n ↔ (unitOf s = [] ∨ unitOf s = ['H']) ∧ Digits (valueOf s) ∧ n = decimal (valueOf s) := by
  have hu : ∀ u : List Char, u = [] ∨ u = ['H'] → ∀ c ∈ u, isNum c = false ∧ isWhite c = false := by
    rintro u (rfl | rfl)
    · simp
    · decide
  constructor
  · rintro ⟨d, w, u, w', h, hd, hw, hu', hw', rfl⟩
    obtain ⟨h1, h2⟩ := (cut_iff s d u (digits_num hd) (hu u hu')).mp ⟨w, w', h, hw, hw'⟩
    rw [unitOf, valueOf, h1, h2]
    exact ⟨hu', hd, rfl⟩
  · rintro ⟨h1, h2, rfl⟩
    obtain ⟨w, w', h3, h4, h5⟩ := (cut_iff s (valueOf s) (unitOf s) (digits_num h2) (hu _ h1)).mpr ⟨rfl, rfl⟩
    exact ⟨valueOf s, w, unitOf s, w', h3, h2, h4, h1, h5, rfl⟩

theorem inUnits_iff (s int frac : List Char) (e : Nat) :
    InUnits s int frac e ↔ (unitOf s, e) ∈ units ∧ valueOf s = int ++ (if frac = [] then [] else '.' :: frac) ∧ Digits int ∧
      (frac = [] ∨ Digits frac) := by
  have hn : Digits int → (frac = [] ∨ Digits frac) → ∀ c ∈ int ++ (if frac = [] then [] else '.' :: frac), isNum c = true := by
    intro h1 h2 c hc
    rcases List.mem_append.mp hc with hc | hc
    · exact digits_num h1 c hc
    · rcases h2 with rfl | h2
      · simp at hc
      · rw [if_neg h2.1] at hc
        rcases List.mem_cons.mp hc with rfl | hc
        · rfl
        · exact digits_num h2 c hc
  constructor
  · rintro ⟨w, u, w', h, hi, hf, hw, hu, hw'⟩
    obtain ⟨h1, h2⟩ := (cut_iff s _ u (hn hi hf) (unit_letters hu)).mp ⟨w, w', h, hw, hw'⟩
    rw [unitOf, valueOf, h1, h2]
    exact ⟨hu, rfl, hi, hf⟩
  · rintro ⟨hu, hv, hi, hf⟩
    obtain ⟨w, w', h3, h4, h5⟩ := (cut_iff s _ _ (hn hi hf) (unit_letters hu)).mpr ⟨hv, rfl⟩
    exact ⟨w, unitOf s, w', h3, hi, hf, h4, hu, h5⟩

theorem digits_nodot {s : List Char} (h : Digits s) : '.' ∉ s := fun hd => by
  have := h.2 _ hd
  revert this
  decide

/-- On a well-formed amount of a unit, `parse_string` comes to the arithmetic. -/
theorem parse_units {m : Mode} {s int frac : List Char} {e : Nat} (h : InUnits s int frac e) (hi : decimal int < 2 ^ 128)
    (hf : decimal frac < 2 ^ 128) : parseCurrency m s =
      Out.lift (scaledAmount m (BitVec.ofNat 128 (decimal int)) (BitVec.ofNat 128 (decimal frac)) (BitVec.ofNat 32 frac.length)
        (BitVec.ofInt 32 ((e : Int) - 24))) .ok := by
  obtain ⟨hu, hv, h1, h2⟩ := (inUnits_iff s int frac e).mp h
  rw [parseCurrency_eq, if_neg (not_hastings hu), (scalingFactor_some _ _).mpr ⟨e, hu, rfl⟩, hv]
  simp only
  rcases h2 with rfl | h2
  · rw [if_pos rfl, List.append_nil, splitDot_nodot (digits_nodot h1)]
    simp only [List.length_singleton, List.getD_cons_zero]
    rw [if_neg (by omega), parseU128_some h1 hi]
    simp only
    rw [if_neg (by omega)]
    rfl
  · rw [if_neg h2.1, splitDot_append (digits_nodot h1), splitDot_nodot (digits_nodot h2)]
    simp only [List.length_cons, List.length_nil, List.getD_cons_zero, List.getD_cons_succ]
    rw [if_neg (by omega), parseU128_some h1 hi]
    simp only
    rw [if_pos trivial, parseU128_some h2 hf]

/-- Otherwise it is an error. -/
theorem parse_malformed {m : Mode} {s : List Char} {e : Nat} (hu : (unitOf s, e) ∈ units)
    (h : ¬ ∃ int frac, InUnits s int frac e ∧ decimal int < 2 ^ 128 ∧ decimal frac < 2 ^ 128) :
    ∃ msg, parseCurrency m s = .err (.invalidFormat msg) := by
  rw [parseCurrency_eq, if_neg (not_hastings hu), (scalingFactor_some _ _).mpr ⟨e, hu, rfl⟩]
  simp only
  have hnum := takeWhile_num s
  rcases splitDot_cases (valueOf s) with ⟨h1, h2⟩ | ⟨a, b, h1, h2, h3, h4⟩ | ⟨a, b, h1, h2, h3, h4⟩
  · rw [h2]
    simp only [List.length_singleton, List.getD_cons_zero]
    rw [if_neg (by omega)]
    obtain ⟨x, hx⟩ := parseU128_bad (s := valueOf s) hnum (fun hd => h ⟨valueOf s, [], (inUnits_iff _ _ _ _).mpr
      ⟨hu, by rw [if_pos rfl, List.append_nil], hd.1, .inl rfl⟩, hd.2, by simp [decimal]⟩)
    rw [hx]
    exact ⟨_, rfl⟩
  · have ha : ∀ c ∈ a, c ∈ digitChars ∨ c = '.' := fun c hc => hnum c (by
      show c ∈ valueOf s
      rw [h1]; exact List.mem_append_left _ hc)
    have hb : ∀ c ∈ b, c ∈ digitChars ∨ c = '.' := fun c hc => hnum c (by
      show c ∈ valueOf s
      rw [h1]; exact List.mem_append_right _ (List.mem_cons_of_mem _ hc))
    rw [h4]
    simp only [List.length_cons, List.length_nil, List.getD_cons_zero, List.getD_cons_succ]
    rw [if_neg (by omega)]
    by_cases hda : Digits a ∧ decimal a < 2 ^ 128
    · rw [parseU128_some hda.1 hda.2]
      simp only
      rw [if_pos trivial]
      obtain ⟨x, hx⟩ := parseU128_bad (s := b) hb (fun hd => h ⟨a, b, (inUnits_iff _ _ _ _).mpr
        ⟨hu, by rw [if_neg hd.1.1, h1], hda.1, .inr hd.1⟩, hda.2, hd.2⟩)
      rw [hx]
      exact ⟨_, rfl⟩
    · obtain ⟨x, hx⟩ := parseU128_bad (s := a) ha hda
      rw [hx]
      exact ⟨_, rfl⟩
  · rw [if_pos h4]
    exact ⟨_, rfl⟩

theorem parse_hastings {m : Mode} {s : List Char} (hu : unitOf s = [] ∨ unitOf s = ['H']) :
    (∃ n, InHastings s n ∧ n < 2 ^ 128 ∧ parseCurrency m s = .ok ⟨BitVec.ofNat 128 n⟩) ∨
    ((¬ ∃ n, InHastings s n ∧ n < 2 ^ 128) ∧ ∃ e, parseCurrency m s = .err (.parseInt e)) := by
  rw [parseCurrency_eq, if_pos hu]
  by_cases hd : Digits (valueOf s) ∧ decimal (valueOf s) < 2 ^ 128
  · exact .inl ⟨_, (inHastings_iff _ _).mpr ⟨hu, hd.1, rfl⟩, hd.2, by rw [parseU128_some hd.1 hd.2]⟩
  · obtain ⟨x, hx⟩ := parseU128_bad (s := valueOf s) (takeWhile_num s) hd
    refine .inr ⟨?_, x, by rw [hx]⟩
    rintro ⟨n, hn, hlt⟩
    obtain ⟨-, h1, rfl⟩ := (inHastings_iff _ _).mp hn
    exact hd ⟨h1, hlt⟩

/-- The three kinds of strings. -/
theorem unit_cases (s : List Char) : (unitOf s = [] ∨ unitOf s = ['H']) ∨ (∃ e, (unitOf s, e) ∈ units) ∨
    (¬ (unitOf s = [] ∨ unitOf s = ['H']) ∧ (∀ e, (unitOf s, e) ∉ units) ∧
      ∀ m, parseCurrency m s = .err (.invalidUnit (unitOf s))) := by
  by_cases h1 : unitOf s = [] ∨ unitOf s = ['H']
  · exact .inl h1
  · cases h2 : scalingFactor (unitOf s) with
    | some x =>
      obtain ⟨e, he, -⟩ := (scalingFactor_some _ _).mp h2
      exact .inr (.inl ⟨e, he⟩)
    | none =>
      refine .inr (.inr ⟨h1, fun e he => ?_, fun m => by rw [parseCurrency_eq, if_neg h1, h2]⟩)
      rw [(scalingFactor_some _ _).mpr ⟨e, he, rfl⟩] at h2
      cases h2

theorem inUnits_notHastings {s int frac : List Char} {e n : Nat} (h : InUnits s int frac e) : ¬ InHastings s n := fun h' =>
  not_hastings ((inUnits_iff _ _ _ _).mp h).1 ((inHastings_iff _ _).mp h').1

theorem inUnits_unique {s int frac int' frac' : List Char} {e e' : Nat} (h : InUnits s int frac e) (h' : InUnits s int' frac' e') :
    int = int' ∧ frac = frac' ∧ e = e' := by
  obtain ⟨a1, a2, a3, a4⟩ := (inUnits_iff _ _ _ _).mp h
  obtain ⟨b1, b2, b3, b4⟩ := (inUnits_iff _ _ _ _).mp h'
  have hs := a2.symm.trans b2
  have he := unit_unique a1 b1
  have key := congrArg splitDot hs
  rcases a4 with rfl | a4 <;> rcases b4 with rfl | b4
  · simp only [if_true, List.append_nil] at hs
    exact ⟨hs, rfl, he⟩
  · rw [if_pos rfl, List.append_nil, if_neg b4.1, splitDot_append (digits_nodot b3), splitDot_nodot (digits_nodot a3)] at key
    injection key with _ key
    exact absurd key.symm (splitDot_ne _)
  · rw [if_pos rfl, List.append_nil, if_neg a4.1, splitDot_append (digits_nodot a3), splitDot_nodot (digits_nodot b3)] at key
    injection key with _ key
    exact absurd key (splitDot_ne _)
  · rw [if_neg a4.1, if_neg b4.1, splitDot_append (digits_nodot a3), splitDot_append (digits_nodot b3),
      splitDot_nodot (digits_nodot a4), splitDot_nodot (digits_nodot b4)] at key
    simp only [List.cons.injEq, and_true] at key
    exact ⟨key.1, key.2, he⟩

theorem denotes_iff {int frac : List Char} {e n : Nat} (h : frac.length ≤ e) :
    Denotes int frac e n ↔ n = decimal int * 10 ^ e + decimal frac * 10 ^ (e - frac.length) := by
  unfold Denotes
  have : decimal (int ++ frac) * 10 ^ e = (decimal int * 10 ^ e + decimal frac * 10 ^ (e - frac.length)) * 10 ^ frac.length := by
    rw [decimal_append, Nat.add_mul, Nat.add_mul, Nat.mul_right_comm, Nat.mul_assoc (decimal frac), ← Nat.pow_add,
      show e - frac.length + frac.length = e by omega]
  rw [this]
  exact ⟨fun h => Nat.eq_of_mul_eq_mul_right (Nat.pow_pos (by decide)) h, fun h => by rw [h]⟩

theorem inUnits_fracLength {s int frac : List Char} {e : Nat} (h : InUnits s int frac e) : frac.length ≤ s.length := by
  obtain ⟨w, u, w', rfl, -, -, -, -, -⟩ := h
  split
  · rename_i h; rw [h]; simp
  · simp; omega

theorem inUnits_fracSmall {s int frac : List Char} {e : Nat} (h : InUnits s int frac e) (hf : frac.length ≤ e) :
    decimal frac < 2 ^ 128 := by
  obtain ⟨a1, -, -, a4⟩ := (inUnits_iff _ _ _ _).mp h
  have hr := unit_range a1
  rcases a4 with rfl | a4
  · simp [decimal]
  · have h1 := decimal_lt a4.2
    have h2 : 10 ^ frac.length < 2 ^ 128 := pow10_mul.mpr (by omega)
    omega

end Verif
