import Verif.Lemmas.Number
import Verif.Model.Rfc3339
import Verif.Spec.Rfc3339

/-!
# Facts about timestamps as text
-/

namespace Verif

namespace Rfc3339

open Calendar

/-! ## The calendar -/

theorem isLeap_iff (y : Nat) : isLeap y = true ↔ Leap y := by
  unfold isLeap Leap
  simp only [Bool.and_eq_true, Bool.or_eq_true, beq_iff_eq, bne_iff_ne, Nat.dvd_iff_mod_eq_zero]
  omega

theorem isLeap_eq (y : Nat) : (if isLeap y = true then 29 else 28) = if Leap y then 29 else 28 := by
  simp only [isLeap_iff]

theorem monthLength_eq {y m : Nat} (h1 : 1 ≤ m) (h2 : m ≤ 12) : monthLength y m = (months y).getD (m - 1) 0 := by
  unfold monthLength months
  rw [← isLeap_eq]
  have : m = 1 ∨ m = 2 ∨ m = 3 ∨ m = 4 ∨ m = 5 ∨ m = 6 ∨ m = 7 ∨ m = 8 ∨ m = 9 ∨ m = 10 ∨ m = 11 ∨ m = 12 := by omega
  rcases this with rfl | rfl | rfl | rfl | rfl | rfl | rfl | rfl | rfl | rfl | rfl | rfl <;> rfl

theorem yearDays_eq (y : Nat) : yearDays y = if Leap y then 366 else 365 := by
  unfold yearDays months
  by_cases h : Leap y <;> simp [h]

theorem yearStart_split (y : Nat) : ∃ q c k j, y = 400 * q + 100 * c + 4 * k + j ∧ c < 4 ∧ k < 25 ∧ j < 4 ∧
    y % 4 = j ∧ y % 100 = 4 * k + j ∧ y % 400 = 100 * c + 4 * k + j ∧
    (y + 3) / 4 = 100 * q + 25 * c + k + (j + 3) / 4 ∧ (y + 99) / 100 = 4 * q + c + (4 * k + j + 99) / 100 ∧
    (y + 399) / 400 = q + (100 * c + 4 * k + j + 399) / 400 ∧
    (y + 1 + 3) / 4 = 100 * q + 25 * c + k + 1 ∧ (y + 1 + 99) / 100 = 4 * q + c + 1 ∧ (y + 1 + 399) / 400 = q + 1 :=
  ⟨y / 400, y % 400 / 100, y % 100 / 4, y % 4, by omega, by omega, by omega, by omega, by omega, by omega, by omega, by omega, by omega,
    by omega, by omega, by omega, by omega⟩

theorem yearStart_succ (y : Nat) : yearStart (y + 1) = yearStart y + yearDays y := by
  rw [yearDays_eq]
  unfold yearStart Leap
  simp only [Nat.dvd_iff_mod_eq_zero]
  obtain ⟨q, c, k, j, hy, hc, hk, hj, e1, e2, e3, e4, e5, e6, e7, e8, e9⟩ := yearStart_split y
  rw [e1, e2, e3, e4, e5, e6, e7, e8, e9]
  by_cases j0 : j = 0
  · by_cases k0 : k = 0
    · by_cases c0 : c = 0
      · subst j0 k0 c0; simp; omega
      · rw [show (4 * k + j + 99) / 100 = 0 by omega, show (100 * c + 4 * k + j + 399) / 400 = 1 by omega, if_neg (by omega)]; omega
    · rw [show (4 * k + j + 99) / 100 = 1 by omega, show (100 * c + 4 * k + j + 399) / 400 = 1 by omega, if_pos (by omega)]; omega
  · rw [show (4 * k + j + 99) / 100 = 1 by omega, show (100 * c + 4 * k + j + 399) / 400 = 1 by omega, if_neg (by omega)]; omega

theorem yearStart_bounds (y : Nat) : 400 * yearStart y ≤ 146097 * y + 800 ∧ 146097 * y ≤ 400 * yearStart y + 400 := by
  unfold yearStart
  obtain ⟨q, c, k, j, hy, hc, hk, hj, e1, e2, e3, e4, e5, e6, e7, e8, e9⟩ := yearStart_split y
  rw [e4, e5, e6]
  by_cases j0 : j = 0
  · by_cases k0 : k = 0
    · by_cases c0 : c = 0
      · subst j0 k0 c0; simp; omega
      · rw [show (4 * k + j + 99) / 100 = 0 by omega, show (100 * c + 4 * k + j + 399) / 400 = 1 by omega]; omega
    · rw [show (4 * k + j + 99) / 100 = 1 by omega, show (100 * c + 4 * k + j + 399) / 400 = 1 by omega]; omega
  · rw [show (4 * k + j + 99) / 100 = 1 by omega, show (100 * c + 4 * k + j + 399) / 400 = 1 by omega]; omega

theorem yearStart_eq (y : Nat) : yearStart y = ((List.range y).map yearDays).sum := by
  induction y with
  | zero => rfl
  | succ y ih => rw [yearStart_succ, List.range_succ, List.map_append, List.sum_append, ih]; simp

theorem take_sum_succ (l : List Nat) (k : Nat) : (l.take (k + 1)).sum = (l.take k).sum + l.getD k 0 := by
  induction l generalizing k with
  | nil => simp
  | cons a l ih =>
    cases k with
    | zero => simp
    | succ k =>
      have := ih k
      simp only [List.take_succ_cons, List.sum_cons, List.getD_cons_succ]
      omega

theorem monthStart_eq {y m : Nat} (h2 : m ≤ 12) : monthStart y m = ((months y).take (m - 1)).sum := by
  unfold monthStart
  have key : ∀ k ≤ 12, (List.range k).foldl (fun n k => n + monthLength y (k + 1)) 0 = ((months y).take k).sum := by
    intro k
    induction k with
    | zero => intro _; rfl
    | succ k ih =>
      intro hk
      rw [List.range_succ, List.foldl_append, ih (by omega), take_sum_succ]
      simp only [List.foldl_cons, List.foldl_nil]
      rw [monthLength_eq (by omega) (by omega)]
      rfl
  exact key _ (by omega)

theorem count_eq {d : Date} (h : d.Valid) : d.count = yearStart d.year + monthStart d.year d.month + (d.day - 1) := by
  rw [Date.count, yearStart_eq, monthStart_eq h.2.1]

theorem count_1970 : (⟨1970, 1, 1⟩ : Date).count = 719528 := by
  rw [count_eq (by simp [Date.Valid, months])]
  decide

theorem seconds_eq (d : Date) (h m s : Nat) (off : Int) :
    seconds d h m s off = 86400 * (d.count : Int) + 3600 * h + 60 * m + s - 60 * off - epochSecs := by
  unfold seconds epochSecs
  rw [count_1970]
  omega

theorem yearOf_spec (n : Nat) : yearStart (yearOf n) ≤ n ∧ n < yearStart (yearOf n + 1) := by
  unfold yearOf
  dsimp only
  have h0 : yearStart 0 = 0 := rfl
  generalize hy : n * 400 / 146097 = y
  have b0 := yearStart_bounds y
  have b1 := yearStart_bounds (y + 1)
  have b2 := yearStart_bounds (y + 1 + 1)
  have b3 := yearStart_bounds (y - 1)
  have hl : 146097 * y ≤ n * 400 ∧ n * 400 < 146097 * (y + 1) := by omega
  split
  · rename_i h
    cases y with
    | zero => omega
    | succ y =>
      rw [Nat.add_sub_cancel] at b3 ⊢
      omega
  · split <;> omega

theorem yearStart_mono {a b : Nat} (h : a ≤ b) : yearStart a ≤ yearStart b := by
  induction h with
  | refl => exact Nat.le_refl _
  | step _ ih => exact Nat.le_trans ih (by rw [yearStart_succ]; omega)

theorem year_unique {a b n : Nat} (ha : yearStart a ≤ n) (ha' : n < yearStart (a + 1)) (hb : yearStart b ≤ n) (hb' : n < yearStart (b + 1)) :
    a = b := by
  rcases Nat.lt_trichotomy a b with h | h | h
  · have := yearStart_mono (show a + 1 ≤ b by omega); omega
  · exact h
  · have := yearStart_mono (show b + 1 ≤ a by omega); omega

theorem months_length (y : Nat) : (months y).length = 12 := rfl

theorem monthOf_spec (y : Nat) : ∀ (fuel m n : Nat), 1 ≤ m → m + fuel = 12 → ((months y).take (m - 1)).sum + n < yearDays y →
    let r := monthOf y fuel m n
    m ≤ r.1 ∧ r.1 ≤ 12 ∧ 1 ≤ r.2 ∧ r.2 ≤ (months y).getD (r.1 - 1) 0 ∧ ((months y).take (r.1 - 1)).sum + (r.2 - 1) = ((months y).take (m - 1)).sum + n
  | 0, m, n, h1, h2, h3 => by
    have h12 : m = 12 := by omega
    subst h12
    have hs := take_sum_succ (months y) 11
    have e : ((months y).take 12).sum = yearDays y := rfl
    simp only [monthOf, Nat.add_one_sub_one] at *
    refine ⟨Nat.le_refl _, Nat.le_refl _, by omega, ?_, by omega⟩
    rw [show (11 + 1) = 12 from rfl, e] at hs
    omega
  | fuel + 1, m, n, h1, h2, h3 => by
    rw [monthOf]
    have hm := monthLength_eq (y := y) h1 (show m ≤ 12 by omega)
    by_cases h : n < monthLength y m
    · rw [if_pos h]
      dsimp only
      refine ⟨Nat.le_refl _, by omega, by omega, by omega, by omega⟩
    · rw [if_neg h]
      have hs := take_sum_succ (months y) (m - 1)
      rw [show m - 1 + 1 = m by omega] at hs
      have ih := monthOf_spec y fuel (m + 1) (n - monthLength y m) (by omega) (by omega) (by rw [Nat.add_sub_cancel]; omega)
      dsimp only at ih ⊢
      rw [Nat.add_sub_cancel] at ih
      obtain ⟨i1, i2, i3, i4, i5⟩ := ih
      exact ⟨by omega, i2, i3, i4, by omega⟩

/-- The date of a day. -/
def date (n : Nat) : Date := ⟨(dateOf n).1, (dateOf n).2.1, (dateOf n).2.2⟩

theorem date_spec (n : Nat) : (date n).Valid ∧ (date n).count = n := by
  obtain ⟨h1, h2⟩ := yearOf_spec n
  rw [yearStart_succ] at h2
  have h := monthOf_spec (yearOf n) 11 1 (n - yearStart (yearOf n)) (Nat.le_refl _) rfl (by simp; omega)
  dsimp only at h
  obtain ⟨i1, i2, i3, i4, i5⟩ := h
  have hv : (date n).Valid := ⟨i1, i2, i3, i4⟩
  refine ⟨hv, ?_⟩
  have e := count_eq hv
  rw [monthStart_eq hv.2.1] at e
  rw [e]
  simp only [date, dateOf]
  simp at i5
  omega

theorem take_sum_le (l : List Nat) {a b : Nat} (h : a ≤ b) : (l.take a).sum ≤ (l.take b).sum := by
  induction h with
  | refl => exact Nat.le_refl _
  | step _ ih => exact Nat.le_trans ih (by rw [take_sum_succ]; omega)

theorem count_unique {d e : Date} (hd : d.Valid) (he : e.Valid) (h : d.count = e.count) : d = e := by
  have bound : ∀ {d : Date}, d.Valid → yearStart d.year ≤ d.count ∧ d.count < yearStart (d.year + 1) ∧
      ((months d.year).take (d.month - 1)).sum + (d.day - 1) = d.count - yearStart d.year ∧
      ((months d.year).take (d.month - 1)).sum + (d.day - 1) < ((months d.year).take d.month).sum := by
    intro d hd
    have hc := count_eq hd
    rw [monthStart_eq hd.2.1] at hc
    obtain ⟨v1, v2, v3, v4⟩ := hd
    have hs := take_sum_succ (months d.year) (d.month - 1)
    rw [show d.month - 1 + 1 = d.month by omega] at hs
    have hle : ((months d.year).take d.month).sum ≤ yearDays d.year := by
      have := take_sum_le (months d.year) v2
      exact this
    rw [yearStart_succ]
    refine ⟨by omega, by omega, by omega, by omega⟩
  obtain ⟨a1, a2, a3, a4⟩ := bound hd
  obtain ⟨b1, b2, b3, b4⟩ := bound he
  have hy : d.year = e.year := year_unique a1 a2 (by omega) (by omega)
  obtain ⟨y, m, k⟩ := d
  obtain ⟨y', m', k'⟩ := e
  dsimp only at *
  subst hy
  obtain ⟨v1, v2, v3, v4⟩ := hd
  obtain ⟨w1, w2, w3, w4⟩ := he
  dsimp only at *
  have hm : m = m' := by
    rcases Nat.lt_trichotomy m m' with hlt | h | hlt
    · have := take_sum_le (months y) (show m ≤ m' - 1 by omega); omega
    · exact h
    · have := take_sum_le (months y) (show m' ≤ m - 1 by omega); omega
  subst hm
  rw [show k = k' by omega]

theorem date_count {d : Date} (h : d.Valid) : date d.count = d := count_unique (date_spec _).1 h (date_spec _).2

/-! ## Digits -/

theorem digit_toNat {c : Char} (h : c ∈ digitChars) : 48 + digitChars.idxOf c = c.toNat := by
  have := (isDigit_iff c).mpr h
  simp only [isDigit, Bool.and_eq_true, decide_eq_true_eq] at this
  have := digit_value h
  omega

theorem digit_inj {c d : Char} (hc : c ∈ digitChars) (hd : d ∈ digitChars) (h : digitChars.idxOf c = digitChars.idxOf d) : c = d :=
  char_toNat_inj (by have := digit_toNat hc; have := digit_toNat hd; omega)

theorem field_unique : ∀ {w : Nat} {s t : List Char} {n : Nat}, Field w s n → Field w t n → s = t
  | 0, s, t, n, ⟨h1, _, _⟩, ⟨k1, _, _⟩ => by
    rw [List.length_eq_zero_iff.mp h1, List.length_eq_zero_iff.mp k1]
  | w + 1, c :: s, d :: t, n, ⟨h1, h2, h3⟩, ⟨k1, k2, k3⟩ => by
    rw [List.length_cons] at h1 k1
    have hs : s.length = w := by omega
    have ht : t.length = w := by omega
    have a := decimal_lt (s := s) fun x hx => h2 x (List.mem_cons_of_mem _ hx)
    have b := decimal_lt (s := t) fun x hx => k2 x (List.mem_cons_of_mem _ hx)
    rw [decimal, hs] at h3
    rw [decimal, ht] at k3
    rw [hs] at a
    rw [ht] at b
    have hp : 0 < 10 ^ w := Nat.pow_pos (by omega)
    have e1 : digitChars.idxOf c = n / 10 ^ w := by
      rw [← h3, Nat.add_comm, Nat.add_mul_div_right _ _ hp, Nat.div_eq_of_lt a]; omega
    have e2 : digitChars.idxOf d = n / 10 ^ w := by
      rw [← k3, Nat.add_comm, Nat.add_mul_div_right _ _ hp, Nat.div_eq_of_lt b]; omega
    have hcd : c = d := digit_inj (h2 _ List.mem_cons_self) (k2 _ List.mem_cons_self) (by rw [e1, e2])
    subst hcd
    rw [field_unique (w := w) (n := decimal s) ⟨hs, fun x hx => h2 x (List.mem_cons_of_mem _ hx), rfl⟩
      ⟨ht, fun x hx => k2 x (List.mem_cons_of_mem _ hx), by omega⟩]

theorem digit_char {n : Nat} (h : n < 10) : Char.ofNat (48 + n) ∈ digitChars ∧ digitChars.idxOf (Char.ofNat (48 + n)) = n := by
  have : n = 0 ∨ n = 1 ∨ n = 2 ∨ n = 3 ∨ n = 4 ∨ n = 5 ∨ n = 6 ∨ n = 7 ∨ n = 8 ∨ n = 9 := by omega
  rcases this with rfl | rfl | rfl | rfl | rfl | rfl | rfl | rfl | rfl | rfl <;> decide

theorem pad_field : ∀ (w n : Nat), Field w (pad w n) (n % 10 ^ w)
  | 0, n => ⟨rfl, by simp [pad], by simp [pad, decimal, Nat.mod_one]⟩
  | w + 1, n => by
    obtain ⟨h1, h2, h3⟩ := pad_field w (n / 10)
    obtain ⟨d1, d2⟩ := digit_char (show n % 10 < 10 by omega)
    refine ⟨by rw [pad, List.length_append, h1]; rfl, ?_, ?_⟩
    · intro c hc
      rw [pad, List.mem_append, List.mem_singleton] at hc
      rcases hc with hc | rfl
      · exact h2 c hc
      · exact d1
    · rw [pad, decimal_append, h3]
      simp only [decimal, List.length_cons, List.length_nil, d2]
      rw [Nat.pow_succ 10 w, Nat.mul_comm (10 ^ w) 10, Nat.mod_mul]
      omega

theorem pad_field_lt {w n : Nat} (h : n < 10 ^ w) : Field w (pad w n) n := by
  have := pad_field w n
  rwa [Nat.mod_eq_of_lt h] at this

/-! ## Reading -/

theorem number_some : ∀ (w acc : Nat) (s : List Char) (n : Nat) (r : List Char),
    number w acc s = some (n, r) ↔ ∃ f v, s = f ++ r ∧ Field w f v ∧ n = acc * 10 ^ w + v
  | 0, acc, s, n, r => by
    simp only [number, Option.some.injEq, Prod.mk.injEq, Nat.pow_zero, Nat.mul_one]
    constructor
    · rintro ⟨rfl, rfl⟩
      exact ⟨[], 0, rfl, ⟨rfl, by simp, rfl⟩, rfl⟩
    · rintro ⟨f, v, rfl, ⟨h1, _, h3⟩, rfl⟩
      rw [List.length_eq_zero_iff.mp h1] at h3 ⊢
      exact ⟨by rw [← h3]; rfl, rfl⟩
  | w + 1, acc, [], n, r => by
    simp only [number, reduceCtorEq, false_iff]
    rintro ⟨f, v, h, ⟨h1, _⟩, _⟩
    rw [List.nil_eq_append_iff] at h
    rw [h.1] at h1
    simp at h1
  | w + 1, acc, c :: s, n, r => by
    rw [number]
    by_cases hc : isDigit c = true
    · rw [if_pos hc, number_some]
      have hd := (isDigit_iff c).mp hc
      have hv := digit_value hd
      constructor
      · rintro ⟨f, v, rfl, ⟨h1, h2, h3⟩, rfl⟩
        refine ⟨c :: f, digitChars.idxOf c * 10 ^ w + v, rfl, ⟨by simp [h1], ?_, by rw [decimal, h1, h3]⟩, ?_⟩
        · intro x hx
          rcases List.mem_cons.mp hx with rfl | hx
          · exact hd
          · exact h2 x hx
        · rw [hv, Nat.pow_succ, Nat.add_mul, Nat.mul_assoc, Nat.mul_comm 10]
          omega
      · rintro ⟨f, v, hf, ⟨h1, h2, h3⟩, rfl⟩
        cases f with
        | nil => simp at h1
        | cons d f =>
          rw [List.cons_append, List.cons.injEq] at hf
          obtain ⟨rfl, rfl⟩ := hf
          rw [List.length_cons] at h1
          have h1 : f.length = w := by omega
          refine ⟨f, decimal f, rfl, ⟨h1, fun x hx => h2 x (List.mem_cons_of_mem _ hx), rfl⟩, ?_⟩
          rw [← h3, decimal, h1, hv, Nat.pow_succ, Nat.add_mul, Nat.mul_assoc, Nat.mul_comm 10]
          omega
    · rw [if_neg hc]
      simp only [reduceCtorEq, false_iff]
      rintro ⟨f, v, hf, ⟨h1, h2, _⟩, _⟩
      cases f with
      | nil => simp at h1
      | cons d f =>
        rw [List.cons_append, List.cons.injEq] at hf
        exact hc ((isDigit_iff c).mpr (hf.1 ▸ h2 d List.mem_cons_self))

theorem number_field {w : Nat} {s : List Char} {n : Nat} {r : List Char} : number w 0 s = some (n, r) ↔ ∃ f, s = f ++ r ∧ Field w f n := by
  rw [number_some]
  constructor
  · rintro ⟨f, v, h1, h2, h3⟩
    rw [Nat.zero_mul, Nat.zero_add] at h3
    exact ⟨f, h1, h3 ▸ h2⟩
  · rintro ⟨f, h1, h2⟩
    exact ⟨f, n, h1, h2, by omega⟩

theorem char_some {c : Char} {s r : List Char} : char c s = some r ↔ s = c :: r := by
  cases s with
  | nil => simp [char]
  | cons d s =>
    simp only [char, List.cons.injEq]
    by_cases h : d = c <;> simp [h]

theorem separator_some {s r : List Char} : separator s = some r ↔ ∃ c, c.toNat < 128 ∧ s = c :: r := by
  cases s with
  | nil => simp [separator]
  | cons d s =>
    simp only [separator, List.cons.injEq]
    by_cases h : d.toNat < 128
    · simp only [if_pos h, Option.some.injEq]
      exact ⟨fun e => ⟨d, h, rfl, e⟩, fun ⟨_, _, _, e⟩ => e⟩
    · simp only [h, if_false, reduceCtorEq, false_iff]
      rintro ⟨c, hc, rfl, _⟩
      exact h hc

/-- The weights of the digits of a fraction. -/
theorem moreFrac_digits (m k : Nat) (hm : m * 10 = 10 ^ k ∨ (m = 0 ∧ k = 0)) (r : List Char) (hr : ∀ c ∈ r.head?, isDigit c = false) :
    ∀ (ds : List Char) (v : Nat), (∀ c ∈ ds, c ∈ digitChars) → moreFrac m v (ds ++ r) = (v + decimal ds * 10 ^ k / 10 ^ ds.length, r) := by
  intro ds
  induction ds generalizing m k with
  | nil =>
    intro v _
    simp only [List.nil_append, decimal, Nat.zero_mul, Nat.zero_div, Nat.add_zero]
    cases r with
    | nil => rfl
    | cons c r => rw [moreFrac, if_neg]; simp [hr c rfl]
  | cons c ds ih =>
    intro v h
    have hc := h c List.mem_cons_self
    have hd := decimal_lt (s := ds) fun x hx => h x (List.mem_cons_of_mem _ hx)
    have hp : 0 < 10 ^ ds.length := Nat.pow_pos (by omega)
    rw [List.cons_append, moreFrac, if_pos ((isDigit_iff c).mpr hc), ← digit_value hc]
    have hc10 := digit_lt hc
    have hk : k = 0 ∨ ∃ j, k = j + 1 := by cases k <;> simp
    rcases hk with rfl | ⟨j, rfl⟩
    · have m0 : m = 0 := by rcases hm with h | h <;> omega
      subst m0
      rw [ih 0 0 (Or.inr ⟨rfl, rfl⟩) _ fun x hx => h x (List.mem_cons_of_mem _ hx)]
      rw [Nat.pow_zero, Nat.mul_one, Nat.mul_one, Nat.div_eq_of_lt hd, Nat.div_eq_of_lt]
      · simp
      · exact decimal_lt h
    · have hm' : m = 10 ^ j := by
        rcases hm with h | h
        · rw [Nat.pow_succ] at h; omega
        · omega
      subst hm'
      have hj : 10 ^ j / 10 * 10 = 10 ^ j ∨ (10 ^ j / 10 = 0 ∧ j = 0) := by
        cases j with
        | zero => exact Or.inr ⟨rfl, rfl⟩
        | succ j => rw [Nat.pow_succ]; omega
      rw [ih _ j hj _ fun x hx => h x (List.mem_cons_of_mem _ hx)]
      congr 1
      rw [decimal, List.length_cons, Nat.pow_succ, Nat.pow_succ, ← Nat.mul_assoc, Nat.mul_div_mul_right _ _ (by omega), Nat.add_mul,
        Nat.add_comm (_ * _ * _), Nat.mul_right_comm, Nat.add_mul_div_right _ _ hp]
      omega

theorem frac_split (s : List Char) : ∃ ds r, s = ds ++ r ∧ (∀ c ∈ ds, c ∈ digitChars) ∧ ∀ c ∈ r.head?, isDigit c = false := by
  induction s with
  | nil => exact ⟨[], [], rfl, by simp, by simp⟩
  | cons c s ih =>
    by_cases h : isDigit c = true
    · obtain ⟨ds, r, e, h1, h2⟩ := ih
      refine ⟨c :: ds, r, by rw [e]; rfl, ?_, h2⟩
      intro x hx
      rcases List.mem_cons.mp hx with rfl | hx
      · exact (isDigit_iff _).mp h
      · exact h1 x hx
    · exact ⟨[], c :: s, rfl, by simp, by simpa using h⟩

theorem fraction_digits {c : Char} {ds r : List Char} (h : ∀ x ∈ c :: ds, x ∈ digitChars) (hr : ∀ c ∈ r.head?, isDigit c = false) :
    fraction ('.' :: c :: (ds ++ r)) = some (decimal (c :: ds) * 10 ^ 9 / 10 ^ (c :: ds).length, r) := by
  have hc := h c List.mem_cons_self
  have := moreFrac_digits 100000000 9 (Or.inl rfl) r hr (c :: ds) 0 h
  rw [List.cons_append, moreFrac, if_pos ((isDigit_iff c).mpr hc)] at this
  simp only [fraction, if_pos, if_pos ((isDigit_iff c).mpr hc)]
  rw [Nat.zero_add, Nat.zero_add] at this
  rw [← this]

theorem fraction_some {s r : List Char} {ns : Nat} : fraction s = some (ns, r) ↔
    ∃ f, s = f ++ r ∧ Fraction f ns ∧ (f = [] → ∀ c ∈ r.head?, c ≠ '.') ∧ (f ≠ [] → ∀ c ∈ r.head?, isDigit c = false) := by
  constructor
  · intro h
    cases s with
    | nil =>
      simp only [fraction, Option.some.injEq, Prod.mk.injEq] at h
      obtain ⟨rfl, rfl⟩ := h
      exact ⟨[], rfl, Or.inl ⟨rfl, rfl⟩, by simp, by simp⟩
    | cons c s =>
      by_cases hc : c = '.'
      · subst hc
        cases s with
        | nil => simp [fraction] at h
        | cons d s =>
          by_cases hd : isDigit d = true
          · obtain ⟨ds, t, e, h1, h2⟩ := frac_split s
            subst e
            have hall : ∀ x ∈ d :: ds, x ∈ digitChars := by
              intro x hx
              rcases List.mem_cons.mp hx with rfl | hx
              · exact (isDigit_iff _).mp hd
              · exact h1 x hx
            rw [fraction_digits hall h2] at h
            simp only [Option.some.injEq, Prod.mk.injEq] at h
            obtain ⟨rfl, rfl⟩ := h
            exact ⟨'.' :: d :: ds, rfl, Or.inr ⟨d :: ds, rfl, ⟨by simp, hall⟩, rfl⟩, by simp, fun _ => h2⟩
          · simp [fraction, hd] at h
      · simp only [fraction, if_neg hc, Option.some.injEq, Prod.mk.injEq] at h
        obtain ⟨rfl, rfl⟩ := h
        exact ⟨[], rfl, Or.inl ⟨rfl, rfl⟩, by simpa using hc, by simp⟩
  · rintro ⟨f, rfl, ⟨rfl, rfl⟩ | ⟨ds, rfl, ⟨h1, h2⟩, rfl⟩, h3, h4⟩
    · cases r with
      | nil => rfl
      | cons c r => simp only [List.nil_append, fraction, if_neg (h3 rfl c rfl)]
    · cases ds with
      | nil => exact absurd rfl h1
      | cons d ds => exact fraction_digits h2 (h4 (by simp))

theorem zone_some {s r : List Char} {o : Int} : zone s = some (o, r) ↔ ∃ z, s = z ++ r ∧ Zone z o := by
  cases s with
  | nil =>
    simp only [zone, reduceCtorEq, false_iff]
    rintro ⟨z, h, hz⟩
    rw [(List.nil_eq_append_iff.mp h).1] at hz
    rcases hz with ⟨h | h, _⟩ | ⟨_, _, _, _, _, _, _, _, ⟨h, _⟩ | ⟨h, _⟩⟩ <;> simp at h
  | cons c s =>
    rw [zone]
    by_cases hz : c = 'Z' ∨ c = 'z'
    · rw [if_pos hz]
      simp only [Option.some.injEq, Prod.mk.injEq]
      constructor
      · rintro ⟨rfl, rfl⟩
        exact ⟨[c], rfl, Or.inl ⟨by simpa using hz, rfl⟩⟩
      · rintro ⟨z, h, ⟨rfl | rfl, rfl⟩ | ⟨_, _, _, _, _, _, _, _, ⟨rfl, _⟩ | ⟨rfl, _⟩⟩⟩
        · simp only [List.cons_append, List.nil_append, List.cons.injEq] at h; exact ⟨rfl, h.2⟩
        · simp only [List.cons_append, List.nil_append, List.cons.injEq] at h; exact ⟨rfl, h.2⟩
        · simp only [List.cons_append, List.cons.injEq] at h; rcases hz with hz | hz <;> simp [hz] at h
        · simp only [List.cons_append, List.cons.injEq] at h; rcases hz with hz | hz <;> simp [hz] at h
    · rw [if_neg hz]
      by_cases hs : c = '+' ∨ c = '-'
      · rw [if_pos hs]
        constructor
        · intro h
          simp only [Option.bind_eq_bind, Option.bind_eq_some_iff] at h
          obtain ⟨⟨h', s1⟩, e1, s2, e2, ⟨m', s3⟩, e3, e4⟩ := h
          obtain ⟨hs', rfl, f1⟩ := number_field.mp e1
          rw [char_some] at e2
          dsimp only at e2
          subst e2
          obtain ⟨ms', rfl, f2⟩ := number_field.mp e3
          dsimp only at e4
          split at e4
          · rename_i hle
            simp only [Option.some.injEq, Prod.mk.injEq] at e4
            obtain ⟨rfl, rfl⟩ := e4
            refine ⟨c :: hs' ++ ':' :: ms', by simp, Or.inr ⟨hs', ms', h', m', f1, f2, hle.1, hle.2, ?_⟩⟩
            rcases hs with rfl | rfl
            · exact Or.inl ⟨rfl, by simp⟩
            · exact Or.inr ⟨rfl, by simp⟩
          · simp at e4
        · rintro ⟨z, h, ⟨rfl | rfl, rfl⟩ | ⟨hs', ms', h', m', f1, f2, l1, l2, hz'⟩⟩
          · simp only [List.cons_append, List.nil_append, List.cons.injEq] at h; exact absurd (Or.inl h.1) hz
          · simp only [List.cons_append, List.nil_append, List.cons.injEq] at h; exact absurd (Or.inr h.1) hz
          · have hs2 : s = hs' ++ (':' :: (ms' ++ r)) := by
              rcases hz' with ⟨rfl, _⟩ | ⟨rfl, _⟩ <;> simpa using (List.cons.inj h).2
            have e1 : number 2 0 s = some (h', ':' :: (ms' ++ r)) := number_field.mpr ⟨hs', hs2, f1⟩
            have e3 : number 2 0 (ms' ++ r) = some (m', r) := number_field.mpr ⟨ms', rfl, f2⟩
            have ho : o = if c = '+' then (60 * h' + m' : Int) else -(60 * h' + m' : Int) := by
              rcases hz' with ⟨rfl, rfl⟩ | ⟨rfl, rfl⟩
              · rw [if_pos (List.cons.inj h).1]
              · rw [if_neg]; rw [(List.cons.inj h).1]; decide
            simp [e1, e3, char, l1, l2, ho]
      · rw [if_neg hs]
        simp only [reduceCtorEq, false_iff]
        rintro ⟨z, h, ⟨rfl | rfl, rfl⟩ | ⟨_, _, _, _, _, _, _, _, ⟨rfl, _⟩ | ⟨rfl, _⟩⟩⟩
        · exact hz (Or.inl (List.cons.inj h).1)
        · exact hz (Or.inr (List.cons.inj h).1)
        · exact hs (Or.inl (List.cons.inj h).1)
        · exact hs (Or.inr (List.cons.inj h).1)

/-! ## Writing -/

theorem fracDigits_spec : ∀ (w n : Nat), 0 < n → n < 10 ^ w →
    fracDigits w n ≠ [] ∧ (∀ c ∈ fracDigits w n, c ∈ digitChars) ∧ (fracDigits w n).length ≤ w ∧
      decimal (fracDigits w n) * 10 ^ (w - (fracDigits w n).length) = n ∧ (fracDigits w n).getLast? ≠ some '0'
  | 0, n, h1, h2 => by simp at h2; omega
  | w + 1, n, h1, h2 => by
    rw [fracDigits]
    by_cases h : n % 10 ≠ 0
    · rw [if_pos h]
      obtain ⟨f1, f2, f3⟩ := pad_field_lt h2
      obtain ⟨d1, d2⟩ := digit_char (show n % 10 < 10 by omega)
      refine ⟨by simp [pad], f2, by omega, by rw [f1, f3]; simp, ?_⟩
      rw [pad, List.getLast?_append, List.getLast?_singleton]
      simp only [Option.some_or, ne_eq, Option.some.injEq]
      intro e
      rw [e] at d2
      exact h (by rw [← d2]; decide)
    · rw [if_neg h]
      have hn : n / 10 < 10 ^ w := by rw [Nat.pow_succ] at h2; omega
      obtain ⟨i1, i2, i3, i4, i5⟩ := fracDigits_spec w (n / 10) (by omega) hn
      refine ⟨i1, i2, by omega, ?_, i5⟩
      rw [show w + 1 - (fracDigits w (n / 10)).length = (w - (fracDigits w (n / 10)).length) + 1 by omega, Nat.pow_succ, ← Nat.mul_assoc, i4]
      omega

theorem showFrac_spec {ns : Nat} (h : ns < 10 ^ 9) :
    Fraction (showFrac ns) ns ∧ (showFrac ns).length ≤ 10 ∧ (showFrac ns).getLast? ≠ some '0' := by
  unfold showFrac
  by_cases h0 : ns = 0
  · subst h0
    simp [Fraction]
  · rw [if_neg h0]
    obtain ⟨i1, i2, i3, i4, i5⟩ := fracDigits_spec 9 ns (by omega) h
    refine ⟨Or.inr ⟨_, rfl, ⟨i1, i2⟩, ?_⟩, by rw [List.length_cons]; omega, ?_⟩
    · generalize (fracDigits 9 ns).length = k at *
      rw [show 10 ^ 9 = 10 ^ (9 - k) * 10 ^ k by rw [← Nat.pow_add]; congr 1; omega, ← Nat.mul_assoc, Nat.mul_div_cancel _ (Nat.pow_pos (by omega)), i4]
    · rw [List.getLast?_cons]
      cases hl : (fracDigits 9 ns).getLast? with
      | none => rw [List.getLast?_eq_none_iff] at hl; exact absurd hl i1
      | some c => rw [hl] at i5; simpa using i5

theorem dropWhile_zero {l : List Char} (h : l.head? ≠ some '0') (a : Nat) : (List.replicate a '0' ++ l).dropWhile (· == '0') = l := by
  induction a with
  | zero =>
    cases l with
    | nil => rfl
    | cons c l => simp only [List.replicate_zero, List.nil_append]; rw [List.dropWhile_cons_of_neg]; simpa using h
  | succ a ih => rw [List.replicate_succ, List.cons_append, List.dropWhile_cons_of_pos (by simp), ih]

theorem decimal_zeros (a : Nat) : decimal (List.replicate a '0') = 0 := by
  induction a with
  | zero => rfl
  | succ a ih => rw [List.replicate_succ, decimal, ih]; simp [digitChars]

theorem canonical_fraction {f : List Char} {ns : Nat} (h : Fraction f ns) (hl : f.length ≤ 10) (h0 : f.getLast? ≠ some '0') :
    (f = [] ∧ ns = 0) ∨ ∃ ds, f = '.' :: ds ∧ ds ≠ [] ∧ ds.getLast? ≠ some '0' ∧ ds.length ≤ 9 ∧ Field 9 (ds ++ List.replicate (9 - ds.length) '0') ns := by
  rcases h with h | ⟨ds, rfl, ⟨h1, h2⟩, h3⟩
  · exact Or.inl h
  · rw [List.length_cons] at hl
    refine Or.inr ⟨ds, rfl, h1, ?_, by omega, ?_, ?_, ?_⟩
    · cases ds with
      | nil => exact absurd rfl h1
      | cons d ds => rwa [List.getLast?_cons_cons] at h0
    · rw [List.length_append, List.length_replicate]; omega
    · intro c hc
      rcases List.mem_append.mp hc with hc | hc
      · exact h2 c hc
      · rw [(List.mem_replicate.mp hc).2]; decide
    · rw [decimal_append, decimal_zeros, List.length_replicate, h3]
      generalize hk : ds.length = k at *
      rw [show 10 ^ 9 = 10 ^ (9 - k) * 10 ^ k by rw [← Nat.pow_add]; congr 1; omega, ← Nat.mul_assoc, Nat.mul_div_cancel _ (Nat.pow_pos (by omega))]
      omega

theorem fraction_unique {f g : List Char} {ns : Nat} (hf : Fraction f ns) (lf : f.length ≤ 10) (zf : f.getLast? ≠ some '0')
    (hg : Fraction g ns) (lg : g.length ≤ 10) (zg : g.getLast? ≠ some '0') : f = g := by
  have ne0 : ∀ {ds : List Char}, ds ≠ [] → ds.getLast? ≠ some '0' → ds.length ≤ 9 → Field 9 (ds ++ List.replicate (9 - ds.length) '0') 0 → False := by
    intro ds h1 h2 h3 h4
    have := field_unique h4 (⟨rfl, by decide, by decide⟩ : Field 9 (List.replicate 9 '0') 0)
    have := congrArg List.reverse this
    rw [List.reverse_append, List.reverse_replicate, List.reverse_replicate] at this
    have := congrArg (List.dropWhile (· == '0')) this
    rw [dropWhile_zero (by rwa [List.head?_reverse])] at this
    exact h1 (List.reverse_eq_nil_iff.mp this)
  rcases canonical_fraction hf lf zf with ⟨rfl, h0⟩ | ⟨ds, rfl, a1, a2, a3, a4⟩ <;>
    rcases canonical_fraction hg lg zg with ⟨rfl, k0⟩ | ⟨es, rfl, b1, b2, b3, b4⟩
  · rfl
  · exact (ne0 b1 b2 b3 (h0 ▸ b4)).elim
  · exact (ne0 a1 a2 a3 (k0 ▸ a4)).elim
  · have := congrArg List.reverse (field_unique a4 b4)
    rw [List.reverse_append, List.reverse_append, List.reverse_replicate, List.reverse_replicate] at this
    have := congrArg (List.dropWhile (· == '0')) this
    rw [dropWhile_zero (by rwa [List.head?_reverse]), dropWhile_zero (by rwa [List.head?_reverse])] at this
    rw [List.reverse_inj.mp this]

end Rfc3339

end Verif
