import Verif.Props.Number

/-!
# C14 without a bound on the length of the text
-/

namespace Verif

/-- The exponent of ten for the fraction, as computed on 32 bits. -/
theorem exponent_toNat (k : Nat) {e : Nat} (h1 : 12 ≤ e) (h2 : e ≤ 36) :
    ((24 : BitVec 32) - BitVec.ofNat 32 k + BitVec.ofInt 32 ((e : Int) - 24)).toNat = (e + 2 ^ 32 - k % 2 ^ 32) % 2 ^ 32 := by
  have h24n : (24 : BitVec 32).toNat = 24 := by decide
  rw [BitVec.toNat_add, scale_toNat h1 h2, BitVec.toNat_sub, h24n, BitVec.toNat_ofNat]
  omega

/-- The arithmetic of a checked build. -/
theorem scaledAmount_checked_any (i f : U128) (k : Nat) {e x : Nat} (h1 : 12 ≤ e) (h2 : e ≤ 36) (hx : (e + 2 ^ 32 - k % 2 ^ 32) % 2 ^ 32 = x) :
    scaledAmount .checked i f (BitVec.ofNat 32 k) (BitVec.ofInt 32 ((e : Int) - 24)) =
      if x ≤ 38 ∧ i.toNat * 10 ^ e + f.toNat * 10 ^ x < 2 ^ 128 then .ok ⟨BitVec.ofNat 128 (i.toNat * 10 ^ e + f.toNat * 10 ^ x)⟩
      else .panic := by
  have hs := scale_toInt h1 h2
  have hn := scale_toNat h1 h2
  have hkn : (BitVec.ofNat 32 k).toNat = k % 2 ^ 32 := BitVec.toNat_ofNat _ _
  have h24 : (24 : BitVec 32).toInt = 24 := by decide
  have h24n : (24 : BitVec 32).toNat = 24 := by decide
  have e1 : ((24 : BitVec 32) + BitVec.ofInt 32 ((e : Int) - 24)).toNat = e := by
    rw [BitVec.toNat_add, hn, h24n]; omega
  have e3 := (exponent_toNat k h1 h2).trans hx
  have hki : (BitVec.ofNat 32 k).toInt = if k % 2 ^ 32 < 2 ^ 31 then ((k % 2 ^ 32 : Nat) : Int) else ((k % 2 ^ 32 : Nat) : Int) - 2 ^ 32 := by
    rw [BitVec.toInt_eq_toNat_cond, hkn]
    by_cases hc : k % 2 ^ 32 < 2 ^ 31
    · rw [if_pos hc, if_pos (by omega)]
    · rw [if_neg hc, if_neg (by omega)]; simp
  have hpe : (BitVec.ofNat 128 (10 ^ e)).toNat = 10 ^ e := by
    rw [BitVec.toNat_ofNat, Nat.mod_eq_of_lt (pow10_mul.mpr (by omega))]
  unfold scaledAmount
  simp only [addS, subS, mulU, addU]
  rw [if_pos (by rw [h24, hs]; omega)]
  simp only [Res.ok_bind]
  rw [pow10_checked, e1, if_pos (pow10_mul.mpr (by omega))]
  simp only [Res.ok_bind, hpe]
  by_cases c1 : i.toNat * 10 ^ e < 2 ^ 128
  · rw [if_pos c1]
    simp only [Res.ok_bind]
    by_cases ca : -2 ^ 31 ≤ (24 : BitVec 32).toInt - (BitVec.ofNat 32 k).toInt ∧ (24 : BitVec 32).toInt - (BitVec.ofNat 32 k).toInt < 2 ^ 31
    · rw [if_pos ca]
      simp only [Res.ok_bind]
      have e2i : ((24 : BitVec 32) - BitVec.ofNat 32 k).toInt = 24 - (BitVec.ofNat 32 k).toInt := by
        rw [BitVec.toInt_sub, h24, Int.bmod_def]
        rw [h24] at ca
        split <;> omega
      rw [e2i, hs]
      by_cases cb : -2 ^ 31 ≤ 24 - (BitVec.ofNat 32 k).toInt + ((e : Int) - 24) ∧ 24 - (BitVec.ofNat 32 k).toInt + ((e : Int) - 24) < 2 ^ 31
      · rw [if_pos cb]
        simp only [Res.ok_bind]
        rw [pow10_checked, e3]
        by_cases c2 : x ≤ 38
        · rw [if_pos (pow10_mul.mpr c2)]
          have hpk : (BitVec.ofNat 128 (10 ^ x)).toNat = 10 ^ x := by
            rw [BitVec.toNat_ofNat, Nat.mod_eq_of_lt (pow10_mul.mpr c2)]
          simp only [Res.ok_bind, hpk]
          by_cases c3 : f.toNat * 10 ^ x < 2 ^ 128
          · rw [if_pos c3]
            simp only [Res.ok_bind]
            have m1 : (i * BitVec.ofNat 128 (10 ^ e)).toNat = i.toNat * 10 ^ e := by
              rw [BitVec.toNat_mul, hpe, Nat.mod_eq_of_lt c1]
            have m2 : (f * BitVec.ofNat 128 (10 ^ x)).toNat = f.toNat * 10 ^ x := by
              rw [BitVec.toNat_mul, hpk, Nat.mod_eq_of_lt c3]
            rw [m1, m2]
            by_cases c4 : i.toNat * 10 ^ e + f.toNat * 10 ^ x < 2 ^ 128
            · rw [if_pos c4, if_pos ⟨c2, c4⟩]
              simp only [Res.ok_bind, Res.pure_eq]
              congr 2
              apply BitVec.eq_of_toNat_eq
              rw [BitVec.toNat_add, m1, m2, BitVec.toNat_ofNat]
            · rw [if_neg c4, if_neg (fun h => c4 h.2)]; simp only [Res.panic_bind]
          · have c5 : ¬ (x ≤ 38 ∧ i.toNat * 10 ^ e + f.toNat * 10 ^ x < 2 ^ 128) := fun h => c3 (by omega)
            rw [if_neg c3, if_neg c5]; simp only [Res.panic_bind]
        · rw [if_neg (fun h => c2 (pow10_mul.mp h)), if_neg (fun h => c2 h.1)]; simp only [Res.panic_bind]
      · have c2 : ¬ x ≤ 38 := by
          rw [hki] at cb
          split at cb <;> omega
        rw [if_neg cb, if_neg (fun h => c2 h.1)]; simp only [Res.panic_bind]
    · have c2 : ¬ x ≤ 38 := by
        rw [hki, h24] at ca
        split at ca <;> omega
      rw [if_neg ca, if_neg (fun h => c2 h.1)]; simp only [Res.panic_bind]
  · have c5 : ¬ (x ≤ 38 ∧ i.toNat * 10 ^ e + f.toNat * 10 ^ x < 2 ^ 128) := fun h => c1 (by omega)
    rw [if_neg c1, if_neg c5]; simp only [Res.panic_bind]

/-- The arithmetic of an unchecked build. -/
theorem scaledAmount_unchecked_any (i f : U128) (k : Nat) {e x : Nat} (h1 : 12 ≤ e) (h2 : e ≤ 36) (hx : (e + 2 ^ 32 - k % 2 ^ 32) % 2 ^ 32 = x) :
    scaledAmount .unchecked i f (BitVec.ofNat 32 k) (BitVec.ofInt 32 ((e : Int) - 24)) =
      .ok ⟨BitVec.ofNat 128 (i.toNat * 10 ^ e + f.toNat * 10 ^ x)⟩ := by
  have hn := scale_toNat h1 h2
  have h24n : (24 : BitVec 32).toNat = 24 := by decide
  have e1 : ((24 : BitVec 32) + BitVec.ofInt 32 ((e : Int) - 24)).toNat = e := by
    rw [BitVec.toNat_add, hn, h24n]; omega
  have e3 := (exponent_toNat k h1 h2).trans hx
  unfold scaledAmount
  simp only [addS, subS, mulU, addU, Res.ok_bind, pow10_unchecked, e1, e3, Res.pure_eq]
  congr 2
  apply BitVec.eq_of_toNat_eq
  simp only [BitVec.toNat_add, BitVec.toNat_mul, BitVec.toNat_ofNat, Nat.mul_mod_mod, Nat.add_mod_mod, Nat.mod_add_mod]

/-- What the number after the point is multiplied with: its number of digits and the unit, on 32 bits. -/
theorem Shift.unique {frac : List Char} {e x : Nat} (h1 : 12 ≤ e) (h2 : e ≤ 36) : Shift frac e x ↔ (e + 2 ^ 32 - frac.length % 2 ^ 32) % 2 ^ 32 = x := by
  unfold Shift
  omega

/-- C14, for texts of any length: what a checked build reads. -/
theorem C14_checked_reads_any (s : List Char) (c : Currency) :
    parseCurrency .checked s = .ok c ↔ InHastings s c.hastings ∨
      ∃ int frac e x, InUnits s int frac e ∧ Shift frac e x ∧ x ≤ 38 ∧ c.hastings = decimal int * 10 ^ e + decimal frac * 10 ^ x := by
  have hc : (⟨BitVec.ofNat 128 c.hastings⟩ : Currency) = c :=
    Currency.ext' (by rw [Currency.hastings, BitVec.toNat_ofNat, Nat.mod_eq_of_lt c.hastings_lt])
  constructor
  · intro h
    rcases unit_cases s with hu | ⟨e, hu⟩ | ⟨-, -, h'⟩
    · rcases parse_hastings (m := .checked) hu with ⟨n, h1, h2, h3⟩ | ⟨-, e, h1⟩
      · rw [h] at h3
        cases h3
        left
        rwa [Currency.hastings, BitVec.toNat_ofNat, Nat.mod_eq_of_lt h2]
      · rw [h] at h1; cases h1
    · by_cases hw : ∃ int frac, InUnits s int frac e ∧ decimal int < 2 ^ 128 ∧ decimal frac < 2 ^ 128
      · obtain ⟨int, frac, h1, h2, h3⟩ := hw
        have hr := unit_range hu
        rw [parse_units h1 h2 h3, scaledAmount_checked_any _ _ _ hr.1 hr.2 rfl, BitVec.toNat_ofNat, BitVec.toNat_ofNat,
          Nat.mod_eq_of_lt h2, Nat.mod_eq_of_lt h3] at h
        split at h
        · next hcond =>
          cases h
          exact .inr ⟨int, frac, e, _, h1, (Shift.unique hr.1 hr.2).mpr rfl, hcond.1, by
            rw [Currency.hastings, BitVec.toNat_ofNat, Nat.mod_eq_of_lt hcond.2]⟩
        · cases h
      · obtain ⟨msg, h1⟩ := parse_malformed (m := .checked) hu hw
        rw [h] at h1; cases h1
    · rw [h' .checked] at h; cases h
  · rintro (h | ⟨int, frac, e, x, h1, h2, h3, h4⟩)
    · rw [(C14_exact_partial .checked s _ c.hastings_lt).1 h, hc]
    · have hr := unit_range ((inUnits_iff _ _ _ _).mp h1).1
      have hlt := c.hastings_lt
      have i1 : decimal int ≤ decimal int * 10 ^ e := Nat.le_mul_of_pos_right _ (Nat.pow_pos (by decide))
      have i2 : decimal frac ≤ decimal frac * 10 ^ x := Nat.le_mul_of_pos_right _ (Nat.pow_pos (by decide))
      rw [parse_units h1 (by omega) (by omega), scaledAmount_checked_any _ _ _ hr.1 hr.2 ((Shift.unique hr.1 hr.2).mp h2), BitVec.toNat_ofNat, BitVec.toNat_ofNat,
        Nat.mod_eq_of_lt (by omega), Nat.mod_eq_of_lt (by omega), ← h4, if_pos ⟨h3, hlt⟩]
      show Out.ok _ = _
      rw [hc]

/-- C14, for texts of any length: what an unchecked build reads. -/
theorem C14_unchecked_reads_any (s : List Char) (c : Currency) :
    parseCurrency .unchecked s = .ok c ↔ InHastings s c.hastings ∨
      ∃ int frac e x, InUnits s int frac e ∧ decimal int < 2 ^ 128 ∧ decimal frac < 2 ^ 128 ∧ Shift frac e x ∧
        c.hastings = (decimal int * 10 ^ e + decimal frac * 10 ^ x) % 2 ^ 128 := by
  have hc : ∀ n, c.hastings = n % 2 ^ 128 → (⟨BitVec.ofNat 128 n⟩ : Currency) = c := fun n h =>
    Currency.ext' (by rw [h, Currency.hastings, BitVec.toNat_ofNat])
  constructor
  · intro h
    rcases unit_cases s with hu | ⟨e, hu⟩ | ⟨-, -, h'⟩
    · rcases parse_hastings (m := .unchecked) hu with ⟨n, h1, h2, h3⟩ | ⟨-, e, h1⟩
      · rw [h] at h3
        cases h3
        left
        rwa [Currency.hastings, BitVec.toNat_ofNat, Nat.mod_eq_of_lt h2]
      · rw [h] at h1; cases h1
    · by_cases hw : ∃ int frac, InUnits s int frac e ∧ decimal int < 2 ^ 128 ∧ decimal frac < 2 ^ 128
      · obtain ⟨int, frac, h1, h2, h3⟩ := hw
        have hr := unit_range hu
        rw [parse_units h1 h2 h3, scaledAmount_unchecked_any _ _ _ hr.1 hr.2 rfl, BitVec.toNat_ofNat, BitVec.toNat_ofNat,
          Nat.mod_eq_of_lt h2, Nat.mod_eq_of_lt h3] at h
        cases h
        exact .inr ⟨int, frac, e, _, h1, h2, h3, (Shift.unique hr.1 hr.2).mpr rfl, by rw [Currency.hastings, BitVec.toNat_ofNat]⟩
      · obtain ⟨msg, h1⟩ := parse_malformed (m := .unchecked) hu hw
        rw [h] at h1; cases h1
    · rw [h' .unchecked] at h; cases h
  · rintro (h | ⟨int, frac, e, x, h1, h2, h3, h4, h5⟩)
    · rw [(C14_exact_partial .unchecked s _ c.hastings_lt).1 h, hc]
      rw [Nat.mod_eq_of_lt c.hastings_lt]
    · have hr := unit_range ((inUnits_iff _ _ _ _).mp h1).1
      rw [parse_units h1 h2 h3, scaledAmount_unchecked_any _ _ _ hr.1 hr.2 ((Shift.unique hr.1 hr.2).mp h4), BitVec.toNat_ofNat, BitVec.toNat_ofNat,
          Nat.mod_eq_of_lt h2, Nat.mod_eq_of_lt h3]
      show Out.ok _ = _
      rw [hc _ h5]

/-- With fewer digits than the unit has the shift is the difference; with more, up to 2^31, it is out of reach. -/
example : Shift "535".toList 27 24 ∧ ∀ frac : List Char, 12 < frac.length → frac.length < 2 ^ 31 → ∀ x, Shift frac 12 x → 38 < x := by
  refine ⟨by unfold Shift; decide, fun frac h1 h2 x hx => ?_⟩
  rw [Shift.unique (by decide) (by decide)] at hx
  omega

/-- A picosiacoin with 2^32 - 1 digits after the point: the last is taken for ten of the unit. -/
example : ∃ s : List Char, s.length = 2 ^ 32 + 3 ∧ parseCurrency .checked s = .ok ⟨BitVec.ofNat 128 (10 ^ 13)⟩ := by
  obtain ⟨n, hn⟩ : ∃ n : Nat, n + 2 = 2 ^ 32 := ⟨2 ^ 32 - 2, by omega⟩
  have zeros : ∀ k, decimal (List.replicate k '0' ++ ['1']) = 1 := by
    intro k
    induction k with
    | zero => decide
    | succ k ih =>
      rw [List.replicate_succ, List.cons_append, decimal, ih]
      simp [digitChars]
  have hl : (List.replicate n '0' ++ ['1']).length = n + 1 := by simp
  refine ⟨['0'] ++ '.' :: (List.replicate n '0' ++ ['1']) ++ [] ++ ['p', 'S'] ++ [], by simp; omega, ?_⟩
  rw [C14_checked_reads_any]
  refine .inr ⟨['0'], List.replicate n '0' ++ ['1'], 12, 13, ⟨[], ['p', 'S'], [], by rw [if_neg (by simp)], by unfold Digits; decide,
    .inr ⟨by simp, ?_⟩, by simp [Blank], by decide, by simp [Blank]⟩, by unfold Shift; rw [hl]; omega, by decide, ?_⟩
  · intro c hc
    simp only [List.mem_append, List.mem_replicate, List.mem_singleton] at hc
    rcases hc with ⟨-, rfl⟩ | rfl <;> decide
  · rw [zeros]
    decide +kernel

end Verif
