import Verif.Lemmas.Number
import Verif.Lemmas.Wire
import Verif.Lemmas.Spec

/-!
# C14, C15, C46: currency strings and decimal text
-/

namespace Verif

/-! ## C14 -/

/-- In either build a whole number of hastings below 2^128 is read as that number, and so is an amount of a unit that has no more
digits after the point than the unit has and is below 2^128.  Missing: more digits than the unit has, where the code panics or drops the fraction
(`C14_not_trailing_zeros`). -/
theorem C14_exact_partial (m : Mode) (s : List Char) (n : Nat) (hn : n < 2 ^ 128) :
    (InHastings s n → parseCurrency m s = .ok ⟨BitVec.ofNat 128 n⟩) ∧
    (∀ int frac e, InUnits s int frac e → frac.length ≤ e → Denotes int frac e n →
      parseCurrency m s = .ok ⟨BitVec.ofNat 128 n⟩) := by
  constructor
  · intro h
    obtain ⟨h1, h2, rfl⟩ := (inHastings_iff s n).mp h
    rw [parseCurrency_eq, if_pos h1, parseU128_some h2 hn]
  · intro int frac e h hf hd
    have hr := unit_range ((inUnits_iff _ _ _ _).mp h).1
    rw [denotes_iff hf] at hd
    have hpow : 1 ≤ 10 ^ e := Nat.one_le_pow _ _ (by decide)
    have hi : decimal int < 2 ^ 128 := by
      have : decimal int ≤ decimal int * 10 ^ e := Nat.le_mul_of_pos_right _ hpow
      omega
    have hfr := inUnits_fracSmall h hf
    rw [parse_units h hi hfr]
    have ei : (BitVec.ofNat 128 (decimal int)).toNat = decimal int := by rw [BitVec.toNat_ofNat, Nat.mod_eq_of_lt hi]
    have ef : (BitVec.ofNat 128 (decimal frac)).toNat = decimal frac := by rw [BitVec.toNat_ofNat, Nat.mod_eq_of_lt hfr]
    cases m with
    | checked =>
      rw [scaledAmount_checked _ _ hr.1 hr.2 (by omega), ei, ef, ← hd, if_pos ⟨hf, hn⟩]
      rfl
    | unchecked =>
      rw [scaledAmount_unchecked _ _ hr.1 hr.2 (by omega), if_pos hf, ei, ef, ← hd]
      rfl

example : InUnits "65.535 KS".toList "65".toList "535".toList 27 ∧ Denotes "65".toList "535".toList 27 (65535 * 10 ^ 24) :=
  ⟨(inUnits_iff _ _ _ _).mpr (by unfold Digits; decide +kernel), by unfold Denotes; decide +kernel⟩

example : InHastings "1001 H".toList 1001 := (inHastings_iff _ _).mpr (by unfold Digits; decide +kernel)

/-- In a checked build these are the only strings that are read, and each is read as the amount it denotes. -/
theorem C14_checked_reads (s : List Char) (hs : s.length < 2 ^ 31) (c : Currency) :
    parseCurrency .checked s = .ok c ↔ InHastings s c.hastings ∨
      ∃ int frac e, InUnits s int frac e ∧ frac.length ≤ e ∧ Denotes int frac e c.hastings := by
  have hc : (⟨BitVec.ofNat 128 c.hastings⟩ : Currency) = c :=
    Currency.ext' (by rw [Currency.hastings, BitVec.toNat_ofNat, Nat.mod_eq_of_lt c.hastings_lt])
  constructor
  · intro h
    rcases unit_cases s with hu | ⟨e, hu⟩ | ⟨-, -, h'⟩
    · rcases parse_hastings (m := .checked) hu with ⟨n, h1, h2, h3⟩ | ⟨-, e, h1⟩
      · rw [h] at h3
        cases h3
        left
        rwa [Currency.hastings, BitVec.toNat_ofNat, Nat.mod_eq_of_lt h2]
      · rw [h] at h1; cases h1
    · by_cases hw : ∃ int frac, InUnits s int frac e ∧ decimal int < 2 ^ 128 ∧ decimal frac < 2 ^ 128
      · obtain ⟨int, frac, h1, h2, h3⟩ := hw
        have hr := unit_range hu
        have hl := inUnits_fracLength h1
        rw [parse_units h1 h2 h3, scaledAmount_checked _ _ hr.1 hr.2 (by omega), BitVec.toNat_ofNat, BitVec.toNat_ofNat,
          Nat.mod_eq_of_lt h2, Nat.mod_eq_of_lt h3] at h
        by_cases hcond : frac.length ≤ e ∧ decimal int * 10 ^ e + decimal frac * 10 ^ (e - frac.length) < 2 ^ 128
        · rw [if_pos hcond] at h
          cases h
          refine .inr ⟨int, frac, e, h1, hcond.1, ?_⟩
          rw [denotes_iff hcond.1, Currency.hastings, BitVec.toNat_ofNat, Nat.mod_eq_of_lt hcond.2]
        · rw [if_neg hcond] at h; cases h
      · obtain ⟨msg, h1⟩ := parse_malformed (m := .checked) hu hw
        rw [h] at h1; cases h1
    · rw [h' .checked] at h; cases h
  · rintro (h | ⟨int, frac, e, h1, h2, h3⟩)
    · rw [(C14_exact_partial .checked s _ c.hastings_lt).1 h, hc]
    · rw [(C14_exact_partial .checked s _ c.hastings_lt).2 int frac e h1 h2 h3, hc]

/-- In a checked build the strings on which it panics: well-formed amounts with more digits after the point than the unit has, or
of 2^128 or more. -/
theorem C14_checked_panics (s : List Char) (hs : s.length < 2 ^ 31) :
    parseCurrency .checked s = .panic ↔ ∃ int frac e, InUnits s int frac e ∧ decimal int < 2 ^ 128 ∧ decimal frac < 2 ^ 128 ∧
      ¬ (frac.length ≤ e ∧ ∃ n < 2 ^ 128, Denotes int frac e n) := by
  constructor
  · intro h
    rcases unit_cases s with hu | ⟨e, hu⟩ | ⟨-, -, h'⟩
    · rcases parse_hastings (m := .checked) hu with ⟨n, h1, h2, h3⟩ | ⟨-, e, h1⟩
      · rw [h] at h3; cases h3
      · rw [h] at h1; cases h1
    · by_cases hw : ∃ int frac, InUnits s int frac e ∧ decimal int < 2 ^ 128 ∧ decimal frac < 2 ^ 128
      · obtain ⟨int, frac, h1, h2, h3⟩ := hw
        refine ⟨int, frac, e, h1, h2, h3, ?_⟩
        rintro ⟨h4, n, h5, h6⟩
        rw [(C14_exact_partial .checked s n h5).2 int frac e h1 h4 h6] at h
        cases h
      · obtain ⟨msg, h1⟩ := parse_malformed (m := .checked) hu hw
        rw [h] at h1; cases h1
    · rw [h' .checked] at h; cases h
  · rintro ⟨int, frac, e, h1, h2, h3, h4⟩
    have hr := unit_range ((inUnits_iff _ _ _ _).mp h1).1
    have hl := inUnits_fracLength h1
    rw [parse_units h1 h2 h3, scaledAmount_checked _ _ hr.1 hr.2 (by omega), BitVec.toNat_ofNat, BitVec.toNat_ofNat,
      Nat.mod_eq_of_lt h2, Nat.mod_eq_of_lt h3, if_neg]
    · rfl
    · rintro ⟨h5, h6⟩
      exact h4 ⟨h5, _, h6, (denotes_iff h5).mpr rfl⟩

/-- Everything else is an error, in either build. -/
theorem C14_rejects (m : Mode) (s : List Char) :
    (∃ e, parseCurrency m s = .err e) ↔ (¬ ∃ n < 2 ^ 128, InHastings s n) ∧
      ¬ ∃ int frac e, InUnits s int frac e ∧ decimal int < 2 ^ 128 ∧ decimal frac < 2 ^ 128 := by
  constructor
  · rintro ⟨x, h⟩
    constructor
    · rintro ⟨n, h1, h2⟩
      rw [(C14_exact_partial m s n h1).1 h2] at h
      cases h
    · rintro ⟨int, frac, e, h1, h2, h3⟩
      rw [parse_units h1 h2 h3] at h
      cases hx : scaledAmount m (BitVec.ofNat 128 (decimal int)) (BitVec.ofNat 128 (decimal frac)) (BitVec.ofNat 32 frac.length)
        (BitVec.ofInt 32 ((e : Int) - 24)) <;> rw [hx] at h <;> cases h
  · rintro ⟨h1, h2⟩
    rcases unit_cases s with hu | ⟨e, hu⟩ | ⟨-, -, h'⟩
    · rcases parse_hastings (m := m) hu with ⟨n, h3, h4, -⟩ | ⟨-, e, h3⟩
      · exact absurd ⟨n, h4, h3⟩ h1
      · exact ⟨_, h3⟩
    · obtain ⟨msg, h3⟩ := parse_malformed (m := m) hu (fun ⟨int, frac, h⟩ => h2 ⟨int, frac, e, h⟩)
      exact ⟨_, h3⟩
    · exact ⟨_, h' m⟩

example : (∃ e, parseCurrency .checked "1.2.3 SC".toList = .err e) ∧ (∃ e, parseCurrency .checked ".5 SC".toList = .err e) ∧
    (∃ e, parseCurrency .checked "1,5 SC".toList = .err e) ∧ (∃ e, parseCurrency .checked " 1 SC".toList = .err e) ∧
    (∃ e, parseCurrency .checked "1.5".toList = .err e) :=
  ⟨⟨.invalidFormat "too many decimal points", by decide +kernel⟩, ⟨.invalidFormat "invalid integer part", by decide +kernel⟩,
    ⟨.invalidUnit ",5 SC".toList, by decide +kernel⟩, ⟨.invalidUnit "1 SC".toList, by decide +kernel⟩,
    ⟨.parseInt .invalidDigit, by decide +kernel⟩⟩

/-- The rest of a string after its longest beginning of digits and points, without white space around it. -/
def Rest (s u : List Char) : Prop :=
  ∃ t w w', s = t ++ w ++ u ++ w' ∧ (∀ c ∈ t, c ∈ digitChars ∨ c = '.') ∧ Blank w ∧ Blank w' ∧
    (∀ c ∈ (w ++ u ++ w').head?, c ∉ digitChars ∧ c ≠ '.') ∧
    (∀ c ∈ u.head?, ¬ Blank [c]) ∧ (∀ c ∈ u.getLast?, ¬ Blank [c])

theorem trim_ends (s : List Char) : (∀ c ∈ (trim s).head?, ¬ Blank [c]) ∧ (∀ c ∈ (trim s).getLast?, ¬ Blank [c]) := by
  obtain ⟨w, h1, h2, h3⟩ := dropWhile_white s
  obtain ⟨v, h4, h5, h6⟩ := dropWhile_white (s.dropWhile isWhite).reverse
  have hl : ∀ c ∈ (trim s).getLast?, ¬ Blank [c] := by
    intro c hc
    unfold trim at hc
    rw [List.getLast?_reverse] at hc
    have := h6 c hc
    rw [← isWhite_iff, this]
    simp
  refine ⟨?_, hl⟩
  intro c hc
  have e : s.dropWhile isWhite = trim s ++ v.reverse := by
    have := congrArg List.reverse h4
    rwa [List.reverse_reverse, List.reverse_append] at this
  have : c ∈ (s.dropWhile isWhite).head? := by
    rw [e]
    revert hc
    cases trim s <;> simp
  have := h3 c this
  rw [← isWhite_iff, this]
  simp

theorem trim_of_ends {w u w' : List Char} (hw : Blank w) (hw' : Blank w') (h1 : ∀ c ∈ u.head?, ¬ Blank [c])
    (h2 : ∀ c ∈ u.getLast?, ¬ Blank [c]) : trim (w ++ u ++ w') = u := by
  cases u with
  | nil => exact trim_eq hw hw' (by simp)
  | cons c u =>
    rw [blank_iff] at hw hw'
    unfold trim
    have hc : isWhite c = false := by
      have := h1 c (by simp)
      rw [← isWhite_iff] at this
      simpa using this
    rw [List.append_assoc, (takeWhile_append (p := isWhite) hw (by simpa using hc)).2, List.reverse_append]
    rw [(takeWhile_append (p := isWhite) (by simpa using hw') ?_).2, List.reverse_reverse]
    intro x hx
    rw [List.head?_reverse] at hx
    have := h2 x hx
    rw [← isWhite_iff] at this
    simpa using this

/-- The unknown units, and only these, are reported as such, with the unit. -/
theorem C14_unknown_unit (m : Mode) (s u : List Char) :
    parseCurrency m s = .err (.invalidUnit u) ↔ Rest s u ∧ u ≠ [] ∧ u ≠ ['H'] ∧ ∀ e, (u, e) ∉ units := by
  have hrest : Rest s u ↔ unitOf s = u := by
    constructor
    · rintro ⟨t, w, w', h1, h2, h3, h4, h5, h6, h7⟩
      have := takeWhile_append (p := isNum) (a := t) (b := w ++ u ++ w') (fun c hc => (isNum_iff c).mpr (h2 c hc)) (by
        intro c hc
        cases hn : isNum c with
        | false => rfl
        | true => exact absurd ((isNum_iff c).mp hn) (by simpa using h5 c hc))
      have e : s = t ++ (w ++ u ++ w') := by rw [h1]; simp
      unfold unitOf
      rw [e, this.2]
      exact trim_of_ends h3 h4 h6 h7
    · rintro rfl
      obtain ⟨w, w', h1, h2, h3⟩ := trim_split (s.dropWhile isNum)
      refine ⟨s.takeWhile isNum, w, w', ?_, takeWhile_num s, h2, h3, ?_, (trim_ends _).1, (trim_ends _).2⟩
      · unfold unitOf
        rw [List.append_assoc, List.append_assoc, ← List.append_assoc w, ← h1, List.takeWhile_append_dropWhile]
      · unfold unitOf
        rw [← h1]
        intro c hc
        have : isNum c = false := by
          have := List.head?_dropWhile_not isNum s
          rw [hc] at this
          simpa using this
        have h' : ¬ (c ∈ digitChars ∨ c = '.') := fun h => by rw [(isNum_iff c).mpr h] at this; cases this
        simpa using h'
  rw [hrest]
  constructor
  · intro h
    rcases unit_cases s with hu | ⟨e, hu⟩ | ⟨h1, h2, h3⟩
    · rcases parse_hastings (m := m) hu with ⟨n, -, -, h3⟩ | ⟨-, e, h3⟩ <;> rw [h] at h3 <;> cases h3
    · by_cases hw : ∃ int frac, InUnits s int frac e ∧ decimal int < 2 ^ 128 ∧ decimal frac < 2 ^ 128
      · obtain ⟨int, frac, h1, h2, h3⟩ := hw
        exact absurd ⟨int, frac, e, h1, h2, h3⟩ ((C14_rejects m s).mp ⟨_, h⟩).2
      · obtain ⟨msg, h1⟩ := parse_malformed (m := m) hu hw
        rw [h] at h1; cases h1
    · rw [h3 m] at h
      cases h
      exact ⟨rfl, fun h => h1 (.inl h), fun h => h1 (.inr h), h2⟩
  · rintro ⟨rfl, h1, h2, h3⟩
    rcases unit_cases s with hu | ⟨e, hu⟩ | ⟨-, -, h4⟩
    · rcases hu with hu | hu
      · exact absurd hu h1
      · exact absurd hu h2
    · exact absurd hu (h3 e)
    · exact h4 m

/-- What an unchecked build reads: overflow is wrapped, and a fraction with too many digits is dropped. -/
theorem C14_unchecked_reads (s : List Char) (hs : s.length < 2 ^ 31) (c : Currency) :
    parseCurrency .unchecked s = .ok c ↔ InHastings s c.hastings ∨
      ∃ int frac e, InUnits s int frac e ∧ decimal int < 2 ^ 128 ∧ decimal frac < 2 ^ 128 ∧
        c.hastings = (decimal int * 10 ^ e + (if frac.length ≤ e then decimal frac * 10 ^ (e - frac.length) else 0)) % 2 ^ 128 := by
  have hc : ∀ n, c.hastings = n % 2 ^ 128 → (⟨BitVec.ofNat 128 n⟩ : Currency) = c := fun n h =>
    Currency.ext' (by rw [h, Currency.hastings, BitVec.toNat_ofNat])
  constructor
  · intro h
    rcases unit_cases s with hu | ⟨e, hu⟩ | ⟨-, -, h'⟩
    · rcases parse_hastings (m := .unchecked) hu with ⟨n, h1, h2, h3⟩ | ⟨-, e, h1⟩
      · rw [h] at h3
        cases h3
        left
        rwa [Currency.hastings, BitVec.toNat_ofNat, Nat.mod_eq_of_lt h2]
      · rw [h] at h1; cases h1
    · by_cases hw : ∃ int frac, InUnits s int frac e ∧ decimal int < 2 ^ 128 ∧ decimal frac < 2 ^ 128
      · obtain ⟨int, frac, h1, h2, h3⟩ := hw
        have hr := unit_range hu
        have hl := inUnits_fracLength h1
        rw [parse_units h1 h2 h3, scaledAmount_unchecked _ _ hr.1 hr.2 (by omega), BitVec.toNat_ofNat, BitVec.toNat_ofNat,
          Nat.mod_eq_of_lt h2, Nat.mod_eq_of_lt h3] at h
        cases h
        exact .inr ⟨int, frac, e, h1, h2, h3, by rw [Currency.hastings, BitVec.toNat_ofNat]⟩
      · obtain ⟨msg, h1⟩ := parse_malformed (m := .unchecked) hu hw
        rw [h] at h1; cases h1
    · rw [h' .unchecked] at h; cases h
  · rintro (h | ⟨int, frac, e, h1, h2, h3, h4⟩)
    · rw [(C14_exact_partial .unchecked s _ c.hastings_lt).1 h, hc]
      rw [Nat.mod_eq_of_lt c.hastings_lt]
    · have hr := unit_range ((inUnits_iff _ _ _ _).mp h1).1
      have hl := inUnits_fracLength h1
      rw [parse_units h1 h2 h3, scaledAmount_unchecked _ _ hr.1 hr.2 (by omega), BitVec.toNat_ofNat, BitVec.toNat_ofNat,
          Nat.mod_eq_of_lt h2, Nat.mod_eq_of_lt h3]
      show Out.ok _ = _
      rw [hc _ h4]

/-- The full statement, "a string whose value is a whole number of hastings below 2^128 is read as that number", fails for a
fraction with zeros at the end: a tenth of a siacoin written with 25 digits panics in a checked build and is read as nothing in an
unchecked one. -/
theorem C14_not_trailing_zeros :
    InUnits "0.1000000000000000000000000 SC".toList ['0'] "1000000000000000000000000".toList 24 ∧
    Denotes ['0'] "1000000000000000000000000".toList 24 (10 ^ 23) ∧
    parseCurrency .checked "0.1000000000000000000000000 SC".toList = .panic ∧
    parseCurrency .unchecked "0.1000000000000000000000000 SC".toList = .ok ⟨0⟩ := by
  have h : InUnits "0.1000000000000000000000000 SC".toList ['0'] "1000000000000000000000000".toList 24 :=
    (inUnits_iff _ _ _ _).mpr (by unfold Digits; decide +kernel)
  refine ⟨h, by unfold Denotes; decide +kernel, ?_, ?_⟩
  · exact (C14_checked_panics _ (by decide +kernel)).mpr ⟨_, _, _, h, by decide +kernel, by decide +kernel,
      fun hx => absurd hx.1 (by decide +kernel)⟩
  · exact (C14_unchecked_reads _ (by decide +kernel) ⟨0⟩).mpr (.inr ⟨_, _, _, h, by decide +kernel, by decide +kernel, by decide +kernel⟩)

/-- Amounts that are too large are not errors: a checked build panics and an unchecked one yields something else. -/
theorem C14_not_overflow :
    InUnits "341 TS".toList "341".toList [] 36 ∧ parseCurrency .checked "341 TS".toList = .panic ∧
    parseCurrency .unchecked "341 TS".toList = .ok ⟨BitVec.ofNat 128 (341 * 10 ^ 36 - 2 ^ 128)⟩ := by
  have h : InUnits "341 TS".toList "341".toList [] 36 := (inUnits_iff _ _ _ _).mpr (by unfold Digits; decide +kernel)
  refine ⟨h, ?_, ?_⟩
  · refine (C14_checked_panics _ (by decide +kernel)).mpr ⟨_, _, _, h, by decide +kernel, by decide +kernel, ?_⟩
    rintro ⟨h1, n, h2, h3⟩
    rw [denotes_iff h1] at h3
    revert h2
    rw [h3]
    decide +kernel
  · exact (C14_unchecked_reads _ (by decide +kernel) _).mpr (.inr ⟨_, _, _, h, by decide +kernel, by decide +kernel, by decide +kernel⟩)

/-- The number of digits is cut to 32 bits: 2^32 zeros in front of the fraction do not count, so that the amount read is wrong by
that power of ten, in either build. -/
theorem C14_not_long (m : Mode) (s int frac : List Char) (e : Nat) (h : InUnits s int (List.replicate (2 ^ 32) '0' ++ frac) e)
    (hf : frac.length ≤ e) (hv : decimal int * 10 ^ e + decimal frac * 10 ^ (e - frac.length) < 2 ^ 128) :
    parseCurrency m s = .ok ⟨BitVec.ofNat 128 (decimal int * 10 ^ e + decimal frac * 10 ^ (e - frac.length))⟩ := by
  have hr := unit_range ((inUnits_iff _ _ _ _).mp h).1
  have zeros : ∀ k, decimal (List.replicate k '0') = 0 := by
    intro k
    induction k with
    | zero => rfl
    | succ k ih =>
      rw [List.replicate_succ, decimal, ih]
      simp [digitChars]
  have hpow : 1 ≤ 10 ^ e := Nat.one_le_pow _ _ (by decide)
  have hpow' : 1 ≤ 10 ^ (e - frac.length) := Nat.one_le_pow _ _ (by decide)
  have h1 : decimal int < 2 ^ 128 := by
    have : decimal int ≤ decimal int * 10 ^ e := Nat.le_mul_of_pos_right _ hpow
    omega
  have h2 : decimal frac < 2 ^ 128 := by
    have : decimal frac ≤ decimal frac * 10 ^ (e - frac.length) := Nat.le_mul_of_pos_right _ hpow'
    omega
  have hd : decimal (List.replicate (2 ^ 32) '0' ++ frac) = decimal frac := by
    rw [decimal_append, zeros, Nat.zero_mul, Nat.zero_add]
  have hl : BitVec.ofNat 32 (List.replicate (2 ^ 32) '0' ++ frac).length = BitVec.ofNat 32 frac.length := by
    apply BitVec.eq_of_toNat_eq
    rw [BitVec.toNat_ofNat, BitVec.toNat_ofNat, List.length_append, List.length_replicate, Nat.add_mod_left]
  rw [parse_units h h1 (by rw [hd]; exact h2), hd, hl]
  have ei : (BitVec.ofNat 128 (decimal int)).toNat = decimal int := by rw [BitVec.toNat_ofNat, Nat.mod_eq_of_lt h1]
  have ef : (BitVec.ofNat 128 (decimal frac)).toNat = decimal frac := by rw [BitVec.toNat_ofNat, Nat.mod_eq_of_lt h2]
  cases m with
  | checked => rw [scaledAmount_checked _ _ hr.1 hr.2 (by omega), ei, ef, if_pos ⟨hf, hv⟩]; rfl
  | unchecked => rw [scaledAmount_unchecked _ _ hr.1 hr.2 (by omega), if_pos hf, ei, ef]; rfl

/-- There are such strings, for any number of zeros. -/
example (k : Nat) : InUnits (['0'] ++ '.' :: (List.replicate k '0' ++ ['1']) ++ [' '] ++ ['S', 'C'] ++ []) ['0']
    (List.replicate k '0' ++ ['1']) 24 := by
  refine ⟨[' '], ['S', 'C'], [], ?_, by unfold Digits; decide, .inr ⟨by simp, ?_⟩, by unfold Blank; decide, by decide, by simp [Blank]⟩
  · rw [if_neg (by simp)]
  · intro c hc
    simp only [List.mem_append, List.mem_replicate, List.mem_singleton] at hc
    rcases hc with ⟨-, rfl⟩ | rfl <;> decide

/-! ### A parser that keeps the promise -/

/-- The end of the parser with checked operators, and without the zeros that are too many. -/
def amountFixed (int frac : List Char) (e : Nat) : Option Currency :=
  if (frac.drop e).all (· == '0') then
    match parseU128 int, (if frac.take e = [] then .ok 0 else parseU128 (frac.take e)) with
    | .ok i, .ok f =>
      match Currency.checkedMul ⟨i⟩ ⟨BitVec.ofNat 128 (10 ^ e)⟩,
          Currency.checkedMul ⟨f⟩ ⟨BitVec.ofNat 128 (10 ^ (e - (frac.take e).length))⟩ with
      | some a, some b => Currency.checkedAdd a b
      | _, _ => none
    | _, _ => none
  else none

/-- `parse_string` with this end; the errors are not told apart. -/
def parseFixed (s : List Char) : Option Currency :=
  let value := trim (s.takeWhile fun c => isDigit c || c == '.')
  let unit := trim (s.dropWhile fun c => isDigit c || c == '.')
  if unit = [] ∨ unit = ['H'] then
    match parseU128 value with
    | .ok v => some ⟨v⟩
    | .error _ => none
  else match units.lookup unit with
    | none => none
    | some e =>
      match splitDot value with
      | [int] => amountFixed int [] e
      | [int, frac] => if frac = [] then none else if frac.all isDigit then amountFixed int frac e else none
      | _ => none

theorem decimal_zero_iff {s : List Char} (h : ∀ c ∈ s, c ∈ digitChars) : decimal s = 0 ↔ ∀ c ∈ s, c = '0' := by
  induction s with
  | nil => simp [decimal]
  | cons c s ih =>
    have hz : ∀ d ∈ digitChars, digitChars.idxOf d = 0 ↔ d = '0' := by decide
    have hp : 0 < 10 ^ s.length := Nat.pow_pos (by decide)
    rw [decimal, Nat.add_eq_zero_iff, Nat.mul_eq_zero, ih (fun d hd => h d (by simp [hd])), hz c (h c (by simp))]
    simp only [List.mem_cons, forall_eq_or_imp]
    constructor
    · rintro ⟨h1 | h1, h2⟩
      · exact ⟨h1, h2⟩
      · omega
    · rintro ⟨h1, h2⟩
      exact ⟨.inl h1, h2⟩

theorem checkedMul_iff (a b c : Currency) : Currency.checkedMul a b = some c ↔ c.hastings = a.hastings * b.hastings := by
  unfold Currency.checkedMul
  have hc := c.hastings_lt
  constructor
  · intro h
    split at h
    · rename_i hlt
      cases h
      show (a.val * b.val).toNat = _
      rw [BitVec.toNat_mul, Nat.mod_eq_of_lt hlt]
    · cases h
  · intro h
    rw [if_pos (by rw [← h]; exact hc)]
    congr 1
    apply Currency.ext'
    rw [h]
    show (a.val * b.val).toNat = _
    rw [BitVec.toNat_mul, Nat.mod_eq_of_lt (by rw [← h]; exact hc)]

theorem checkedAdd_iff (a b c : Currency) : Currency.checkedAdd a b = some c ↔ c.hastings = a.hastings + b.hastings := by
  unfold Currency.checkedAdd
  have hc := c.hastings_lt
  constructor
  · intro h
    split at h
    · rename_i hlt
      cases h
      show (a.val + b.val).toNat = _
      rw [BitVec.toNat_add, Nat.mod_eq_of_lt hlt]
    · cases h
  · intro h
    rw [if_pos (by rw [← h]; exact hc)]
    congr 1
    apply Currency.ext'
    rw [h]
    show (a.val + b.val).toNat = _
    rw [BitVec.toNat_add, Nat.mod_eq_of_lt (by rw [← h]; exact hc)]

theorem amountFixed_iff {int frac : List Char} {e : Nat} (hi : ∀ c ∈ int, c ∈ digitChars ∨ c = '.') (hf : ∀ c ∈ frac, c ∈ digitChars)
    (he : e ≤ 36) (c : Currency) : amountFixed int frac e = some c ↔ Digits int ∧ Denotes int frac e c.hastings := by
  have hpe : (BitVec.ofNat 128 (10 ^ e)).toNat = 10 ^ e := by
    rw [BitVec.toNat_ofNat, Nat.mod_eq_of_lt (pow10_mul.mpr (by omega))]
  have hpk : ∀ k, (BitVec.ofNat 128 (10 ^ (e - k))).toNat = 10 ^ (e - k) := fun k => by
    rw [BitVec.toNat_ofNat, Nat.mod_eq_of_lt (pow10_mul.mpr (by omega))]
  have htake : ∀ c ∈ frac.take e, c ∈ digitChars := fun c hc => hf c (List.mem_of_mem_take hc)
  have hdrop : ∀ c ∈ frac.drop e, c ∈ digitChars := fun c hc => hf c (List.mem_of_mem_drop hc)
  have hsmall : decimal (frac.take e) < 2 ^ 128 := by
    have h1 := decimal_lt htake
    have h2 : 10 ^ (frac.take e).length < 2 ^ 128 := pow10_mul.mpr (by rw [List.length_take]; omega)
    omega
  have hz : (frac.drop e).all (· == '0') = true ↔ decimal (frac.drop e) = 0 := by
    rw [decimal_zero_iff hdrop, List.all_eq_true]
    simp
  -- the value, when the excess digits are zero
  have hval : decimal (frac.drop e) = 0 → ∀ n, (Denotes int frac e n ↔
      n = decimal int * 10 ^ e + decimal (frac.take e) * 10 ^ (e - (frac.take e).length)) := by
    intro h0 n
    by_cases hl : frac.length ≤ e
    · rw [List.take_of_length_le hl, denotes_iff hl]
    · have hlen : (frac.take e).length = e := by rw [List.length_take]; omega
      have hd : decimal frac = decimal (frac.take e) * 10 ^ (frac.length - e) := by
        conv => lhs; rw [← List.take_append_drop e frac, decimal_append, h0, Nat.add_zero, List.length_drop]
      unfold Denotes
      rw [hlen, Nat.sub_self, Nat.pow_zero, Nat.mul_one, decimal_append, hd]
      have e1 : (10 : Nat) ^ frac.length = 10 ^ (frac.length - e) * 10 ^ e := by
        rw [← Nat.pow_add]; congr 1; omega
      have : (decimal int * 10 ^ frac.length + decimal (frac.take e) * 10 ^ (frac.length - e)) * 10 ^ e =
          (decimal int * 10 ^ e + decimal (frac.take e)) * 10 ^ frac.length := by
        rw [e1, Nat.add_mul, Nat.add_mul]
        congr 1
        · ac_rfl
        · ac_rfl
      rw [this]
      exact ⟨fun h => Nat.eq_of_mul_eq_mul_right (Nat.pow_pos (by decide)) h, fun h => by rw [h]⟩
  have hnz : ∀ n, Denotes int frac e n → decimal (frac.drop e) = 0 := by
    intro n h
    by_cases hl : frac.length ≤ e
    · rw [List.drop_of_length_le hl]; rfl
    · unfold Denotes at h
      have hdl := decimal_lt hdrop
      rw [List.length_drop] at hdl
      have hd : decimal frac = decimal (frac.take e) * 10 ^ (frac.length - e) + decimal (frac.drop e) := by
        conv => lhs; rw [← List.take_append_drop e frac, decimal_append, List.length_drop]
      have e1 : (10 : Nat) ^ frac.length = 10 ^ (frac.length - e) * 10 ^ e := by
        rw [← Nat.pow_add]; congr 1; omega
      rw [decimal_append, hd] at h
      have h' : n * 10 ^ (frac.length - e) = decimal int * 10 ^ frac.length +
          (decimal (frac.take e) * 10 ^ (frac.length - e) + decimal (frac.drop e)) :=
        Nat.eq_of_mul_eq_mul_right (Nat.pow_pos (n := e) (by decide : 0 < 10)) (by rw [← h, e1]; ac_rfl)
      have h2 : (n * 10 ^ (frac.length - e)) % 10 ^ (frac.length - e) = decimal (frac.drop e) := by
        rw [h', e1, show decimal int * (10 ^ (frac.length - e) * 10 ^ e) = (decimal int * 10 ^ e) * 10 ^ (frac.length - e) by ac_rfl,
          ← Nat.add_assoc, ← Nat.add_mul, Nat.mul_add_mod_self_right, Nat.mod_eq_of_lt hdl]
      rw [← h2, Nat.mul_mod_left]
  unfold amountFixed
  by_cases h0 : decimal (frac.drop e) = 0
  · rw [if_pos (hz.mpr h0)]
    have hfr : (if frac.take e = [] then .ok 0 else parseU128 (frac.take e)) =
        (.ok (BitVec.ofNat 128 (decimal (frac.take e))) : Except IntErr U128) := by
      by_cases ht : frac.take e = []
      · rw [if_pos ht, ht]; rfl
      · rw [if_neg ht, parseU128_some ⟨ht, htake⟩ hsmall]
    have hff : (BitVec.ofNat 128 (decimal (frac.take e))).toNat = decimal (frac.take e) := by
      rw [BitVec.toNat_ofNat, Nat.mod_eq_of_lt hsmall]
    rw [hfr, hval h0]
    constructor
    · intro h
      cases hp : parseU128 int with
      | error x => rw [hp] at h; cases h
      | ok i =>
        rw [hp] at h
        simp only at h
        obtain ⟨h1, h2⟩ := (parseU128_ok hi i).mp hp
        cases ha : Currency.checkedMul ⟨i⟩ ⟨BitVec.ofNat 128 (10 ^ e)⟩ with
        | none => rw [ha] at h; cases h
        | some a =>
          cases hb : Currency.checkedMul ⟨BitVec.ofNat 128 (decimal (frac.take e))⟩
              ⟨BitVec.ofNat 128 (10 ^ (e - (frac.take e).length))⟩ with
          | none => rw [ha, hb] at h; cases h
          | some b =>
            rw [ha, hb] at h
            simp only at h
            refine ⟨h1, ?_⟩
            have ha' : a.hastings = i.toNat * (BitVec.ofNat 128 (10 ^ e)).toNat := (checkedMul_iff _ _ _).mp ha
            have hb' : b.hastings = (BitVec.ofNat 128 (decimal (frac.take e))).toNat *
              (BitVec.ofNat 128 (10 ^ (e - (frac.take e).length))).toNat := (checkedMul_iff _ _ _).mp hb
            rw [(checkedAdd_iff a b c).mp h, ha', hb', hpe, hpk, hff, h2]
    · rintro ⟨h1, h2⟩
      have hlt := c.hastings_lt
      have hi' : decimal int < 2 ^ 128 := by
        have : decimal int ≤ decimal int * 10 ^ e := Nat.le_mul_of_pos_right _ (Nat.pow_pos (by decide))
        omega
      rw [parseU128_some h1 hi']
      simp only
      have ha := (checkedMul_iff ⟨BitVec.ofNat 128 (decimal int)⟩ ⟨BitVec.ofNat 128 (10 ^ e)⟩
        ⟨BitVec.ofNat 128 (decimal int * 10 ^ e)⟩).mpr (by
          show (BitVec.ofNat 128 (decimal int * 10 ^ e)).toNat = (BitVec.ofNat 128 (decimal int)).toNat * (BitVec.ofNat 128 (10 ^ e)).toNat
          rw [hpe, BitVec.toNat_ofNat, BitVec.toNat_ofNat, Nat.mod_eq_of_lt hi', Nat.mod_eq_of_lt (by omega)])
      have hb := (checkedMul_iff ⟨BitVec.ofNat 128 (decimal (frac.take e))⟩ ⟨BitVec.ofNat 128 (10 ^ (e - (frac.take e).length))⟩
        ⟨BitVec.ofNat 128 (decimal (frac.take e) * 10 ^ (e - (frac.take e).length))⟩).mpr (by
          show (BitVec.ofNat 128 (decimal (frac.take e) * 10 ^ (e - (frac.take e).length))).toNat =
            (BitVec.ofNat 128 (decimal (frac.take e))).toNat * (BitVec.ofNat 128 (10 ^ (e - (frac.take e).length))).toNat
          rw [hpk, hff, BitVec.toNat_ofNat, Nat.mod_eq_of_lt (by omega)])
      rw [ha, hb]
      simp only
      refine (checkedAdd_iff _ _ _).mpr ?_
      show c.hastings = (BitVec.ofNat 128 (decimal int * 10 ^ e)).toNat +
        (BitVec.ofNat 128 (decimal (frac.take e) * 10 ^ (e - (frac.take e).length))).toNat
      rw [h2, BitVec.toNat_ofNat, BitVec.toNat_ofNat, Nat.mod_eq_of_lt (by omega), Nat.mod_eq_of_lt (by omega)]
  · rw [if_neg (fun h => h0 (hz.mp h))]
    constructor
    · intro h; cases h
    · rintro ⟨-, h⟩
      exact absurd (hnz _ h) h0

theorem lookup_units (u : List Char) (e : Nat) : units.lookup u = some e ↔ (u, e) ∈ units := by
  have h1 : ∀ p ∈ units, units.lookup p.1 = some p.2 := by decide
  constructor
  · have : ∀ (l : List (List Char × Nat)), l.lookup u = some e → (u, e) ∈ l := by
      intro l
      induction l with
      | nil => intro h; cases h
      | cons p l ih =>
        intro h
        obtain ⟨a, b⟩ := p
        rw [List.lookup_cons] at h
        split at h
        · rename_i hb
          cases h
          rw [beq_iff_eq.mp hb]
          simp
        · exact List.mem_cons_of_mem _ (ih h)
    exact this _
  · exact fun h => h1 _ h

/-- The repaired parser reads exactly the strings whose value is a whole number of hastings below 2^128, of any length, and reads
them as that number. -/
theorem C14_repaired (s : List Char) (c : Currency) :
    parseFixed s = some c ↔ InHastings s c.hastings ∨ ∃ int frac e, InUnits s int frac e ∧ Denotes int frac e c.hastings := by
  have heq : parseFixed s = if unitOf s = [] ∨ unitOf s = ['H'] then
      match parseU128 (valueOf s) with
      | .ok v => some ⟨v⟩
      | .error _ => none
    else match units.lookup (unitOf s) with
      | none => none
      | some e =>
        match splitDot (valueOf s) with
        | [int] => amountFixed int [] e
        | [int, frac] => if frac = [] then none else if frac.all isDigit then amountFixed int frac e else none
        | _ => none := by
    have h : trim (s.takeWhile fun c => isDigit c || c == '.') = valueOf s := trim_num s
    unfold parseFixed
    simp only [h]
    rfl
  rw [heq]
  have hnum := takeWhile_num s
  by_cases hu : unitOf s = [] ∨ unitOf s = ['H']
  · rw [if_pos hu]
    have : (InHastings s c.hastings ∨ ∃ int frac e, InUnits s int frac e ∧ Denotes int frac e c.hastings) ↔
        Digits (valueOf s) ∧ c.hastings = decimal (valueOf s) := by
      rw [inHastings_iff]
      constructor
      · rintro (h | ⟨int, frac, e, h, -⟩)
        · exact h.2
        · exact absurd hu (not_hastings ((inUnits_iff _ _ _ _).mp h).1)
      · exact fun h => .inl ⟨hu, h⟩
    rw [this]
    constructor
    · intro h
      cases hp : parseU128 (valueOf s) with
      | error e => rw [hp] at h; cases h
      | ok v =>
        rw [hp] at h
        cases h
        exact (parseU128_ok hnum v).mp hp
    · intro h
      rw [(parseU128_ok (s := valueOf s) hnum c.val).mpr h]
  · rw [if_neg hu]
    have hH : ¬ InHastings s c.hastings := fun h => hu ((inHastings_iff _ _).mp h).1
    cases hl : units.lookup (unitOf s) with
    | none =>
      constructor
      · intro h; cases h
      · rintro (h | ⟨int, frac, e, h, -⟩)
        · exact absurd h hH
        · rw [(lookup_units _ e).mpr ((inUnits_iff _ _ _ _).mp h).1] at hl; cases hl
    | some e =>
      have hmem := (lookup_units _ e).mp hl
      have hr := unit_range hmem
      simp only
      rcases splitDot_cases (valueOf s) with ⟨h1, h2⟩ | ⟨a, b, h1, h2, h3, h4⟩ | ⟨a, b, h1, h2, h3, h4⟩
      · rw [h2]
        simp only
        rw [amountFixed_iff (int := valueOf s) (frac := []) hnum (by simp) hr.2]
        constructor
        · rintro ⟨h5, h6⟩
          exact .inr ⟨valueOf s, [], e, (inUnits_iff _ _ _ _).mpr ⟨hmem, by simp, h5, .inl rfl⟩, h6⟩
        · rintro (h | ⟨int, frac, e', h, h6⟩)
          · exact absurd h hH
          · obtain ⟨g1, g2, g3, g4⟩ := (inUnits_iff _ _ _ _).mp h
            have := unit_unique hmem g1
            subst this
            rcases g4 with rfl | g4
            · simp only [if_true, List.append_nil] at g2
              rw [g2]
              exact ⟨g3, h6⟩
            · rw [g2, if_neg g4.1] at h1
              simp at h1
      · rw [h4]
        simp only
        have ha : ∀ c ∈ a, c ∈ digitChars ∨ c = '.' := fun c hc => hnum c (by
          show c ∈ valueOf s
          rw [h1]; exact List.mem_append_left _ hc)
        have hb : ∀ c ∈ b, c ∈ digitChars := fun c hc => by
          rcases hnum c (by
            show c ∈ valueOf s
            rw [h1]; exact List.mem_append_right _ (List.mem_cons_of_mem _ hc)) with h | h
          · exact h
          · exact absurd (h ▸ hc) h3
        have key : (InHastings s c.hastings ∨ ∃ int frac e, InUnits s int frac e ∧ Denotes int frac e c.hastings) ↔
            b ≠ [] ∧ Digits a ∧ Denotes a b e c.hastings := by
          constructor
          · rintro (h | ⟨int, frac, e', h, h6⟩)
            · exact absurd h hH
            · obtain ⟨g1, g2, g3, g4⟩ := (inUnits_iff _ _ _ _).mp h
              have := unit_unique hmem g1
              subst this
              rcases g4 with rfl | g4
              · rw [if_pos rfl, List.append_nil] at g2
                have := digits_nodot g3
                rw [← g2, h1] at this
                simp at this
              · rw [if_neg g4.1] at g2
                rw [g2, splitDot_append (digits_nodot g3), splitDot_nodot (digits_nodot g4)] at h4
                simp only [List.cons.injEq, and_true] at h4
                rw [← h4.1, ← h4.2]
                exact ⟨g4.1, g3, h6⟩
          · rintro ⟨h5, h6, h7⟩
            exact .inr ⟨a, b, e, (inUnits_iff _ _ _ _).mpr ⟨hmem, by rw [if_neg h5, h1], h6, .inr ⟨h5, hb⟩⟩, h7⟩
        rw [key]
        by_cases hb0 : b = []
        · rw [if_pos hb0]
          exact ⟨fun h => (by cases h), fun h => absurd hb0 h.1⟩
        · rw [if_neg hb0, if_pos (List.all_eq_true.mpr fun c hc => (isDigit_iff c).mpr (hb c hc)), amountFixed_iff ha hb hr.2]
          exact ⟨fun h => ⟨hb0, h⟩, fun h => h.2⟩
      · have hnone : (match splitDot (valueOf s) with
            | [int] => amountFixed int [] e
            | [int, frac] => if frac = [] then none else if frac.all isDigit then amountFixed int frac e else none
            | _ => none) = none := by
          match hsd : splitDot (valueOf s), h4 with
          | _ :: _ :: _ :: _, _ => rfl
        rw [hnone]
        constructor
        · intro h; cases h
        · rintro (h | ⟨int, frac, e', h, h6⟩)
          · exact absurd h hH
          · obtain ⟨g1, g2, g3, g4⟩ := (inUnits_iff _ _ _ _).mp h
            rw [g2] at h4
            rcases g4 with rfl | g4
            · rw [if_pos rfl, List.append_nil, splitDot_nodot (digits_nodot g3)] at h4
              simp at h4
            · rw [if_neg g4.1, splitDot_append (digits_nodot g3), splitDot_nodot (digits_nodot g4)] at h4
              simp at h4

example : parseFixed "0.1000000000000000000000000 SC".toList = some ⟨BitVec.ofNat 128 (10 ^ 23)⟩ ∧
    parseFixed "341 TS".toList = none := by decide +kernel

/-! ## C15 -/

theorem showNat_spec : ∀ n : Nat, Digits (showNat n) ∧ decimal (showNat n) = n ∧ ((showNat n).head? = some '0' → n = 0) := by
  intro n
  induction n using Nat.strongRecOn with
  | ind n ih =>
    have hd : ∀ k : Fin 10, Char.ofNat (48 + k.1) ∈ digitChars ∧ digitChars.idxOf (Char.ofNat (48 + k.1)) = k.1 ∧
        (Char.ofNat (48 + k.1) = '0' → k.1 = 0) := by decide
    rw [showNat]
    by_cases h : n < 10
    · rw [dif_pos h]
      obtain ⟨h1, h2, h3⟩ := hd ⟨n, h⟩
      exact ⟨⟨by simp, by simpa using h1⟩, by rw [decimal, h2]; simp [decimal], by simpa using h3⟩
    · rw [dif_neg h]
      obtain ⟨h1, h2, -⟩ := hd ⟨n % 10, by omega⟩
      obtain ⟨i1, i2, i3⟩ := ih (n / 10) (by omega)
      refine ⟨⟨by simp, ?_⟩, ?_, ?_⟩
      · intro c hc
        rcases List.mem_append.mp hc with hc | hc
        · exact i1.2 c hc
        · rw [List.mem_singleton.mp hc]; exact h1
      · rw [decimal_append, i2, decimal, h2]
        simp only [List.length_cons, List.length_nil, decimal]
        omega
      · intro hh
        cases hs : showNat (n / 10) with
        | nil => exact absurd hs i1.1
        | cons c t =>
          rw [hs] at hh i3
          have := i3 (by simpa using hh)
          omega

/-- Formatting a currency as its JSON string and parsing it back is the identity, in either build. -/
theorem C15_round_trip (m : Mode) (c : Currency) : deserializeCurrency m (.str (showCurrency c)) = .ok c := by
  have h : InHastings (showCurrency c) c.hastings :=
    ⟨showCurrency c, [], [], [], by simp, (showNat_spec _).1, by simp [Blank], .inl rfl, by simp [Blank], (showNat_spec _).2.1.symm⟩
  simp only [deserializeCurrency]
  rw [(C14_exact_partial m _ _ c.hastings_lt).1 h]
  simp only
  congr 1
  exact Currency.ext' (by rw [Currency.hastings, BitVec.toNat_ofNat, Nat.mod_eq_of_lt c.hastings_lt])

/-- The string is the decimal representation, without leading zeros. -/
theorem C15_text (c : Currency) : Digits (showCurrency c) ∧ decimal (showCurrency c) = c.hastings ∧
    ((showCurrency c).head? = some '0' → c.hastings = 0) := showNat_spec _

/-- Numbers are read as they are; negative ones are refused. -/
theorem C15_numbers (m : Mode) (x : U32) (y : U64) (z : U128) (c : Currency) :
    (deserializeCurrency m (.u32 x) = .ok c ↔ c.hastings = x.toNat) ∧
    (deserializeCurrency m (.u64 y) = .ok c ↔ c.hastings = y.toNat) ∧
    (deserializeCurrency m (.u128 z) = .ok c ↔ c.hastings = z.toNat) ∧
    (deserializeCurrency m (.i32 x) = .ok c ↔ (c.hastings : Int) = x.toInt) ∧
    (deserializeCurrency m (.i64 y) = .ok c ↔ (c.hastings : Int) = y.toInt) ∧
    (deserializeCurrency m (.i128 z) = .ok c ↔ (c.hastings : Int) = z.toInt) := by
  have unsigned : ∀ {n : Nat} (v : BitVec n), n ≤ 128 → ((Out.ok ⟨v.setWidth 128⟩ : Out TokenErr Currency) = .ok c ↔
      c.hastings = v.toNat) := by
    intro n v hn
    have hv : (v.setWidth 128).toNat = v.toNat := by
      rw [BitVec.toNat_setWidth]
      exact Nat.mod_eq_of_lt (Nat.lt_of_lt_of_le v.isLt (Nat.pow_le_pow_right (by decide) hn))
    constructor
    · intro h; cases h; exact hv
    · intro h
      congr 1
      exact Currency.ext' (hv.trans h.symm)
  have signed : ∀ {n : Nat} (v : BitVec n), n ≤ 128 → (castSigned v = .ok c ↔ (c.hastings : Int) = v.toInt) := by
    intro n v hn
    unfold castSigned
    by_cases hneg : v.toInt < 0
    · rw [if_pos hneg]
      exact ⟨fun h => (by cases h), fun h => by omega⟩
    · rw [if_neg hneg]
      have hv : ((v.signExtend 128).toNat : Int) = v.toInt := by
        have h1 : (v.signExtend 128).toInt = v.toInt := BitVec.toInt_signExtend_of_le hn
        have h2 := BitVec.toInt_eq_toNat_cond (v.signExtend 128)
        split at h2 <;> omega
      constructor
      · intro h; cases h; exact hv
      · intro h
        congr 1
        refine Currency.ext' ?_
        have : ((v.signExtend 128).toNat : Int) = (c.hastings : Int) := hv.trans h.symm
        exact_mod_cast this
  refine ⟨unsigned x (by decide), unsigned y (by decide), ?_, signed x (by decide), signed y (by decide), signed z (by decide)⟩
  constructor
  · intro h; cases h; rfl
  · intro h
    show Out.ok _ = _
    congr 1
    exact Currency.ext' h.symm

example : deserializeCurrency .checked (.i64 (-1)) = .err .negative ∧ deserializeCurrency .checked (.u64 7) = .ok ⟨7⟩ := by decide +kernel

/-! ## C46 -/

theorem decLoop_ok (s : List Char) : ∀ acc n : Nat, acc < 2 ^ 256 → (∀ c ∈ s, c ∈ digitChars) → (decLoop acc s = .ok n ↔
    n = acc * 10 ^ s.length + decimal s ∧ n < 2 ^ 256) := by
  induction s with
  | nil =>
    intro acc n h _
    rw [decLoop]
    simp only [decimal, List.length_nil, Nat.pow_zero, Nat.mul_one, Nat.add_zero]
    constructor
    · intro e; cases e; exact ⟨rfl, h⟩
    · rintro ⟨rfl, -⟩; rfl
  | cons c s ih =>
    intro acc n hacc hall
    have hd := hall c (by simp)
    rw [decLoop, ← digit_value hd]
    have hpow : 1 ≤ 10 ^ s.length := Nat.one_le_pow _ _ (by decide)
    have eq : acc * 10 ^ (c :: s).length + decimal (c :: s) = (10 * acc + digitChars.idxOf c) * 10 ^ s.length + decimal s := by
      rw [decimal, List.length_cons, Nat.pow_succ, Nat.add_mul, Nat.add_assoc]
      congr 1
      rw [Nat.mul_comm (10 ^ s.length) 10, ← Nat.mul_assoc, Nat.mul_comm acc 10]
    have hbig : ∀ x, 2 ^ 256 ≤ x → 2 ^ 256 ≤ x * 10 ^ s.length := fun x hx => Nat.le_trans hx (Nat.le_mul_of_pos_right _ hpow)
    by_cases h1 : 10 * acc < 2 ^ 256
    · rw [if_pos h1]
      by_cases h2 : 10 * acc + digitChars.idxOf c < 2 ^ 256
      · rw [if_pos h2, ih _ n h2 (fun d hd => hall d (by simp [hd])), eq]
      · rw [if_neg h2]
        constructor
        · intro h; cases h
        · rintro ⟨rfl, h⟩
          rw [eq] at h
          have := hbig _ (Nat.le_of_not_lt h2)
          omega
    · rw [if_neg h1]
      constructor
      · intro h; cases h
      · rintro ⟨rfl, h⟩
        rw [eq] at h
        have := hbig (10 * acc + digitChars.idxOf c) (by omega)
        omega

/-- What the work parser accepts: digits only, with a value below 2^256.  The empty string is accepted too, as zero. -/
theorem C46_text_accepts (s : List Char) (w : Work) :
    parseWork s = .ok w ↔ (∀ c ∈ s, c ∈ digitChars) ∧ w.val.toNat = decimal s := by
  unfold parseWork
  by_cases h : s.all isDigit = true
  · rw [if_pos h]
    have hall : ∀ c ∈ s, c ∈ digitChars := fun c hc => (isDigit_iff c).mp (List.all_eq_true.mp h c hc)
    have key := decLoop_ok s 0
    simp only [Nat.zero_mul, Nat.zero_add] at key
    constructor
    · intro hp
      cases hd : decLoop 0 s with
      | error e => rw [hd] at hp; cases hp
      | ok n =>
        rw [hd] at hp
        cases hp
        obtain ⟨h1, h2⟩ := (key n (by decide) hall).mp hd
        exact ⟨hall, by rw [BitVec.toNat_ofNat, Nat.mod_eq_of_lt h2, h1]⟩
    · rintro ⟨-, hw⟩
      rw [(key w.val.toNat (by decide) hall).mpr ⟨hw, w.val.isLt⟩]
      simp
  · rw [if_neg h]
    constructor
    · intro hp; cases hp
    · rintro ⟨hall, -⟩
      exact absurd (List.all_eq_true.mpr fun c hc => (isDigit_iff c).mpr (hall c hc)) h

/-- The two errors. -/
theorem C46_text_errors (s : List Char) :
    (parseWork s = .error .invalidCharacter ↔ ∃ c ∈ s, c ∉ digitChars) ∧
    (parseWork s = .error .invalidLength ↔ (∀ c ∈ s, c ∈ digitChars) ∧ 2 ^ 256 ≤ decimal s) := by
  have hno : ∀ s acc, decLoop acc s ≠ .error .invalidCharacter := by
    intro s
    induction s with
    | nil => intro acc h; rw [decLoop] at h; cases h
    | cons c s ih =>
      intro acc h
      rw [decLoop] at h
      split at h
      · split at h
        · exact ih _ h
        · cases h
      · cases h
  unfold parseWork
  by_cases h : s.all isDigit = true
  · rw [if_pos h]
    have hall : ∀ c ∈ s, c ∈ digitChars := fun c hc => (isDigit_iff c).mp (List.all_eq_true.mp h c hc)
    have key := decLoop_ok s 0
    simp only [Nat.zero_mul, Nat.zero_add] at key
    cases hd : decLoop 0 s with
    | error e =>
      have he : e = .invalidLength := by
        cases e with
        | invalidCharacter => exact absurd hd (hno s 0)
        | invalidLength => rfl
      subst he
      refine ⟨⟨fun h => (by cases h), fun ⟨c, hc, hn⟩ => absurd (hall c hc) hn⟩, fun _ => ⟨hall, ?_⟩, fun _ => rfl⟩
      apply Classical.byContradiction
      intro hlt
      rw [(key (decimal s) (by decide) hall).mpr ⟨rfl, by omega⟩] at hd
      cases hd
    | ok n =>
      obtain ⟨h1, h2⟩ := (key n (by decide) hall).mp hd
      exact ⟨⟨fun h => (by cases h), fun ⟨c, hc, hn⟩ => absurd (hall c hc) hn⟩, fun h => (by cases h), fun ⟨_, h3⟩ => by omega⟩
  · rw [if_neg h]
    have hex : ∃ c ∈ s, c ∉ digitChars := by
      apply Classical.byContradiction
      intro hn
      apply h
      rw [List.all_eq_true]
      intro c hc
      rw [isDigit_iff]
      apply Classical.byContradiction
      exact fun hc' => hn ⟨c, hc, hc'⟩
    refine ⟨⟨fun _ => hex, fun _ => rfl⟩, fun h => (by cases h), fun ⟨h1, _⟩ => ?_⟩
    obtain ⟨c, hc, hc'⟩ := hex
    exact absurd (h1 c hc) hc'

/-- Work values round-trip through decimal text. -/
theorem C46_text_round_trip (w : Work) : parseWork (showWork w) = .ok w :=
  (C46_text_accepts _ _).mpr ⟨(showNat_spec _).1.2, (showNat_spec _).2.1.symm⟩

example : parseWork "115792089237316195423570985008687907853269984665640564039457584007913129639935".toList = .ok ⟨-1⟩ ∧
    parseWork "115792089237316195423570985008687907853269984665640564039457584007913129639936".toList = .error .invalidLength ∧
    parseWork [] = .ok ⟨0⟩ := by decide +kernel

theorem leBytes_getElem? (n x i : Nat) (h : i < n) : (leBytes n x)[i]? = some (UInt8.ofNat (x / 256 ^ i)) := by
  induction n generalizing x i with
  | zero => omega
  | succ n ih =>
    rw [leBytes]
    cases i with
    | zero =>
      rw [List.getElem?_cons_zero, Nat.pow_zero, Nat.div_one]
      congr 1
      apply UInt8.toNat_inj.mp
      rw [UInt8.toNat_ofNat', UInt8.toNat_ofNat', Nat.mod_mod]
    | succ i =>
      rw [List.getElem?_cons_succ, ih _ i (by omega), Nat.div_div_eq_div_mul, Nat.pow_succ, Nat.mul_comm 256]

/-- Both binary encodings of a work value are its 32 bytes, the most significant first, and decoding gives the value back. -/
theorem C46_binary (v : Ver) (w : Work) :
    (enc v w).length = 32 ∧ (∀ i < 32, (enc v w)[i]? = some (UInt8.ofNat (w.val.toNat / 256 ^ (31 - i)))) ∧
    ∀ lim rest, (dec v : Dec Work) lim (enc v w ++ rest) = .ok (w, rest) := by
  refine ⟨by rw [enc_work]; simp, fun i hi => ?_, fun lim rest => roundTrips lim w rest trivial⟩
  rw [enc_work, beBytes, List.getElem?_reverse (by rw [leBytes_length]; exact hi), leBytes_length, leBytes_getElem? _ _ _ (by omega)]

example : enc .v1 (⟨0x0102⟩ : Work) = List.replicate 30 0 ++ [1, 2] := by decide +kernel

end Verif
