import Verif.Props.Samples
import Verif.Lemmas.Arith
import Verif.Lemmas.Bytes

/-!
# C11, C12, C13, C16: amounts
-/

namespace Verif

open Sample (lim)

/-! ## C11 v1 encoding -/

/-- C11: the v1 encoding of an amount is its length and its big-endian digits in base 256 without leading zeros. -/
theorem C11_v1_encoding_minimal (c : Currency) : ∃ digits : List UInt8, digits.length ≤ 16 ∧
    enc .v1 c = le64 digits.length ++ digits ∧ beNat digits = c.hastings ∧ digits.head? ≠ some 0 := by
  refine ⟨stripZeros (beBytes 16 c.val.toNat), ?_, ?_, ?_, ?_⟩
  · simpa using stripZeros_length_le (beBytes 16 c.val.toNat)
  · rw [enc_currency_v1, enc_bytes, le64_eq, Nat.mod_eq_of_lt]
    have := stripZeros_length_le (beBytes 16 c.val.toNat)
    rw [beBytes_length] at this
    omega
  · have h := dropWhile_replicate_append (beBytes 16 c.val.toNat)
    have h2 := beNat_zeros ((beBytes 16 c.val.toNat).length - (stripZeros (beBytes 16 c.val.toNat)).length)
      (stripZeros (beBytes 16 c.val.toNat))
    rw [h] at h2
    rw [← h2, beNat_eq, beVal_beBytes_of_lt (by have := c.val.isLt; omega)]
  · intro h
    unfold stripZeros at h
    have := List.head?_dropWhile_not (fun x : UInt8 => x == 0) (beBytes 16 c.val.toNat)
    rw [h] at this
    simp at this

/-- C11: no shorter digit string denotes the same amount, so the encoding is the unique minimal one. -/
theorem C11_v1_encoding_unique (c : Currency) (digits : List UInt8) (h1 : beNat digits = c.hastings)
    (h2 : digits.head? ≠ some 0) : enc .v1 c = le64 digits.length ++ digits := by
  obtain ⟨ds, h3, h4, h5, h6⟩ := C11_v1_encoding_minimal c
  have lower : ∀ (l : List UInt8), l.head? ≠ some 0 → l ≠ [] → 256 ^ (l.length - 1) ≤ beNat l := by
    intro l hl hne
    cases l with
    | nil => exact absurd rfl hne
    | cons b l =>
      rw [beNat_cons, List.length_cons, Nat.add_sub_cancel]
      have : 1 ≤ b.toNat := by
        rcases Nat.eq_zero_or_pos b.toNat with h | h
        · exact absurd (show b = 0 from UInt8.toNat_inj.mp h) (by simpa using hl)
        · exact h
      exact Nat.le_trans (Nat.le_mul_of_pos_left _ this) (Nat.le_add_right _ _)
  have upper : ∀ l : List UInt8, beNat l < 256 ^ l.length := fun l => by rw [beNat_eq]; exact beVal_lt l
  have hlen : ∀ x y : List UInt8, x.head? ≠ some 0 → beNat x = beNat y → x.length ≤ y.length := by
    intro x y hx hxy
    rcases List.eq_nil_or_concat x with rfl | ⟨_, _, rfl⟩
    · simp
    · rename_i a b
      have := lower _ hx (by simp)
      have h := Nat.lt_of_le_of_lt this (hxy ▸ upper y)
      have := (Nat.pow_lt_pow_iff_right (by decide : 1 < 256)).mp h
      omega
  have hl : digits.length = ds.length := Nat.le_antisymm (hlen _ _ h2 (h1.trans h5.symm)) (hlen _ _ h6 (h5.trans h1.symm))
  have he : digits = ds := by
    rw [← beBytes_beVal digits, ← beBytes_beVal ds, ← beNat_eq, ← beNat_eq, h1, h5, hl]
  rw [he, h4]

/-- C11: the decoder returns the number denoted by up to sixteen digits, leading zeros allowed. -/
theorem C11_v1_decoding (lim : Lim) (digits rest : List UInt8) (h : digits.length ≤ 16) :
    ∃ c, (dec .v1 : Dec Currency) lim (le64 digits.length ++ digits ++ rest) = .ok (c, rest) ∧
      c.hastings = beNat digits := by
  refine ⟨⟨BitVec.ofNat 128 (beNat digits)⟩, ?_, ?_⟩
  · have hnat : (BitVec.ofNat 64 digits.length : U64).toNat = digits.length := by simp; omega
    have hr := Lawful.reads (v := .v1) lim (BitVec.ofNat 64 digits.length : U64) trivial
    rw [enc_u64, hnat, ← le64_eq] at hr
    rw [dec_currency_v1, List.append_assoc, Dec.bind_ok (hr.rt _), if_neg (by omega)]
    rw [Dec.bind_ok ((Dec.Reads.readExact (lim := lim) (n := (BitVec.ofNat 64 digits.length : U64).toNat)
      ⟨digits, hnat.symm⟩).rt rest)]
    simp only [Dec.pure_apply]
    rw [← beNat_eq, beNat_zeros]
  · have hlt : beNat digits < 256 ^ digits.length := by rw [beNat_eq]; exact beVal_lt digits
    have : 256 ^ digits.length ≤ 256 ^ 16 := Nat.pow_le_pow_right (by decide) h
    simp only [Currency.hastings, BitVec.toNat_ofNat]
    exact Nat.mod_eq_of_lt (by omega)

/-- C11: a longer length is rejected whatever follows. -/
theorem C11_v1_decoding_rejects (lim : Lim) (n : Nat) (rest : List UInt8) (h1 : 16 < n) (h2 : n < 2 ^ 64) :
    (dec .v1 : Dec Currency) lim (le64 n ++ rest) = .err .invalidLength := by
  have hnat : (BitVec.ofNat 64 n : U64).toNat = n := by simp; omega
  have hr := Lawful.reads (v := .v1) lim (BitVec.ofNat 64 n : U64) trivial
  rw [enc_u64, hnat, ← le64_eq] at hr
  rw [dec_currency_v1, Dec.bind_ok (hr.rt _), if_pos (by omega)]
  rfl

/-- C11: the v2 encoding of an amount is its sixteen little-endian bytes. -/
theorem C11_v2_encoding (c : Currency) : enc .v2 c = le128 c.hastings := by
  rw [enc_currency_v2, le128_eq]

example : beNat [1, 0] = (⟨256⟩ : Currency).hastings ∧ ([1, 0] : List UInt8).head? ≠ some 0 := by decide +kernel
example : enc .v1 (⟨256⟩ : Currency) = [2, 0, 0, 0, 0, 0, 0, 0, 1, 0] := by decide +kernel
example : enc .v1 (⟨0⟩ : Currency) = [0, 0, 0, 0, 0, 0, 0, 0] := by decide +kernel
example : ([0, 0, 7] : List UInt8).length ≤ 16 := by decide

/-! ## C12 checked arithmetic -/

/-- C12: `checked_add` returns an amount iff it is the sum. -/
theorem C12_checked_add (a b c : Currency) : a.checkedAdd b = some c ↔ a.hastings + b.hastings = c.hastings := by
  unfold Currency.checkedAdd
  constructor
  · intro h
    split at h
    · simp only [Option.some.injEq] at h
      rw [← h]
      simp only [Currency.hastings, BitVec.toNat_add]
      omega
    · simp at h
  · intro h
    have := c.hastings_lt
    rw [if_pos (by simp only [Currency.hastings] at *; omega)]
    congr 1
    apply Currency.ext'
    simp only [Currency.hastings, BitVec.toNat_add] at *
    omega

/-- C12: `checked_sub` returns an amount iff it is the difference. -/
theorem C12_checked_sub (a b c : Currency) : a.checkedSub b = some c ↔ b.hastings + c.hastings = a.hastings := by
  unfold Currency.checkedSub
  have ha := a.hastings_lt
  have hb := b.hastings_lt
  constructor
  · intro h
    split at h
    · simp only [Option.some.injEq] at h
      rw [← h]
      simp only [Currency.hastings, BitVec.toNat_sub] at *
      omega
    · simp at h
  · intro h
    rw [if_pos (by simp only [Currency.hastings] at *; omega)]
    congr 1
    apply Currency.ext'
    simp only [Currency.hastings, BitVec.toNat_sub] at *
    omega

/-- C12: `checked_mul` returns an amount iff it is the product. -/
theorem C12_checked_mul (a b c : Currency) : a.checkedMul b = some c ↔ a.hastings * b.hastings = c.hastings := by
  unfold Currency.checkedMul
  constructor
  · intro h
    split at h
    · rename_i hc
      simp only [Option.some.injEq] at h
      rw [← h]
      simp only [Currency.hastings, BitVec.toNat_mul]
      exact (Nat.mod_eq_of_lt hc).symm
    · simp at h
  · intro h
    have := c.hastings_lt
    have hc : a.val.toNat * b.val.toNat < 2 ^ 128 := by simp only [Currency.hastings] at *; omega
    rw [if_pos hc]
    congr 1
    apply Currency.ext'
    simp only [Currency.hastings, BitVec.toNat_mul] at *
    rw [Nat.mod_eq_of_lt hc, h]

/-- C12: `checked_div` returns an amount iff it is the integer quotient, and none iff the divisor is zero. -/
theorem C12_checked_div (a b c : Currency) : a.checkedDiv b = some c ↔
    b.hastings * c.hastings ≤ a.hastings ∧ a.hastings < b.hastings * (c.hastings + 1) := by
  unfold Currency.checkedDiv
  have hb0 : b.val = 0 ↔ b.hastings = 0 := by
    rw [← BitVec.toNat_inj]; rfl
  have hdiv : (⟨a.val / b.val⟩ : Currency).hastings = a.hastings / b.hastings := by
    simp [Currency.hastings, BitVec.toNat_udiv]
  by_cases hb : b.hastings = 0
  · rw [if_pos (hb0.mpr hb)]
    simp [hb]
  · rw [if_neg (fun h => hb (hb0.mp h))]
    have hpos : 0 < b.hastings := Nat.pos_of_ne_zero hb
    constructor
    · intro h
      simp only [Option.some.injEq] at h
      rw [← h, hdiv]
      exact ⟨Nat.mul_div_le _ _, Nat.lt_mul_div_succ _ hpos⟩
    · rintro ⟨h1, h2⟩
      congr 1
      apply Currency.ext'
      rw [hdiv]
      apply Nat.le_antisymm
      · have : a.hastings / b.hastings < c.hastings + 1 := by
          rw [Nat.div_lt_iff_lt_mul hpos, Nat.mul_comm]; exact h2
        omega
      · rw [Nat.le_div_iff_mul_le hpos, Nat.mul_comm]; exact h1

/-- C12: and `None` only when there is no such amount. -/
theorem C12_checked_none (a b : Currency) :
    (a.checkedAdd b = none ↔ 2 ^ 128 ≤ a.hastings + b.hastings) ∧
    (a.checkedSub b = none ↔ a.hastings < b.hastings) ∧
    (a.checkedMul b = none ↔ 2 ^ 128 ≤ a.hastings * b.hastings) ∧
    (a.checkedDiv b = none ↔ b.hastings = 0) := by
  have hb0 : b.val = 0 ↔ b.hastings = 0 := by
    rw [← BitVec.toNat_inj]; rfl
  unfold Currency.checkedAdd Currency.checkedSub Currency.checkedMul Currency.checkedDiv
  refine ⟨?_, ?_, ?_, ?_⟩
  · simp only [Currency.hastings]; split <;> simp <;> omega
  · simp only [Currency.hastings]; split <;> simp <;> omega
  · simp only [Currency.hastings]; split <;> simp <;> omega
  · rw [← hb0]; split <;> simp_all

example : ∃ a b c : Currency, a.hastings + b.hastings = c.hastings ∧ c.hastings = 2 ^ 128 - 1 :=
  ⟨⟨2 ^ 127⟩, ⟨2 ^ 127 - 1⟩, ⟨2 ^ 128 - 1⟩, by decide +kernel, by decide +kernel⟩

/-! ## C13 operators -/

/-- C13: `+`. -/
theorem C13_add (m : Mode) (a b : Currency) : Exactly m (a.hastings + b.hastings) (a.add m b) := exactly_add m a b

/-- C13: `-`. -/
theorem C13_sub (m : Mode) (a b : Currency) : Exactly m ((a.hastings : Int) - b.hastings) (a.sub m b) := exactly_sub m a b

/-- C13: `*`. -/
theorem C13_mul (m : Mode) (a b : Currency) : Exactly m ((a.hastings : Int) * b.hastings) (a.mul m b) := exactly_mul m a b

/-- C13: `/` and `%` give quotient and remainder and panic exactly on a zero divisor. -/
theorem C13_div_rem (a b : Currency) :
    (b.hastings = 0 → a.div b = .panic ∧ a.rem b = .panic) ∧
    (b.hastings ≠ 0 → ∃ q r, a.div b = .ok q ∧ a.rem b = .ok r ∧
      b.hastings * q.hastings + r.hastings = a.hastings ∧ r.hastings < b.hastings) := by
  have hb0 : b.val = 0 ↔ b.hastings = 0 := by
    rw [← BitVec.toNat_inj]; rfl
  unfold Currency.div Currency.rem divU remU
  constructor
  · intro h
    rw [if_pos (hb0.mpr h), if_pos (hb0.mpr h)]
    exact ⟨rfl, rfl⟩
  · intro h
    rw [if_neg (fun hc => h (hb0.mp hc)), if_neg (fun hc => h (hb0.mp hc))]
    refine ⟨⟨a.val / b.val⟩, ⟨a.val % b.val⟩, rfl, rfl, ?_, ?_⟩
    · simp only [Currency.hastings, BitVec.toNat_udiv, BitVec.toNat_umod]
      exact Nat.div_add_mod _ _
    · simp only [Currency.hastings, BitVec.toNat_umod]
      exact Nat.mod_lt _ (Nat.pos_of_ne_zero h)

/-- C13: `iter().sum()`. -/
theorem C13_sum (m : Mode) (l : List Currency) :
    Exactly m ((l.map Currency.hastings).sum : Nat) (Currency.sum m l) := by
  have := exactly_sumFrom m l ⟨0⟩
  simpa [Currency.hastings, Currency.sum] using this

/-- C13: the order of the summands does not matter. -/
theorem C13_sum_perm (m : Mode) (l l' : List Currency) (h : l.Perm l') : Currency.sum m l = Currency.sum m l' := by
  have h1 := C13_sum m l
  have h2 := C13_sum m l'
  rw [(h.map _).sum_nat] at h1
  generalize ((((l'.map Currency.hastings).sum : Nat) : Int)) = x at *
  by_cases hx : 0 ≤ x ∧ x < 2 ^ 128
  · obtain ⟨c, e1, e2⟩ := h1.inRange hx
    obtain ⟨d, e3, e4⟩ := h2.inRange hx
    rw [e1, e3, Currency.ext' (a := c) (b := d) (by omega)]
  · cases m with
    | checked => rw [h1.panics hx rfl, h2.panics hx rfl]
    | unchecked =>
      obtain ⟨c, e1, e2⟩ := h1.wraps hx rfl
      obtain ⟨d, e3, e4⟩ := h2.wraps hx rfl
      rw [e1, e3, Currency.ext' (a := c) (b := d) (by omega)]

example : Currency.sum .checked [⟨1⟩, ⟨2⟩, ⟨3⟩] = .ok ⟨6⟩ := by decide +kernel
example : Currency.sum .checked [⟨2 ^ 127⟩, ⟨2 ^ 127⟩] = .panic := by decide +kernel
example : ∃ b : Currency, b.hastings ≠ 0 := ⟨⟨25⟩, by decide +kernel⟩

/-! ## C16 whole siacoins -/

/-- C16: `siacoins n` is `n * 10^24` hastings or overflows. -/
theorem C16_siacoins (m : Mode) (n : U64) : Exactly m (n.toNat * 10 ^ 24) (Currency.siacoins m n) := exactly_siacoins m n

/-- C16: the largest argument that does not overflow. -/
theorem C16_siacoins_range (n : U64) :
    Currency.siacoins .checked n ≠ .panic ↔ n.toNat ≤ 340282366920938 := by
  have h := exactly_siacoins .checked n
  constructor
  · intro hp
    by_cases hr : n.toNat ≤ 340282366920938
    · exact hr
    · exact absurd (h.panics (by omega) rfl) hp
  · intro hr hp
    obtain ⟨c, h1, _⟩ := h.inRange (by omega)
    rw [h1] at hp
    simp at hp

example : Currency.siacoins .checked 300000 = .ok ⟨300000000000000000000000000000⟩ := by decide +kernel
example : Currency.siacoins .checked 340282366920939 = .panic := by decide +kernel

end Verif
