import Verif.Model.Conversion
import Verif.Spec.Arith
import Verif.Props.Codec
import Verif.Props.Currency

/-!
# C74: order, conversions and default values

Byte strings are compared as Rust compares slices: `<` on lists, byte by byte, a proper prefix first.
-/

namespace Verif

theorem beVal_cons (b : UInt8) (l : List UInt8) : beVal (b :: l) = b.toNat * 256 ^ l.length + beVal l := by
  have h : ∀ (m : List UInt8) (b : UInt8), leVal (m ++ [b]) = leVal m + b.toNat * 256 ^ m.length := by
    intro m b
    induction m with
    | nil => simp [leVal]
    | cons c m ih =>
      simp only [List.cons_append, leVal, ih, List.length_cons, Nat.pow_succ, Nat.mul_add, ← Nat.mul_assoc]
      rw [Nat.mul_comm 256 b.toNat, Nat.mul_assoc b.toNat, Nat.mul_assoc b.toNat, Nat.mul_comm 256 (256 ^ m.length)]
      omega
  simp only [beVal, List.reverse_cons, h, List.length_reverse]
  omega

/-- Byte strings of the same length are ordered as the big-endian numbers they are. -/
theorem lt_iff_beVal (l m : List UInt8) (h : l.length = m.length) : l < m ↔ beVal l < beVal m := by
  induction l generalizing m with
  | nil =>
    cases m with
    | nil => simp
    | cons => simp at h
  | cons a l ih =>
    cases m with
    | nil => simp at h
    | cons b m =>
      have hl : l.length = m.length := by simpa using h
      have h1 := beVal_lt l
      have h2 := beVal_lt m
      rw [List.cons_lt_cons_iff, beVal_cons, beVal_cons, ih m hl, UInt8.lt_iff_toNat_lt]
      rw [hl] at h1 ⊢
      have step : ∀ x y : Nat, x < y → x * 256 ^ m.length + 256 ^ m.length ≤ y * 256 ^ m.length := by
        intro x y hxy
        have := Nat.mul_le_mul_right (256 ^ m.length) hxy
        rwa [Nat.succ_mul] at this
      constructor
      · rintro (hlt | ⟨rfl, hlt⟩)
        · have := step _ _ hlt; omega
        · omega
      · intro hlt
        rcases Nat.lt_trichotomy a.toNat b.toNat with h3 | h3 | h3
        · exact .inl h3
        · refine .inr ⟨UInt8.toNat_inj.mp h3, ?_⟩
          rw [h3] at hlt; omega
        · have := step _ _ h3; omega

theorem beVal_stripZeros (l : List UInt8) : beVal (stripZeros l) = beVal l := by
  induction l with
  | nil => rfl
  | cons b l ih =>
    unfold stripZeros at ih ⊢
    rw [List.dropWhile_cons]
    split
    · rename_i hb
      have : b = 0 := by simpa using hb
      rw [ih, beVal_cons, this]
      simp
    · rfl

theorem stripZeros_ge (l : List UInt8) (h : stripZeros l ≠ []) : 256 ^ ((stripZeros l).length - 1) ≤ beVal (stripZeros l) := by
  induction l with
  | nil => exact absurd rfl h
  | cons b l ih =>
    unfold stripZeros at ih h ⊢
    rw [List.dropWhile_cons] at h ⊢
    split
    · rename_i hb
      rw [if_pos hb] at h
      exact ih h
    · rename_i hb
      have hb : b.toNat ≠ 0 := by
        intro h0
        apply hb
        have : b = 0 := UInt8.toNat_inj.mp h0
        simp [this]
      rw [beVal_cons]
      have := Nat.mul_le_mul_right (256 ^ l.length) (show 1 ≤ b.toNat by omega)
      simp only [List.length_cons, Nat.add_sub_cancel]
      omega

theorem cons_append_lt (p l m : List UInt8) : p ++ l < p ++ m ↔ l < m := by
  induction p with
  | nil => rfl
  | cons a p ih => simp [ih]

theorem enc_v1_lt {a b : Currency} (h : a.hastings < b.hastings) : enc .v1 a < enc .v1 b := by
  rw [enc_currency_v1, enc_currency_v1, enc_bytes, enc_bytes]
  have ha : beVal (stripZeros (beBytes 16 a.val.toNat)) = a.val.toNat := by
    rw [beVal_stripZeros, beVal_beBytes_of_lt (by have := a.val.isLt; omega)]
  have hb : beVal (stripZeros (beBytes 16 b.val.toNat)) = b.val.toNat := by
    rw [beVal_stripZeros, beVal_beBytes_of_lt (by have := b.val.isLt; omega)]
  have la : (stripZeros (beBytes 16 a.val.toNat)).length ≤ 16 := by simpa using stripZeros_length_le (beBytes 16 a.val.toNat)
  have lb : (stripZeros (beBytes 16 b.val.toNat)).length ≤ 16 := by simpa using stripZeros_length_le (beBytes 16 b.val.toNat)
  have ga := stripZeros_ge (beBytes 16 a.val.toNat)
  have ub := beVal_lt (stripZeros (beBytes 16 b.val.toNat))
  generalize stripZeros (beBytes 16 a.val.toNat) = x at *
  generalize stripZeros (beBytes 16 b.val.toNat) = y at *
  rcases Nat.lt_trichotomy x.length y.length with hl | hl | hl
  · rw [show x.length % 2 ^ 64 = x.length by omega, show y.length % 2 ^ 64 = y.length by omega]
    rw [show leBytes 8 x.length = UInt8.ofNat (x.length % 256) :: leBytes 7 (x.length / 256) from rfl,
      show leBytes 8 y.length = UInt8.ofNat (y.length % 256) :: leBytes 7 (y.length / 256) from rfl]
    simp only [List.cons_append, List.cons_lt_cons_iff]
    left
    rw [UInt8.lt_iff_toNat_lt, UInt8.toNat_ofNat', UInt8.toNat_ofNat']
    omega
  · rw [hl, cons_append_lt, lt_iff_beVal _ _ hl, ha, hb]
    exact h
  · exfalso
    have hx : x ≠ [] := by intro e; rw [e] at hl; simp at hl
    have g := ga hx
    have : 256 ^ y.length ≤ 256 ^ (x.length - 1) := Nat.pow_le_pow_right (by omega) (by omega)
    rw [ha] at g
    rw [hb] at ub
    have : b.hastings < a.hastings := by show b.val.toNat < a.val.toNat; omega
    omega

/-- C74.  Amounts are ordered as numbers of hastings; equal only to themselves; `checked_sub` fails exactly if the amount is the smaller
one. -/
theorem C74_order (a b : Currency) :
    (a.cmp b = .lt ↔ a.hastings < b.hastings) ∧ (a.cmp b = .eq ↔ a = b) ∧ (a.cmp b = .gt ↔ b.hastings < a.hastings) ∧
    (a.cmp b = .lt ↔ a.checkedSub b = none) := by
  have h1 : a.cmp b = .lt ↔ a.hastings < b.hastings := by simp [Currency.cmp, Nat.compare_eq_lt]
  refine ⟨h1, ?_, by simp [Currency.cmp, Nat.compare_eq_gt], ?_⟩
  · simp only [Currency.cmp, Nat.compare_eq_eq]
    constructor
    · intro h
      obtain ⟨x⟩ := a
      obtain ⟨y⟩ := b
      congr
      exact BitVec.eq_of_toNat_eq h
    · rintro rfl; rfl
  · rw [h1]
    unfold Currency.checkedSub Currency.hastings
    split <;> simp <;> omega

/-- C74.  The v1 encodings of amounts, compared as byte strings, are ordered as the amounts. -/
theorem C74_v1_sorts (a b : Currency) : enc .v1 a < enc .v1 b ↔ a.hastings < b.hastings := by
  refine ⟨fun h => ?_, enc_v1_lt⟩
  rcases Nat.lt_trichotomy a.hastings b.hastings with h1 | h1 | h1
  · exact h1
  · have : a = b := by
      obtain ⟨x⟩ := a
      obtain ⟨y⟩ := b
      congr
      exact BitVec.eq_of_toNat_eq h1
    subst this
    exact absurd h (List.lt_irrefl _)
  · exact absurd (List.lt_trans h (enc_v1_lt h1)) (List.lt_irrefl _)

/-- The v2 encodings are not. -/
theorem C74_v2_not_sorts : ¬ ∀ a b : Currency, enc .v2 a < enc .v2 b ↔ a.hastings < b.hastings := by
  intro h
  have := (h ⟨256⟩ ⟨1⟩).1 (by decide +kernel)
  revert this
  decide

/-- C74.  An amount converts to `u64` exactly if it is below 2^64, and then keeps its value. -/
theorem C74_to_u64 (c : Currency) (n : U64) : (c.toU64? = some n ↔ n.toNat = c.hastings) ∧ (c.toU64? = none ↔ 2 ^ 64 ≤ c.hastings) := by
  unfold Currency.toU64? Currency.hastings
  have := n.isLt
  split
  · rename_i h
    refine ⟨⟨fun e => ?_, fun e => ?_⟩, by simp; omega⟩
    · cases e; simp; omega
    · congr 1; apply BitVec.eq_of_toNat_eq; simp; omega
  · refine ⟨⟨nofun, fun e => ?_⟩, by simp; omega⟩
    omega

/-- C74.  Adding in place is adding. -/
theorem C74_add_assign (m : Mode) (a b : Currency) : Currency.addAssign m a b.val = Currency.add m a b := rfl

/-- C74.  A work made from 32 bytes is encoded as these bytes, and every work is made from its encoding. -/
theorem C74_work (v : Ver) (b : Arr 32) (w : Work) : Work.ofBytes b = w ↔ enc v w = b.1 := by
  rw [enc_work]
  have hlt := beVal_lt b.1
  rw [b.2] at hlt
  constructor
  · rintro rfl
    have h3 := beBytes_beVal b.1
    rw [b.2] at h3
    have : (BitVec.ofNat 256 (beVal b.1)).toNat = beVal b.1 := by simp; omega
    rw [Work.ofBytes, this, h3]
  · intro h
    obtain ⟨x⟩ := w
    rw [Work.ofBytes]
    congr
    rw [← h, beVal_beBytes_of_lt (by have := x.isLt; omega)]
    simp

/-- C74.  Works are ordered as their encodings: so are block identifiers and targets read as work. -/
theorem C74_work_sorts (a b : Arr 32) : ((Work.ofBytes a).cmp (Work.ofBytes b) = .lt ↔ a.1 < b.1) ∧ ((Work.ofBytes a).cmp (Work.ofBytes b) = .eq ↔ a = b) := by
  have ha := beVal_lt a.1
  have hb := beVal_lt b.1
  rw [a.2] at ha
  rw [b.2] at hb
  have ea : (Work.ofBytes a).val.toNat = beVal a.1 := by simp [Work.ofBytes]; omega
  have eb : (Work.ofBytes b).val.toNat = beVal b.1 := by simp [Work.ofBytes]; omega
  rw [Work.cmp, ea, eb, Nat.compare_eq_lt, Nat.compare_eq_eq, lt_iff_beVal _ _ (a.2.trans b.2.symm)]
  refine ⟨Iff.rfl, fun h => ?_, fun h => by rw [h]⟩
  have h1 := beBytes_beVal a.1
  have h2 := beBytes_beVal b.1
  rw [a.2, h] at h1
  rw [b.2] at h2
  exact Subtype.ext (h1.symm.trans h2)

/-- C74.  What default values are encoded as. -/
theorem C74_defaults (v : Ver) (n : Nat) :
    enc v (Arr.default n) = List.replicate n 0 ∧
    enc v ElementAccumulator.default = List.replicate 8 0 ∧
    enc .v1 Currency.default = List.replicate 8 0 ∧ enc .v2 Currency.default = List.replicate 16 0 ∧
    enc .v1 V1.CoveredFields.default = List.replicate 81 0 ∧
    enc .v1 V1.Transaction.default = List.replicate 80 0 := by
  refine ⟨rfl, ?_, by decide +kernel, by decide +kernel, by decide +kernel, by decide +kernel⟩
  cases v <;> decide +kernel

theorem wipeFrom_eq (i : Nat) (l : List UInt8) (h : i ≤ l.length) : wipeFrom i l = l.take i ++ List.replicate (l.length - i) 0 := by
  induction hk : l.length - i generalizing i l with
  | zero =>
    rw [wipeFrom, if_neg (by omega)]
    have : i = l.length := by omega
    simp [this]
  | succ k ih =>
    rw [wipeFrom, if_pos (by omega), ih (i + 1) (l.set i 0) (by simp; omega) (by simp; omega)]
    have hi : i < l.length := by omega
    rw [List.take_add_one, List.getElem?_set_self hi, List.take_set_of_le (Nat.le_refl i)]
    simp [List.replicate_succ]

/-- C74.  A private key or seed that is dropped leaves only zeros behind, whatever it was. -/
theorem C74_wiped (l : List UInt8) : wipe l = List.replicate l.length 0 := by
  rw [wipe, wipeFrom_eq 0 l (Nat.zero_le _)]
  simp

example : wipe [1, 2, 3] = [0, 0, 0] := by rw [C74_wiped]; rfl
example : Currency.cmp ⟨5⟩ ⟨6⟩ = .lt := by decide
example : (Currency.mk 7).toU64? = some 7 := by decide
example : (Currency.mk (2 ^ 64)).toU64? = none := by decide +kernel
example : ∃ a b : Arr 32, a.1 < b.1 := ⟨Arr.default 32, ⟨List.replicate 32 1, by simp⟩, by decide +kernel⟩

end Verif
