import Mathlib.Algebra.Field.ZMod
import Mathlib.FieldTheory.Finite.Basic
import Verif.Lemmas.Edwards
import Verif.Lemmas.Prime
import Verif.Spec.Bytes

/-!
# The group of the curve, and RFC 8032 in terms of it

The points of `y² - x² = 1 + d x² y²` over the integers modulo `2 ^ 255 - 19` with the addition of twisted Edwards curves.  That they are a commutative
group is part of the definition here.
-/

namespace Verif.Spec

open Ed25519 (p)

instance : Fact p.Prime := ⟨Ed25519.Prime.p_prime⟩

/-- The field. -/
abbrev F : Type := ZMod p

/-- The constant of the curve: -121665 / 121666. -/
def Curve.d : F := -121665 / 121666

/-- A point of the curve. -/
@[ext] structure Point where
  x : F
  y : F
  on : y ^ 2 - x ^ 2 = 1 + Curve.d * x ^ 2 * y ^ 2

namespace Curve

open Ed25519.Prime in
/-- A power modulo `p`, computed. -/
theorem pow_val (a e : Nat) (h : e < 2 ^ 255) : (a : F) ^ e = (powMod p 255 a e : Nat) := by
  rw [powMod_eq _ _ _ _ h, ZMod.natCast_mod, Nat.cast_pow]

theorem cast_inj {a b : Nat} (ha : a < p) (hb : b < p) (h : (a : F) = b) : a = b := by
  rwa [ZMod.natCast_eq_natCast_iff', Nat.mod_eq_of_lt ha, Nat.mod_eq_of_lt hb] at h

theorem cast_ne {a b : Nat} (ha : a < p) (hb : b < p) (h : a ≠ b) : (a : F) ≠ b := fun e => h (cast_inj ha hb e)

theorem cast_eq {a b : Nat} (h : a % p = b % p) : (a : F) = b := by rwa [ZMod.natCast_eq_natCast_iff']

theorem two_ne : (2 : F) ≠ 0 := by
  have := cast_ne (a := 2) (b := 0) (by decide +kernel) (by decide +kernel) (by decide)
  simpa using this

/-- The constant as the number of the RFC. -/
theorem d_eq : d = (Ed25519.d : Nat) := by
  have h : (121666 : F) ≠ 0 := by
    have := cast_ne (a := 121666) (b := 0) (by decide +kernel) (by decide +kernel) (by decide)
    simpa using this
  rw [d, div_eq_iff h]
  have : ((Ed25519.d * 121666 + 121665 : Nat) : F) = (0 : Nat) := cast_eq (by decide +kernel)
  push_cast at this
  linear_combination -this

/-- A square root of -1. -/
theorem i_sq : ((Ed25519.i : Nat) : F) ^ 2 = -1 := by
  have : ((Ed25519.i ^ 2 + 1 : Nat) : F) = (0 : Nat) := cast_eq (by decide +kernel)
  push_cast at this
  linear_combination this

theorem d_ne_zero : d ≠ 0 := by
  rw [d_eq]
  have := cast_ne (a := Ed25519.d) (b := 0) (by decide +kernel) (by decide +kernel) (by decide +kernel)
  simpa using this

/-- The constant is not a square. -/
theorem d_nonsquare (s : F) : s ^ 2 ≠ d := by
  intro h
  have hs : s ≠ 0 := by rintro rfl; exact d_ne_zero (by rw [← h]; norm_num)
  have h1 : d ^ ((p - 1) / 2) = 1 := by
    rw [← h, ← pow_mul, show 2 * ((p - 1) / 2) = p - 1 by decide +kernel]
    exact ZMod.pow_card_sub_one_eq_one hs
  rw [d_eq, pow_val _ _ (by decide +kernel), show (1 : F) = (1 : Nat) by simp] at h1
  exact cast_ne (by decide +kernel) (by decide +kernel) (by decide +kernel) h1

theorem denom (P Q : Point) : (d * P.x * Q.x * P.y * Q.y) ^ 2 ≠ 1 := Edwards.denom i_sq two_ne d_nonsquare P.on Q.on

end Curve

namespace Point

open Curve (d)

/-- Addition. -/
instance : Add Point where
  add P Q :=
    { x := (P.x * Q.y + P.y * Q.x) / (1 + d * P.x * Q.x * P.y * Q.y)
      y := (P.y * Q.y + P.x * Q.x) / (1 - d * P.x * Q.x * P.y * Q.y)
      on := Edwards.on_sum P.on Q.on (Curve.denom P Q) }

/-- The neutral element. -/
instance : Zero Point := ⟨⟨0, 1, by norm_num⟩⟩

/-- The negative. -/
instance : Neg Point := ⟨fun P => ⟨-P.x, P.y, by rw [neg_sq]; exact P.on⟩⟩

@[simp] theorem zero_x : (0 : Point).x = 0 := rfl
@[simp] theorem zero_y : (0 : Point).y = 1 := rfl
@[simp] theorem neg_x (P : Point) : (-P).x = -P.x := rfl
@[simp] theorem neg_y (P : Point) : (-P).y = P.y := rfl
theorem add_x (P Q : Point) : (P + Q).x = (P.x * Q.y + P.y * Q.x) / (1 + d * P.x * Q.x * P.y * Q.y) := rfl
theorem add_y (P Q : Point) : (P + Q).y = (P.y * Q.y + P.x * Q.x) / (1 - d * P.x * Q.x * P.y * Q.y) := rfl

instance : AddCommGroup Point where
  add_assoc P Q R := by
    ext
    · exact Edwards.sumX_assoc P.on Q.on R.on (Curve.denom P Q) (Curve.denom Q R) (Curve.denom (P + Q) R) (Curve.denom P (Q + R))
    · exact Edwards.sumY_assoc P.on Q.on R.on (Curve.denom P Q) (Curve.denom Q R) (Curve.denom (P + Q) R) (Curve.denom P (Q + R))
  zero_add P := by ext <;> simp [add_x, add_y]
  add_zero P := by ext <;> simp [add_x, add_y]
  add_comm P Q := by
    ext
    · rw [add_x, add_x]; congr 1 <;> ring
    · rw [add_y, add_y]; congr 1 <;> ring
  neg_add_cancel P := by
    ext
    · rw [add_x]; simp; left; ring
    · rw [add_y, neg_x, neg_y, zero_y, div_eq_one_iff_eq]
      · linear_combination P.on
      · exact Edwards.denom_sub (Curve.denom (-P) P)
  nsmul := nsmulRec
  zsmul := zsmulRec

end Point

/-- The base point: `y = 4 / 5`, and `x` is even. -/
def basePoint : Point where
  x := (15112221349535400772501151409588531511454012693041857206046113283949847762202 : Nat)
  y := (46316835694926478169428394003475163141307993866256225615783033603165251855960 : Nat)
  on := by
    rw [Curve.d_eq]
    generalize hx : 15112221349535400772501151409588531511454012693041857206046113283949847762202 = x
    generalize hy : 46316835694926478169428394003475163141307993866256225615783033603165251855960 = y
    have : ((y ^ 2 : Nat) : F) = (1 + Ed25519.d * x ^ 2 * y ^ 2 + x ^ 2 : Nat) := by
      subst hx hy
      exact Curve.cast_eq (by decide +kernel)
    push_cast at this
    linear_combination this

/-- The 32 bytes of a point (RFC 8032 section 5.1.2): the little-endian number of `y` with the lowest bit of `x` as the highest. -/
def Encoded (P : Point) (bs : List UInt8) : Prop := bs.length = 32 ∧ leNat bs = P.y.val + P.x.val % 2 * 2 ^ 255

/-- Bytes that `VerifyingKey::from_bytes` takes for a point: `y` need not be below `p`, and the highest bit does not matter if `x` is zero. -/
def Decoded (bs : List UInt8) (P : Point) : Prop :=
  bs.length = 32 ∧ P.y = (leNat bs % 2 ^ 255 : Nat) ∧ (P.x = 0 ∨ P.x.val % 2 = leNat bs / 2 ^ 255)

end Verif.Spec
