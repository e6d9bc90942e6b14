import Verif.Lemmas.Bytes
import Verif.Spec.Curve

/-!
# The arithmetic of the model is that of the curve
-/

namespace Verif.Ed25519

open Spec

theorem p_pos : 0 < p := by decide +kernel

theorem force_eq {α : Type} (n : Nat) (k : Nat → α) : Blake2b.force n k = k n := by cases n <;> rfl

/-! ## The field -/

theorem add_lt (a b : Nat) : add a b < p := Nat.mod_lt _ p_pos
theorem sub_lt (a b : Nat) : sub a b < p := Nat.mod_lt _ p_pos
theorem mul_lt (a b : Nat) : mul a b < p := Nat.mod_lt _ p_pos

theorem cast_add (a b : Nat) : ((add a b : Nat) : F) = a + b := by rw [add, ZMod.natCast_mod, Nat.cast_add]
theorem cast_mul (a b : Nat) : ((mul a b : Nat) : F) = a * b := by rw [mul, ZMod.natCast_mod, Nat.cast_mul]
theorem cast_sub (a : Nat) {b : Nat} (h : b < p) : ((sub a b : Nat) : F) = a - b := by
  rw [sub, ZMod.natCast_mod, Nat.cast_add, Nat.cast_sub h.le, ZMod.natCast_self]
  ring

theorem pow_cast (n b e : Nat) (h : e < 2 ^ n) : ((pow n b e : Nat) : F) = (b : F) ^ e := by
  induction n generalizing e with
  | zero =>
    have : e = 0 := by simpa using h
    subst this; simp [pow]
  | succ n ih =>
    have h2 : e / 2 < 2 ^ n := by rw [_root_.pow_succ] at h; omega
    rw [pow, force_eq]
    rcases Nat.mod_two_eq_zero_or_one e with h0 | h1
    · rw [if_neg (by omega), cast_mul, ih _ h2, ← _root_.pow_add, show e / 2 + e / 2 = e by omega]
    · rw [if_pos h1, cast_mul, cast_mul, ih _ h2, ← _root_.pow_add, ← _root_.pow_succ, show e / 2 + e / 2 + 1 = e by omega]

theorem inv_cast (a : Nat) : ((inv a : Nat) : F) = (a : F)⁻¹ := by
  rw [inv, pow_cast _ _ _ (by decide +kernel)]
  by_cases h : (a : F) = 0
  · rw [h, inv_zero, zero_pow (by decide +kernel)]
  · apply eq_inv_of_mul_eq_one_left
    rw [← _root_.pow_succ, show p - 2 + 1 = p - 1 by decide +kernel]
    exact ZMod.pow_card_sub_one_eq_one h

theorem val_cast {a : Nat} (h : a < p) : ((a : Nat) : F).val = a := ZMod.val_cast_of_lt h

theorem eq_val {a : Nat} {x : F} (h : a < p) (e : (a : F) = x) : a = x.val := by rw [← e, val_cast h]

theorem val_lt (x : F) : x.val < p := ZMod.val_lt x

/-- The lowest bit of a number and of its negative differ. -/
theorem parity_neg {x : F} (h : x ≠ 0) : (-x).val % 2 = 1 - x.val % 2 := by
  rw [ZMod.neg_val, if_neg h]
  have h1 := val_lt x
  have h2 : p % 2 = 1 := by decide +kernel
  omega

theorem zero_of_parity {x : F} (h : (-x).val % 2 = x.val % 2) : x = 0 := by
  by_contra h0
  have := parity_neg h0
  have := Nat.mod_two_eq_zero_or_one x.val
  omega

/-! ## Points -/

/-- The coordinates are those of a point. -/
structure Rep (P : Pt) (A : Point) : Prop where
  ltX : P.X < p
  ltY : P.Y < p
  ltZ : P.Z < p
  ltT : P.T < p
  z : (P.Z : F) ≠ 0
  x : (P.X : F) = A.x * P.Z
  y : (P.Y : F) = A.y * P.Z
  t : (P.T : F) = A.x * A.y * P.Z

theorem rep_zero : Rep .zero 0 where
  ltX := by decide +kernel
  ltY := by decide +kernel
  ltZ := by decide +kernel
  ltT := by decide +kernel
  z := by simp [Pt.zero]
  x := by simp [Pt.zero]
  y := by simp [Pt.zero]
  t := by simp [Pt.zero]

theorem rep_base : Rep .base basePoint where
  ltX := by decide +kernel
  ltY := by decide +kernel
  ltZ := by decide +kernel
  ltT := by decide +kernel
  z := by simp [Pt.base]
  x := by simp [Pt.base, basePoint]
  y := by simp [Pt.base, basePoint]
  t := by simp [Pt.base, basePoint, cast_mul]

theorem rep_neg {P : Pt} {A : Point} (h : Rep P A) : Rep P.neg (-A) where
  ltX := sub_lt _ _
  ltY := h.ltY
  ltZ := h.ltZ
  ltT := sub_lt _ _
  z := h.z
  x := by rw [Pt.neg, cast_sub _ h.ltX, h.x, Point.neg_x]; simp
  y := h.y
  t := by rw [Pt.neg, cast_sub _ h.ltT, h.t, Point.neg_x, Point.neg_y]; simp

theorem rep_add {P Q : Pt} {A B : Point} (hP : Rep P A) (hQ : Rep Q B) : Rep (P.add Q) (A + B) := by
  have hn := Curve.denom A B
  have ha := Edwards.denom_add hn
  have hs := Edwards.denom_sub hn
  have hx : (A + B).x * (1 + Curve.d * A.x * B.x * A.y * B.y) = A.x * B.y + A.y * B.x := by rw [Point.add_x, div_mul_cancel₀ _ ha]
  have hy : (A + B).y * (1 - Curve.d * A.x * B.x * A.y * B.y) = A.y * B.y + A.x * B.x := by rw [Point.add_y, div_mul_cancel₀ _ hs]
  have e : ((sub (mul (Ed25519.add P.Y P.X) (Ed25519.add Q.Y Q.X)) (mul (sub P.Y P.X) (sub Q.Y Q.X)) : Nat) : F)
      = 2 * P.Z * Q.Z * (A.x * B.y + A.y * B.x) := by
    rw [cast_sub _ (mul_lt _ _), cast_mul, cast_mul, cast_add, cast_add, cast_sub _ hP.ltX, cast_sub _ hQ.ltX, hP.x, hP.y, hQ.x, hQ.y]
    ring
  have h : ((Ed25519.add (mul (Ed25519.add P.Y P.X) (Ed25519.add Q.Y Q.X)) (mul (sub P.Y P.X) (sub Q.Y Q.X)) : Nat) : F)
      = 2 * P.Z * Q.Z * (A.y * B.y + A.x * B.x) := by
    rw [cast_add, cast_mul, cast_mul, cast_add, cast_add, cast_sub _ hP.ltX, cast_sub _ hQ.ltX, hP.x, hP.y, hQ.x, hQ.y]
    ring
  have f : ((sub (mul (mul P.Z 2) Q.Z) (mul (mul P.T (mul 2 d)) Q.T) : Nat) : F) = 2 * P.Z * Q.Z * (1 - Curve.d * A.x * B.x * A.y * B.y) := by
    rw [cast_sub _ (mul_lt _ _), cast_mul, cast_mul, cast_mul, cast_mul, cast_mul, hP.t, hQ.t, Curve.d_eq]
    push_cast
    ring
  have g : ((Ed25519.add (mul (mul P.Z 2) Q.Z) (mul (mul P.T (mul 2 d)) Q.T) : Nat) : F) =
      2 * P.Z * Q.Z * (1 + Curve.d * A.x * B.x * A.y * B.y) := by
    rw [cast_add, cast_mul, cast_mul, cast_mul, cast_mul, cast_mul, hP.t, hQ.t, Curve.d_eq]
    push_cast
    ring
  have hzz : (2 * P.Z * Q.Z : F) ≠ 0 := mul_ne_zero (mul_ne_zero Curve.two_ne hP.z) hQ.z
  simp only [Pt.add, force_eq]
  refine ⟨mul_lt _ _, mul_lt _ _, mul_lt _ _, mul_lt _ _, ?_, ?_, ?_, ?_⟩
  · simp only [cast_mul, f, g]
    exact mul_ne_zero (mul_ne_zero hzz hs) (mul_ne_zero hzz ha)
  · simp only [cast_mul, e, f, g]
    linear_combination -(2 * P.Z * Q.Z * (2 * P.Z * Q.Z) * (1 - Curve.d * A.x * B.x * A.y * B.y) : F) * hx
  · simp only [cast_mul, h, f, g]
    linear_combination -(2 * P.Z * Q.Z * (2 * P.Z * Q.Z) * (1 + Curve.d * A.x * B.x * A.y * B.y) : F) * hy
  · simp only [cast_mul, e, f, g, h]
    rw [← hx, ← hy]
    ring

theorem Pt.force_eq {α : Type} (P : Pt) (k : Pt → α) : P.force k = k P := by simp only [Pt.force, Ed25519.force_eq]

theorem rep_smul {P : Pt} {A : Point} (h : Rep P A) (n k : Nat) (hk : k < 2 ^ n) : Rep (.smul n k P) (k • A) := by
  induction n generalizing k with
  | zero =>
    have : k = 0 := by simpa using hk
    subst this
    rw [zero_smul]; exact rep_zero
  | succ n ih =>
    have h2 := ih (k / 2) (by rw [_root_.pow_succ] at hk; omega)
    rw [Pt.smul, Pt.force_eq, Pt.force_eq]
    have h4 := rep_add h2 h2
    rw [← _root_.add_smul] at h4
    rcases Nat.mod_two_eq_zero_or_one k with h0 | h1
    · rw [if_neg (by omega)]
      rwa [show k / 2 + k / 2 = k by omega] at h4
    · rw [if_pos h1]
      have := rep_add h4 h
      rwa [← succ_nsmul, show k / 2 + k / 2 + 1 = k by omega] at this

theorem rep_mulBase (k : Nat) (hk : k < 2 ^ 253) : Rep (mulBase k) (k • basePoint) := rep_smul rep_base 253 k hk

theorem order_lt : order < 2 ^ 253 := by decide +kernel
theorem order_pos : 0 < order := by decide +kernel

/-- The order of the base point. -/
theorem order_base : order • basePoint = 0 := by
  have h := rep_mulBase order order_lt
  have hx : (mulBase order).X = 0 := by decide +kernel
  have hy : (mulBase order).Y = (mulBase order).Z := by decide +kernel
  have h1 := h.x
  have h2 := h.y
  rw [hx, Nat.cast_zero, eq_comm, mul_eq_zero, or_iff_left h.z] at h1
  rw [hy, eq_comm, mul_eq_right₀ h.z] at h2
  exact Point.ext h1 h2

theorem mod_order (k : Nat) : (k % order) • basePoint = k • basePoint := by
  conv_rhs => rw [← Nat.mod_add_div k order, _root_.add_smul, mul_comm, mul_smul, order_base, smul_zero, _root_.add_zero]

/-! ## Encoding -/

theorem leVal_eq (bs : List UInt8) : leVal bs = leNat bs := (leNat_eq bs).symm

theorem two_le : 2 ^ 256 = 256 ^ 32 := by decide +kernel

theorem compress_val (P : Pt) : leNat P.compress.1 = (mul P.Y (inv P.Z) + mul P.X (inv P.Z) % 2 * 2 ^ 255) % 256 ^ 32 := by
  rw [Pt.compress, force_eq, ← leVal_eq]
  exact leVal_leBytes 32 _

theorem encoded_compress {P : Pt} {A : Point} (h : Rep P A) : Encoded A P.compress.1 := by
  refine ⟨P.compress.2, ?_⟩
  have hx : mul P.X (inv P.Z) = A.x.val := eq_val (mul_lt _ _) (by rw [cast_mul, inv_cast, h.x, mul_inv_cancel_right₀ h.z])
  have hy : mul P.Y (inv P.Z) = A.y.val := eq_val (mul_lt _ _) (by rw [cast_mul, inv_cast, h.y, mul_inv_cancel_right₀ h.z])
  have h1 := compress_val P
  have h2 := val_lt A.y
  have h3 : p < 2 ^ 255 := by decide +kernel
  rw [← hy] at h2
  rw [h1, ← hx, ← hy]
  apply Nat.mod_eq_of_lt
  rw [← two_le]
  omega

theorem encoded_bytes {A : Point} {bs cs : List UInt8} (h1 : Encoded A bs) (h2 : Encoded A cs) : bs = cs := by
  obtain ⟨l1, e1⟩ := h1
  obtain ⟨l2, e2⟩ := h2
  rw [← e2, ← leVal_eq, ← leVal_eq] at e1
  rw [← leBytes_leVal bs, ← leBytes_leVal cs, l1, l2, e1]

/-- The bits of an encoding. -/
theorem encoded_parts {A : Point} {bs : List UInt8} (h : Encoded A bs) : leNat bs % 2 ^ 255 = A.y.val ∧ leNat bs / 2 ^ 255 = A.x.val % 2 := by
  have := val_lt A.y
  have : p < 2 ^ 255 := by decide +kernel
  have := h.2
  omega

theorem decoded_encoded {A : Point} {bs : List UInt8} (h : Encoded A bs) : Decoded bs A := by
  obtain ⟨h1, h2⟩ := encoded_parts h
  exact ⟨h.1, by rw [h1, ZMod.natCast_zmod_val], Or.inr h2.symm⟩

/-- The second factor is not zero. -/
theorem v_ne (y : F) : Curve.d * y ^ 2 + 1 ≠ 0 := by
  intro h
  have hy : y ≠ 0 := by rintro rfl; norm_num at h
  refine Curve.d_nonsquare (((Ed25519.i : Nat) : F) / y) ?_
  rw [div_pow, Curve.i_sq, div_eq_iff (pow_ne_zero 2 hy)]
  linear_combination -h

theorem x_sq (A : Point) : (Curve.d * A.y ^ 2 + 1) * A.x ^ 2 = A.y ^ 2 - 1 := by linear_combination -A.on

theorem decoded_unique {bs : List UInt8} {A B : Point} (h1 : Decoded bs A) (h2 : Decoded bs B) : A = B := by
  obtain ⟨-, hy1, hx1⟩ := h1
  obtain ⟨-, hy2, hx2⟩ := h2
  have hy : A.y = B.y := by rw [hy1, hy2]
  have hsq : A.x ^ 2 = B.x ^ 2 := by
    have h1 := x_sq A
    have h2 := x_sq B
    rw [hy, ← h2] at h1
    exact mul_left_cancel₀ (v_ne B.y) h1
  rcases sq_eq_sq_iff_eq_or_eq_neg.mp hsq with hx | hx
  · exact Point.ext hx hy
  · refine Point.ext ?_ hy
    rcases hx1 with hx1 | hx1
    · rw [hx1, eq_comm, neg_eq_zero] at hx
      rw [hx1, hx]
    · rcases hx2 with hx2 | hx2
      · rw [hx, hx2, neg_zero]
      · rw [hx, ← hx2] at hx1
        rw [hx, zero_of_parity hx1, neg_zero]

theorem encoded_inj {bs : List UInt8} {A B : Point} (h1 : Encoded A bs) (h2 : Encoded B bs) : A = B :=
  decoded_unique (decoded_encoded h1) (decoded_encoded h2)

/-- What the square root does. -/
theorem sqrtRatio_some {u v r : Nat} (hu : u < p) (h : sqrtRatio u v = some r) : r < p ∧ r % 2 = 0 ∧ (v : F) * r ^ 2 = u := by
  rw [sqrtRatio, force_eq, force_eq] at h
  have even : ∀ r, r < p → (if r % 2 = 1 then sub 0 r else r) < p ∧ (if r % 2 = 1 then sub 0 r else r) % 2 = 0 ∧
      ((if r % 2 = 1 then sub 0 r else r : Nat) : F) ^ 2 = (r : F) ^ 2 := by
    intro r hr
    split
    · rename_i h1
      refine ⟨sub_lt _ _, ?_, ?_⟩
      · have h2 : p % 2 = 1 := by decide +kernel
        have h3 : 0 + (p - r) < p := by clear h; omega
        rw [sub, Nat.mod_eq_of_lt h3]
        clear h h3; omega
      · rw [cast_sub _ hr]; simp
    · exact ⟨hr, by omega, rfl⟩
  simp only [] at h
  generalize hr : mul (mul u (mul (mul v v) v)) _ = r0 at h
  have hr0 : r0 < p := hr ▸ mul_lt _ _
  split at h
  · rename_i h1
    cases h
    obtain ⟨a, b, c⟩ := even r0 hr0
    refine ⟨a, b, ?_⟩
    rw [c]
    have := congrArg (Nat.cast : Nat → F) h1
    rw [cast_mul, cast_mul] at this
    linear_combination this
  · split at h
    · rename_i h1
      cases h
      obtain ⟨a, b, c⟩ := even (mul i r0) (mul_lt _ _)
      refine ⟨a, b, ?_⟩
      rw [c]
      have := congrArg (Nat.cast : Nat → F) h1
      rw [cast_mul, cast_mul, cast_sub _ hu] at this
      rw [cast_mul, mul_pow, Curve.i_sq]
      push_cast at this
      linear_combination -this
    · cases h

theorem sqrtRatio_isSome {u v : Nat} {x : F} (hu : u < p) (h : (v : F) * x ^ 2 = u) : ∃ r, sqrtRatio u v = some r := by
  rw [sqrtRatio, force_eq, force_eq]
  simp only []
  generalize hr : mul (mul u (mul (mul v v) v)) _ = r
  have hr' : (r : F) = u * v ^ 3 * (u * v ^ 7) ^ ((p - 5) / 8) := by
    rw [← hr, cast_mul, pow_cast _ _ _ (by decide +kernel)]
    simp only [cast_mul]
    ring_nf
  have key : (v : F) * r ^ 2 = u ∨ (v : F) * r ^ 2 = -u := by
    have h1 : (v : F) * r ^ 2 = u * (u * v ^ 7) ^ ((p - 1) / 4) := by
      rw [hr', show (p - 1) / 4 = (p - 5) / 8 * 2 + 1 by decide +kernel, _root_.pow_succ _ (_ * 2), pow_mul]
      ring
    have h2 : (u * v ^ 7 : F) = (v ^ 4 * x) ^ 2 := by rw [← h]; ring
    rw [h1, h2, ← pow_mul, show 2 * ((p - 1) / 4) = (p - 1) / 2 by decide +kernel]
    by_cases h0 : (v : F) ^ 4 * x = 0
    · left
      have : (u : F) = 0 := by
        rw [← h]
        rcases mul_eq_zero.mp h0 with h0 | h0
        · rw [pow_eq_zero_iff (by norm_num)] at h0; rw [h0, zero_mul]
        · rw [h0]; ring
      rw [this, zero_mul]
    · have h3 : (((v : F) ^ 4 * x) ^ ((p - 1) / 2)) ^ 2 = 1 := by
        rw [← pow_mul, show (p - 1) / 2 * 2 = p - 1 by decide +kernel]
        exact ZMod.pow_card_sub_one_eq_one h0
      rcases sq_eq_sq_iff_eq_or_eq_neg.mp (h3.trans (one_pow 2).symm) with h3 | h3 <;> rw [h3] <;> simp
  rcases key with h1 | h1
  · refine ⟨_, if_pos ?_⟩
    apply Curve.cast_inj (mul_lt _ _) hu
    rw [cast_mul, cast_mul, ← h1]; ring
  · have h2 : mul v (mul r r) = sub 0 u := by
      apply Curve.cast_inj (mul_lt _ _) (sub_lt _ _)
      rw [cast_mul, cast_mul, cast_sub _ hu, Nat.cast_zero, zero_sub, ← h1]; ring
    rw [if_pos h2]
    split <;> exact ⟨_, rfl⟩

theorem u_cast {y : Nat} : ((sub (mul y y) 1 : Nat) : F) = (y : F) ^ 2 - 1 := by
  rw [cast_sub _ (by decide +kernel), cast_mul, Nat.cast_one]; ring

theorem v_cast {y : Nat} : ((add (mul d (mul y y)) 1 : Nat) : F) = Curve.d * (y : F) ^ 2 + 1 := by
  rw [cast_add, cast_mul, cast_mul, Nat.cast_one, Curve.d_eq]; ring

theorem decompress_some {bs : Arr 32} {P : Pt} (h : decompress bs = some P) : ∃ A, Rep P A ∧ Decoded bs.1 A := by
  unfold decompress at h
  simp only [] at h
  generalize hn : leVal bs.1 = n at h
  have hy : n % 2 ^ 255 % p < p := Nat.mod_lt _ p_pos
  generalize hyy : n % 2 ^ 255 % p = y at h hy
  split at h
  · cases h
  · rename_i r hr
    injection h with h
    obtain ⟨h1, h2, h3⟩ := sqrtRatio_some (sub_lt _ _) hr
    rw [u_cast, v_cast] at h3
    have hx : (if n / 2 ^ 255 = 1 then sub 0 r else r) < p := by split; exact sub_lt _ _; exact h1
    have hxx : ((if n / 2 ^ 255 = 1 then sub 0 r else r : Nat) : F) ^ 2 = (r : F) ^ 2 := by
      split
      · rw [cast_sub _ h1]; simp
      · rfl
    have hpar : ((if n / 2 ^ 255 = 1 then sub 0 r else r : Nat) : F) = 0 ∨ (if n / 2 ^ 255 = 1 then sub 0 r else r) % 2 = n / 2 ^ 255 := by
      have hn2 : n / 2 ^ 255 < 2 := by
        have := leVal_lt bs.1
        rw [bs.2, hn] at this
        omega
      split
      · rename_i hs
        by_cases hr0 : r = 0
        · left; rw [cast_sub _ h1, hr0]; simp
        · right
          have h4 : p % 2 = 1 := by decide +kernel
          have h5 : 0 + (p - r) < p := by omega
          rw [sub, Nat.mod_eq_of_lt h5]
          omega
      · right; omega
    generalize (if n / 2 ^ 255 = 1 then sub 0 r else r) = x at h hx hxx hpar
    subst h
    refine ⟨⟨x, y, ?_⟩, ⟨hx, hy, show 1 < p by decide +kernel, mul_lt _ _, by simp, by simp, by simp, by simp [cast_mul]⟩, bs.2, ?_, ?_⟩
    · rw [← hxx] at h3
      linear_combination -h3
    · show (y : F) = _
      rw [← hyy, ZMod.natCast_mod, ← leVal_eq, hn]
    · show (x : F) = 0 ∨ (x : F).val % 2 = _
      rw [val_cast hx, ← leVal_eq, hn]
      exact hpar

theorem decompress_of_decoded {bs : Arr 32} {A : Point} (h : Decoded bs.1 A) : ∃ P, decompress bs = some P ∧ Rep P A := by
  have hex : ∃ P, decompress bs = some P := by
    unfold decompress
    simp only []
    have hy : A.y = (leVal bs.1 % 2 ^ 255 % p : Nat) := by rw [h.2.1, ZMod.natCast_mod, leVal_eq]
    have := x_sq A
    rw [hy, ← u_cast, ← v_cast] at this
    obtain ⟨r, hr⟩ := sqrtRatio_isSome (sub_lt _ _) this
    rw [hr]
    exact ⟨_, rfl⟩
  obtain ⟨P, hP⟩ := hex
  obtain ⟨B, h1, h2⟩ := decompress_some hP
  exact ⟨P, hP, decoded_unique h h2 ▸ h1⟩

/-- `VerifyingKey::from_bytes` accepts exactly the encodings of points. -/
theorem decompress_isSome (bs : Arr 32) : (decompress bs).isSome = true ↔ ∃ A, Decoded bs.1 A := by
  constructor
  · intro h
    obtain ⟨P, hP⟩ := Option.isSome_iff_exists.mp h
    obtain ⟨A, _, hA⟩ := decompress_some hP
    exact ⟨A, hA⟩
  · rintro ⟨A, hA⟩
    obtain ⟨P, hP, _⟩ := decompress_of_decoded hA
    rw [hP]; rfl

/-! ## Signatures -/

variable (sha : List UInt8 → Arr 64)

theorem hashScalar_lt (bs : List UInt8) : hashScalar sha bs < order := Nat.mod_lt _ order_pos
theorem scalar_lt (seed : Arr 32) : scalar sha seed < order := Nat.mod_lt _ order_pos

theorem publicKey_encoded (seed : Arr 32) : Encoded (scalar sha seed • basePoint) (publicKey sha seed).1 :=
  encoded_compress (rep_mulBase _ ((scalar_lt sha seed).trans order_lt))

/-- The equation that verification checks. -/
theorem check_iff (key : Arr 32) (m : List UInt8) (sig : Arr 64) : check sha key m sig = true ↔
    ∃ A, Decoded key.1 A ∧ leNat (sig.1.drop 32) < order ∧
      Encoded (leNat (sig.1.drop 32) • basePoint - (leNat (sha (sig.1.take 32 ++ key.1 ++ m)).1 % order) • A) (sig.1.take 32) := by
  unfold check
  simp only []
  rw [← leVal_eq]
  generalize hs : leVal (sig.1.drop 32) = s
  generalize hR : sig.1.take 32 = R
  have main : ∀ P A, Rep P A → s < order →
      (((Pt.smul 253 (hashScalar sha (R ++ key.1 ++ m)) P.neg).add (mulBase s)).compress.1 = R ↔
        Encoded (s • basePoint - (leNat (sha (R ++ key.1 ++ m)).1 % order) • A) R) := by
    intro P A hP hlt
    have h1 := rep_add (rep_smul (rep_neg hP) 253 (hashScalar sha (R ++ key.1 ++ m)) ((hashScalar_lt sha _).trans order_lt))
      (rep_mulBase s (hlt.trans order_lt))
    have h2 := encoded_compress h1
    rw [show hashScalar sha (R ++ key.1 ++ m) • -A + s • basePoint = s • basePoint - (leNat (sha (R ++ key.1 ++ m)).1 % order) • A by
      rw [hashScalar, leVal_eq, smul_neg, neg_add_eq_sub]] at h2
    exact ⟨fun e => by rw [e] at h2; exact h2, fun h => encoded_bytes h2 h⟩
  cases hd : decompress key with
  | none =>
    simp only [Bool.false_eq_true, false_iff]
    rintro ⟨A, hA, -⟩
    obtain ⟨P, hP, _⟩ := decompress_of_decoded hA
    rw [hd] at hP; cases hP
  | some P =>
    simp only [Bool.and_eq_true, decide_eq_true_eq, beq_iff_eq]
    constructor
    · rintro ⟨hlt, he⟩
      obtain ⟨A, hA, hdA⟩ := decompress_some hd
      exact ⟨A, hdA, hlt, (main P A hA hlt).mp he⟩
    · rintro ⟨A, hdA, hlt, he⟩
      obtain ⟨Q, hQ, hA⟩ := decompress_of_decoded hdA
      rw [hd] at hQ
      cases hQ
      exact ⟨hlt, (main P A hA hlt).mpr he⟩

/-- What is signed verifies. -/
theorem check_sign (seed : Arr 32) (m : List UInt8) : check sha (publicKey sha seed) m (sign sha seed m) = true := by
  rw [check_iff]
  have hp := publicKey_encoded sha seed
  refine ⟨_, decoded_encoded hp, ?_⟩
  unfold sign
  simp only []
  generalize hr : hashScalar sha (nonceKey sha seed ++ m) = r
  have hr' : r < order := hr ▸ hashScalar_lt sha _
  have hR := encoded_compress (rep_mulBase r (hr'.trans order_lt))
  rw [List.take_left' (mulBase r).compress.2, List.drop_left' (mulBase r).compress.2]
  generalize (mulBase r).compress = R at hR
  generalize hk : hashScalar sha (R.1 ++ (publicKey sha seed).1 ++ m) = k
  have hs : (k * scalar sha seed + r) % order < order := Nat.mod_lt _ order_pos
  rw [← leVal_eq, leVal_leBytes, ← two_le, Nat.mod_eq_of_lt (by have := order_lt; omega)]
  refine ⟨hs, ?_⟩
  rw [← leVal_eq, show leVal (sha (R.1 ++ (publicKey sha seed).1 ++ m)).1 % order = k from hk, mod_order, _root_.add_smul, mul_smul,
    add_sub_cancel_left]
  exact hR

attribute [local irreducible] publicKey in
theorem scheme_expand : (scheme sha).expand = publicKey sha := rfl
theorem scheme_sign : (scheme sha).sign = sign sha := rfl
theorem scheme_check : (scheme sha).check = check sha := rfl
theorem scheme_point (k : Arr 32) : (scheme sha).point k = (decompress k).isSome := rfl
theorem ed25519_expand : ed25519.expand = publicKey Sha2.sha512 := scheme_expand _

end Verif.Ed25519
