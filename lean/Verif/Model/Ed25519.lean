import Verif.Model.Sha2
import Verif.Model.Signing

/-!
# Ed25519 (RFC 8032)

What `ed25519_dalek` version 2 computes in the calls of sia/src/signing.rs.  The crate is not part of the repository; this follows RFC 8032 section 5.1
and, where the RFC leaves a choice, what the crate documents: `VerifyingKey::from_bytes` accepts encodings that are not canonical, `verify` is the
check without cofactor on encoded points, and `s` must be below the order.  Numbers are natural numbers, those of the field below `p`.  Points are in
the extended coordinates of section 5.1.4.  Simplification: no constant-time tricks, no precomputed tables, exponents by squaring.
-/

namespace Verif.Ed25519

open Blake2b (force)

/-- The prime of the field. -/
def p : Nat := 2 ^ 255 - 19

/-- The constant of the curve `-x² + y² = 1 + d x² y²`. -/
def d : Nat := 37095705934669439343138083508754565189542113879843219016388785533085940283555

/-- The order of the base point. -/
def order : Nat := 2 ^ 252 + 27742317777372353535851937790883648493

/-- A square root of -1. -/
def i : Nat := 19681161376707505956807079304988542015446066515923890162744021073123829784752

def add (a b : Nat) : Nat := (a + b) % p
def sub (a b : Nat) : Nat := (a + (p - b)) % p
def mul (a b : Nat) : Nat := a * b % p

/-- `b ^ e` for an exponent of at most `n` bits. -/
def pow : Nat → Nat → Nat → Nat
  | 0, _, _ => 1
  | n + 1, b, e => force (pow n b (e / 2)) fun r => if e % 2 = 1 then mul (mul r r) b else mul r r

/-- The inverse, zero for zero. -/
def inv (a : Nat) : Nat := pow 255 a (p - 2)

/-! ## Points -/

/-- `x = X / Z`, `y = Y / Z`, `x y = T / Z`. -/
structure Pt where
  X : Nat
  Y : Nat
  Z : Nat
  T : Nat
  deriving DecidableEq

namespace Pt

/-- `k P`, evaluating the coordinates first. -/
def force {α : Type} (P : Pt) (k : Pt → α) : α :=
  Blake2b.force P.X fun X => Blake2b.force P.Y fun Y => Blake2b.force P.Z fun Z => Blake2b.force P.T fun T => k ⟨X, Y, Z, T⟩

/-- The neutral element. -/
def zero : Pt := ⟨0, 1, 1, 0⟩

/-- Addition (RFC 8032 section 5.1.4). -/
def add (P Q : Pt) : Pt :=
  Blake2b.force (mul (sub P.Y P.X) (sub Q.Y Q.X)) fun a =>
  Blake2b.force (mul (Ed25519.add P.Y P.X) (Ed25519.add Q.Y Q.X)) fun b =>
  Blake2b.force (mul (mul P.T (mul 2 d)) Q.T) fun c =>
  Blake2b.force (mul (mul P.Z 2) Q.Z) fun e =>
  let E := sub b a
  let F := sub e c
  let G := Ed25519.add e c
  let H := Ed25519.add b a
  ⟨mul E F, mul G H, mul F G, mul E H⟩

/-- The negative. -/
def neg (P : Pt) : Pt := ⟨sub 0 P.X, P.Y, P.Z, sub 0 P.T⟩

/-- `k` times a point, for `k` of at most `n` bits. -/
def smul : Nat → Nat → Pt → Pt
  | 0, _, _ => zero
  | n + 1, k, P => (smul n (k / 2) P).force fun Q => (Q.add Q).force fun R => if k % 2 = 1 then R.add P else R

/-- The base point. -/
def base : Pt :=
  let x := 15112221349535400772501151409588531511454012693041857206046113283949847762202
  let y := 46316835694926478169428394003475163141307993866256225615783033603165251855960
  ⟨x, y, 1, mul x y⟩

/-- Encoding (section 5.1.2): the 255 bits of `y`, and the lowest bit of `x` above them. -/
def compress (P : Pt) : Arr 32 :=
  Blake2b.force (inv P.Z) fun z => ⟨leBytes 32 (mul P.Y z + mul P.X z % 2 * 2 ^ 255), rfl⟩

end Pt

/-- A square root of `u / v` which is even, if there is one (section 5.1.3 steps 2 and 3). -/
def sqrtRatio (u v : Nat) : Option Nat :=
  Blake2b.force (mul (mul v v) v) fun v3 =>
  Blake2b.force (mul (mul u v3) (pow 255 (mul u (mul (mul v3 v3) v)) ((p - 5) / 8))) fun r =>
  let even := fun r => if r % 2 = 1 then sub 0 r else r
  if mul v (mul r r) = u then some (even r)
  else if mul v (mul r r) = sub 0 u then some (even (mul i r))
  else none

/-- Decoding (section 5.1.3).  Like the crate, `y` at or above `p` is reduced and the sign of `x = 0` is ignored. -/
def decompress (bs : Arr 32) : Option Pt :=
  let n := leVal bs.1
  let y := n % 2 ^ 255 % p
  match sqrtRatio (sub (mul y y) 1) (add (mul d (mul y y)) 1) with
  | none => none
  | some r =>
    let x := if n / 2 ^ 255 = 1 then sub 0 r else r
    some ⟨x, y, 1, mul x y⟩

/-! ## Keys and signatures -/

/-- Clear the three lowest bits and the highest, set the second highest (section 5.1.5 step 2). -/
def clamp (n : Nat) : Nat := n % 2 ^ 254 / 8 * 8 + 2 ^ 254

variable (sha : List UInt8 → Arr 64)

/-- The secret scalar of a seed: `ExpandedSecretKey::scalar`. -/
def scalar (seed : Arr 32) : Nat := clamp (leVal ((sha seed.1).1.take 32)) % order

/-- `ExpandedSecretKey::hash_prefix`. -/
def nonceKey (seed : Arr 32) : List UInt8 := (sha seed.1).1.drop 32

/-- A hash as a scalar: `Scalar::from_hash`. -/
def hashScalar (bs : List UInt8) : Nat := leVal (sha bs).1 % order

/-- `k` times the base point: `EdwardsPoint::mul_base`. -/
def mulBase (k : Nat) : Pt := Pt.smul 253 k Pt.base

/-- The public key of a seed (section 5.1.5). -/
def publicKey (seed : Arr 32) : Arr 32 := (mulBase (scalar sha seed)).compress

/-- `SigningKey::sign` (section 5.1.6). -/
def sign (seed : Arr 32) (m : List UInt8) : Arr 64 :=
  let r := hashScalar sha (nonceKey sha seed ++ m)
  let R := (mulBase r).compress
  let k := hashScalar sha (R.1 ++ (publicKey sha seed).1 ++ m)
  ⟨R.1 ++ leBytes 32 ((k * scalar sha seed + r) % order), by rw [List.length_append, R.2]; rfl⟩

/-- `VerifyingKey::verify` of a key that was accepted (section 5.1.7, the check without cofactor): `s` is below the order and `R` is the encoding of
`s B - k A`. -/
def check (key : Arr 32) (m : List UInt8) (sig : Arr 64) : Bool :=
  let R := sig.1.take 32
  let s := leVal (sig.1.drop 32)
  match decompress key with
  | none => false
  | some A =>
    let k := hashScalar sha (R ++ key.1 ++ m)
    decide (s < order) && (((Pt.smul 253 k A.neg).add (mulBase s)).compress.1 == R)

/-- The four operations that sia/src/signing.rs uses, for a hash of 64 bytes. -/
def scheme : Ed where
  expand := publicKey sha
  sign := sign sha
  point k := (decompress k).isSome
  check := check sha

end Verif.Ed25519

namespace Verif

/-- ed25519 as `ed25519_dalek` has it: with SHA-512. -/
def ed25519 : Ed := Ed25519.scheme Sha2.sha512

end Verif
