import Verif.Spec.Blake2b
import Verif.Spec.Curve

/-!
# The digests by name, and keys and signatures of RFC 8032
-/

namespace Verif.Spec

open Ed25519 (order)

/-- The bytes `bs` have the BLAKE2b hash `out`. -/
def Blake (bs out : List UInt8) : Prop := Blake2b.Hashes bs out

/-- The bytes `bs` have the SHA-256 digest `out`. -/
def Sha256 (bs out : List UInt8) : Prop := Sha2.Hashes 32 Sha2.turns256 (Sha2.primesBelow 312) bs out

/-- The bytes `bs` have the SHA-512 digest `out`. -/
def Sha512 (bs out : List UInt8) : Prop := Sha2.Hashes 64 Sha2.turns512 (Sha2.primesBelow 410) bs out

/-- `n` is the number of 256 bits that the bytes are, with the lowest three bits and the highest cleared and the second highest set. -/
def Clamped (bs : List UInt8) (n : Nat) : Prop :=
  n < 2 ^ 256 ∧ ∀ j < 256, n.testBit j = if j < 3 ∨ j = 255 then false else if j = 254 then true else (leNat bs).testBit j

/-- Section 5.1.5: `secret` is the scalar, `nonce` the second half of the digest and `key` the public key of a seed of 32 bytes. -/
def KeyOf (seed : List UInt8) (secret : Nat) (nonce key : List UInt8) : Prop :=
  ∃ c, Sha512 seed c ∧ Clamped (c.take 32) secret ∧ nonce = c.drop 32 ∧ Encoded (secret • basePoint) key

/-- Section 5.1.6: `sig` is the signature of the message `m` with the seed. -/
def SignatureOf (seed m sig : List UInt8) : Prop := ∃ secret nonce key r k, KeyOf seed secret nonce key ∧ Sha512 (nonce ++ m) r ∧ sig.length = 64 ∧
  Encoded (leNat r • basePoint) (sig.take 32) ∧ Sha512 (sig.take 32 ++ key ++ m) k ∧ leNat (sig.drop 32) = (leNat r + leNat k * secret) % order

end Verif.Spec
