import Verif.Spec.Fits

/-!
# What a user of the binary codecs relies on

Stated for an arbitrary encodable type; the property theorems instantiate them at each type of the crate.
-/

namespace Verif

/-- Decoding what was encoded, with anything after it in the stream, gives the value back and leaves what
followed. -/
def RoundTrips (v : Ver) (α : Type) [Codec v α] [Fits α] : Prop :=
  ∀ (lim : Lim) (a : α) (rest : List UInt8), fits lim a → (dec v : Dec α) lim (enc v a ++ rest) = .ok (a, rest)

/-- Equal streams that start with encodings have equal values and equal continuations. -/
def SelfDelimiting (v : Ver) (α : Type) [Codec v α] [Fits α] : Prop :=
  ∀ (lim : Lim) (a b : α) (x y : List UInt8), fits lim a → fits lim b → enc v a ++ x = enc v b ++ y → a = b ∧ x = y

/-- Decoding a proper prefix of an encoding returns an error. -/
def TruncationFails (v : Ver) (α : Type) [Codec v α] [Fits α] : Prop :=
  ∀ (lim : Lim) (a : α) (p s : List UInt8), fits lim a → enc v a = p ++ s → s ≠ [] →
    ∃ e, (dec v : Dec α) lim p = .err e

/-- A successful decode is determined by the bytes it consumed. -/
def DecodesLocally (v : Ver) (α : Type) [Codec v α] : Prop :=
  ∀ (lim : Lim) (bs rest : List UInt8) (a : α), (dec v : Dec α) lim bs = .ok (a, rest) →
    ∃ used, bs = used ++ rest ∧ ∀ other, (dec v : Dec α) lim (used ++ other) = .ok (a, other)

/-- Only encodings are accepted. -/
def DecodesCanonically (v : Ver) (α : Type) [Codec v α] : Prop :=
  ∀ (lim : Lim) (bs rest : List UInt8) (a : α), (dec v : Dec α) lim bs = .ok (a, rest) → bs = enc v a ++ rest

/-- Whatever was accepted, encoding the result and decoding again gives the same result. -/
def ReencodesStably (v : Ver) (α : Type) [Codec v α] : Prop :=
  ∀ (lim : Lim) (bs rest other : List UInt8) (a : α), (dec v : Dec α) lim bs = .ok (a, rest) →
    (dec v : Dec α) lim (enc v a ++ other) = .ok (a, other)

/-- No input makes the decoder panic on a machine that can allocate any vector a 64-bit length can ask for and
whose stack is deeper than the input is long. -/
def NeverPanics (v : Ver) (α : Type) [Codec v α] : Prop :=
  ∀ (lim : Lim) (bs : List UInt8), 2 ^ 64 ≤ lim.cap → bs.length < lim.stack → (dec v : Dec α) lim bs ≠ .panic

/-- No input makes the decoder panic on any machine. -/
def NeverPanicsAnywhere (v : Ver) (α : Type) [Codec v α] : Prop :=
  ∀ (lim : Lim) (bs : List UInt8), (dec v : Dec α) lim bs ≠ .panic

/-- The unsigned 64-bit little-endian integer at offset `k` of a byte string (missing bytes read as zero). -/
def u64At (bs : List UInt8) (k : Nat) : Nat :=
  (List.range 8).foldr (fun i acc => (bs[k + i]?.map UInt8.toNat).getD 0 + 256 * acc) 0

/-- The signed 64-bit little-endian integer at offset `k` of a byte string. -/
def i64At (bs : List UInt8) (k : Nat) : Int :=
  let n := u64At bs k
  if n < 2 ^ 63 then n else (n : Int) - 2 ^ 64

/-- The bytes at offset `k` are there and are not a timestamp between the years -9999 and 9999. -/
def BadTimestampAt (bs : List UInt8) (k : Nat) : Prop :=
  k + 8 ≤ bs.length ∧ ¬ (-377705116800 ≤ i64At bs k ∧ i64At bs k ≤ 253402300799)

end Verif
