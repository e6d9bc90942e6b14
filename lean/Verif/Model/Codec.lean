import Verif.Model.Prim

/-!
# The two binary codecs

`encoding/v1.rs` (`V1SiaEncodable`, `V1SiaDecodable`) and `encoding/v2.rs` (`SiaEncodable`,
`SiaDecodable`) contain the same code for the primitive types, so both are one class indexed by the
version.  Encoders are functions to byte lists (failing writers are modelled in `Model/Writer.lean`).
-/

namespace Verif

/-- Which of the two codecs: `encoding/v1.rs` or `encoding/v2.rs`. -/
inductive Ver where
  | v1
  | v2
  deriving DecidableEq, Repr

/-- `V1SiaEncodable`/`V1SiaDecodable` (sia/src/encoding/v1.rs 4-10) and
`SiaEncodable`/`SiaDecodable` (sia/src/encoding/v2.rs 21-27). -/
class Codec (v : Ver) (α : Type) where
  encode : α → List UInt8
  decode : Dec α

/-- `a.encode_v1(w)` / `a.encode(w)`. -/
def enc (v : Ver) {α : Type} [Codec v α] (a : α) : List UInt8 := Codec.encode v a

/-- `α::decode_v1(r)` / `α::decode(r)`. -/
def dec (v : Ver) {α : Type} [Codec v α] : Dec α := Codec.decode v

variable {v : Ver} {α β : Type}

/-- `u8` (sia/src/encoding/v1.rs 12-25, v2.rs 29-42). -/
instance : Codec v UInt8 where
  encode b := [b]
  decode := do
    let buf ← readExact 1
    pure (buf.1.head (by have := buf.2; intro h; simp [h] at this))

/-- `bool` (sia/src/encoding/v1.rs 27-42, v2.rs 44-59). -/
instance : Codec v Bool where
  encode b := enc v (if b then (1 : UInt8) else 0)
  decode := do
    let x ← (dec v : Dec UInt8)
    if x = 0 then pure false
    else if x = 1 then pure true
    else Dec.fail .invalidValue

/-- Unsigned part of `impl_sia_numeric!` (sia/src/encoding/v1.rs 77-98, v2.rs 123-144):
`(*self as u64).to_le_bytes()` zero-extends. -/
def numEncode {n : Nat} (x : BitVec n) : List UInt8 := leBytes 8 (x.setWidth 64).toNat

/-- Unsigned part of `impl_sia_numeric!` (sia/src/encoding/v1.rs 77-98, v2.rs 123-144):
`u64::from_le_bytes(buf) as Self` truncates. -/
def numDecode (n : Nat) : Dec (BitVec n) := do
  let buf ← readExact 8
  pure ((BitVec.ofNat 64 (leVal buf.1)).setWidth n)

instance : Codec v U16 := ⟨numEncode, numDecode 16⟩
instance : Codec v U32 := ⟨numEncode, numDecode 32⟩
/-- `u64` and `usize` (64-bit targets). -/
instance : Codec v U64 := ⟨numEncode, numDecode 64⟩

/-- Signed part of `impl_sia_numeric!`: `*self as u64` sign-extends; decoding truncates
(sia/src/encoding/v1.rs 77-98, v2.rs 123-144). -/
instance : Codec v Int16 where
  encode x := leBytes 8 (x.toBitVec.signExtend 64).toNat
  decode := do
    let b ← numDecode 16
    pure (Int16.ofBitVec b)

instance : Codec v Int32 where
  encode x := leBytes 8 (x.toBitVec.signExtend 64).toNat
  decode := do
    let b ← numDecode 32
    pure (Int32.ofBitVec b)

instance : Codec v Int64 where
  encode x := leBytes 8 (x.toBitVec.signExtend 64).toNat
  decode := do
    let b ← numDecode 64
    pure (Int64.ofBitVec b)

/-- `[u8; N]` (sia/src/encoding/v1.rs 140-153, v2.rs 186-199). -/
instance {n : Nat} : Codec v (Arr n) where
  encode a := a.1
  decode := readExact n

/-- The loop `for _ in 0..len { vec.push(T::decode(r)?) }` (sia/src/encoding/v1.rs 120-122). -/
def decodeN (d : Dec α) : Nat → Dec (List α)
  | 0 => pure []
  | n + 1 => do
    let a ← d
    let as ← decodeN d n
    pure (a :: as)

/-- Slices and `Vec<T>` (sia/src/encoding/v1.rs 44-52, 100-125; v2.rs 90-98, 146-171). -/
instance [Codec v α] : Codec v (List α) where
  encode l := enc v (BitVec.ofNat 64 l.length : U64) ++ l.flatMap (enc v)
  decode := do
    let len ← (dec v : Dec U64)
    Dec.reserve len.toNat
    decodeN (dec v) len.toNat

/-- `Option<T>` (sia/src/encoding/v1.rs 54-75, v2.rs 100-121). -/
instance [Codec v α] : Codec v (Option α) where
  encode o := match o with
    | some a => enc v true ++ enc v a
    | none => enc v false
  decode := do
    let has ← (dec v : Dec Bool)
    if has then do
      let a ← dec v
      pure (some a)
    else pure none

/-- The bytes of a Rust `String`.  A Lean `String` is, like a Rust one, a valid UTF-8 byte string. -/
def strBytes (s : String) : List UInt8 := s.toByteArray.data.toList

/-- `String::from_utf8`. -/
def strOfBytes (l : List UInt8) : Option String := String.fromUTF8? ⟨l.toArray⟩

/-- `String` (sia/src/encoding/v1.rs 127-138, v2.rs 173-184): invalid UTF-8 is `InvalidLength`. -/
instance : Codec v String where
  encode s := enc v (strBytes s)
  decode := do
    let buf ← (dec v : Dec (List UInt8))
    match strOfBytes buf with
    | some s => pure s
    | none => Dec.fail .invalidLength

/-- Two consecutive fields of a derived struct (sia_derive/src/lib.rs 5-190): encode both in order. -/
instance [Codec v α] [Codec v β] : Codec v (α × β) where
  encode p := enc v p.1 ++ enc v p.2
  decode := do
    let a ← dec v
    let b ← dec v
    pure (a, b)

/-- A derived struct: the tuple of its fields in declaration order and the constructor. -/
class Struct (α : Type) (β : outParam Type) where
  fields : α → β
  build : β → α
  build_fields : ∀ a, build (fields a) = a := by intros; rfl
  fields_build : ∀ b, fields (build b) = b := by intros; rfl

/-- A derived codec (`SiaEncode`, `SiaDecode`, `V1SiaEncode`, `V1SiaDecode`, sia_derive/src/lib.rs 5-190): the
fields in declaration order.  The v2 derives skip non-`pub` named fields; no deriving struct has any.
Simplification: the instance exists for both versions although some structs derive only one. -/
instance (priority := low) [Struct α β] [Codec v β] : Codec v α where
  encode a := enc v (Struct.fields a)
  decode := do
    let b ← dec v
    pure (Struct.build b)

/-- An instant (`time::OffsetDateTime`), compared, as in Rust, by the point in time: whole seconds since the
Unix epoch (floor) and nanoseconds within the second. -/
structure DateTime where
  secs : Int
  nanos : Nat
  deriving DecidableEq, Repr

namespace DateTime

/-- `OffsetDateTime::UNIX_EPOCH`. -/
def epoch : DateTime := ⟨0, 0⟩

/-- Smallest and largest timestamp accepted by `OffsetDateTime::from_unix_timestamp` in the `time` crate
without the `large-dates` feature (years -9999 to 9999); Cargo.toml of `sia` enables only serde,
formatting and parsing. -/
def minSecs : Int := -377705116800
def maxSecs : Int := 253402300799

/-- `OffsetDateTime::from_unix_timestamp`. -/
def fromUnix (t : Int) : Option DateTime :=
  if minSecs ≤ t ∧ t ≤ maxSecs then some ⟨t, 0⟩ else none

end DateTime

/-- `OffsetDateTime` (sia/src/encoding/v2.rs 61-72): `unix_timestamp()` drops the sub-second part; decoding
unwraps `from_unix_timestamp`, a panic when out of range. -/
instance : Codec v DateTime where
  encode t := leBytes 8 (BitVec.ofInt 64 t.secs).toNat
  decode := do
    let b ← numDecode 64
    match DateTime.fromUnix b.toInt with
    | some t => pure t
    | none => Dec.crash

/-- `time::Duration` as a number of nanoseconds. -/
structure Duration where
  ns : Int
  deriving DecidableEq, Repr

/-- `Duration` (sia/src/encoding/v2.rs 74-88): `whole_nanoseconds() as u64` wraps; decoding rejects values
above `i64::MAX`. -/
instance : Codec v Duration where
  encode d := leBytes 8 (BitVec.ofInt 64 d.ns).toNat
  decode := do
    let b ← numDecode 64
    if b.toNat > 2 ^ 63 - 1 then Dec.fail .invalidValue
    else pure ⟨(b.toNat : Int)⟩

/-- `Currency(u128)`, an amount in hastings (sia/src/types/currency.rs 14-16). -/
structure Currency where
  val : U128
  deriving DecidableEq, Repr

/-- Index of the first non-zero byte, or the length (sia/src/types/currency.rs 80-84); here directly the
remaining slice `currency_buf[i..]`. -/
def stripZeros (l : List UInt8) : List UInt8 := l.dropWhile (· == 0)

/-- Currency (sia/src/types/currency.rs 77-114): v1 is the big-endian value without leading zeros as a
slice; v2 is sixteen little-endian bytes. -/
instance : Codec v Currency where
  encode c := match v with
    | .v1 => enc .v1 (stripZeros (beBytes 16 c.val.toNat))
    | .v2 => leBytes 16 c.val.toNat
  decode := match v with
    | .v1 => do
      let len ← (dec .v1 : Dec U64)
      if len.toNat > 16 then Dec.fail .invalidLength
      else do
        let buf ← readExact len.toNat
        pure ⟨BitVec.ofNat 128 (beVal (List.replicate (16 - len.toNat) 0 ++ buf.1))⟩
    | .v2 => do
      let buf ← readExact 16
      pure ⟨BitVec.ofNat 128 (leVal buf.1)⟩

/-- `Work`, a 256-bit unsigned integer (sia/src/types/work.rs 6-9). -/
structure Work where
  val : U256
  deriving DecidableEq, Repr

/-- Work (sia/src/types/work.rs 17-41): 32 big-endian bytes; the v2 decoder replaces the error. -/
instance : Codec v Work where
  encode w := beBytes 32 w.val.toNat
  decode := do
    let b ← match v with
      | .v1 => (readExact 32)
      | .v2 => (readExact 32).mapErr .custom
    pure ⟨BitVec.ofNat 256 (beVal b.1)⟩

end Verif
