import Verif.Model.V2
import Verif.Model.Consensus

/-!
# The memory that decoders ask for

The decoders of `Model/Codec`, `Model/Types`, `Model/Policy` and `Model/V2` once more, now with an account of the bytes requested from the allocator.  In the
code every request of a decoder comes from `Vec::with_capacity(len)`, `len` having been read from the input (sia/src/encoding/v1.rs 119, v2.rs 165,
sia/src/types/spendpolicy.rs 366).  Simplification: the texts of error messages are not counted.
-/

namespace Verif

/-- A machine: the largest number of bytes that one request can get, and the number of nested calls of a recursive decoder that fit on the stack. -/
structure Machine where
  bytes : Nat
  stack : Nat
  deriving DecidableEq

/-- How vectors get their memory.  `size`: `size_of` of the structs of the crate, by name (rustc chooses it).  `grow`: the code reserves a vector from its
length prefix (`false`); with `Vec::new()` in place of `Vec::with_capacity(len)` it would grow with the elements read (`true`, not in the code). -/
structure Alloc where
  size : String → Nat
  grow : Bool

/-- A decoder with an account: the bytes asked for, whatever the outcome, and the outcome. -/
def Met (α : Type) : Type := Machine → List UInt8 → Nat × Res (α × List UInt8)

namespace Met

protected def pure {α : Type} (a : α) : Met α := fun _ bs => (0, .ok (a, bs))

protected def bind {α β : Type} (d : Met α) (f : α → Met β) : Met β := fun M bs =>
  match d M bs with
  | (c, .ok (a, r)) => (c + (f a M r).1, (f a M r).2)
  | (c, .err e) => (c, .err e)
  | (c, .panic) => (c, .panic)

instance : Monad Met where
  pure := Met.pure
  bind := Met.bind

def fail {α : Type} (e : Err) : Met α := fun _ _ => (0, .err e)
def crash {α : Type} : Met α := fun _ _ => (0, .panic)

/-- A decoder that asks for no memory: it runs on a machine that has none. -/
def quiet {α : Type} (d : Dec α) : Met α := fun M bs => (0, d ⟨0, M.stack⟩ bs)

/-- A request for `n` bytes. -/
def ask (n : Nat) : Met Unit := fun M bs => (n, if n ≤ M.bytes then .ok ((), bs) else .panic)

end Met

/-- `size_of::<T>()` for the types that occur in vectors. -/
class ElemSize (α : Type) where
  size : Alloc → Nat

instance : ElemSize UInt8 := ⟨fun _ => 1⟩
/-- `usize`, `u64`. -/
instance : ElemSize U64 := ⟨fun _ => 8⟩
instance : ElemSize Currency := ⟨fun _ => 16⟩
/-- `Hash256`, `Address`. -/
instance : ElemSize (Arr 32) := ⟨fun _ => 32⟩
/-- `Signature`. -/
instance : ElemSize (Arr 64) := ⟨fun _ => 64⟩
/-- `Vec<u8>`: pointer, capacity and length. -/
instance {α : Type} : ElemSize (List α) := ⟨fun _ => 24⟩
instance : ElemSize SiacoinOutput := ⟨fun A => A.size "SiacoinOutput"⟩
instance : ElemSize SiafundOutput := ⟨fun A => A.size "SiafundOutput"⟩
instance : ElemSize UnlockKey := ⟨fun A => A.size "UnlockKey"⟩
instance : ElemSize SpendPolicy := ⟨fun A => A.size "SpendPolicy"⟩
instance : ElemSize V1.SiacoinInput := ⟨fun A => A.size "v1::SiacoinInput"⟩
instance : ElemSize V1.SiafundInput := ⟨fun A => A.size "v1::SiafundInput"⟩
instance : ElemSize V1.FileContract := ⟨fun A => A.size "v1::FileContract"⟩
instance : ElemSize V1.FileContractRevision := ⟨fun A => A.size "v1::FileContractRevision"⟩
instance : ElemSize V1.StorageProof := ⟨fun A => A.size "v1::StorageProof"⟩
instance : ElemSize V1.TransactionSignature := ⟨fun A => A.size "v1::TransactionSignature"⟩
instance : ElemSize V1.Transaction := ⟨fun A => A.size "v1::Transaction"⟩
instance : ElemSize V2.SiacoinInput := ⟨fun A => A.size "v2::SiacoinInput"⟩
instance : ElemSize V2.SiafundInput := ⟨fun A => A.size "v2::SiafundInput"⟩
instance : ElemSize V2.FileContract := ⟨fun A => A.size "v2::FileContract"⟩
instance : ElemSize V2.FileContractRevision := ⟨fun A => A.size "v2::FileContractRevision"⟩
instance : ElemSize V2.FileContractResolution := ⟨fun A => A.size "v2::FileContractResolution"⟩
instance : ElemSize V2.Attestation := ⟨fun A => A.size "Attestation"⟩

/-- `RawVec::grow_amortized` of the standard library: the capacity that a full vector gets for one more element. -/
def grownCap (size cap : Nat) : Nat :=
  max (max (2 * cap) (cap + 1)) (if size = 1 then 8 else if size ≤ 1024 then 4 else 1)

/-- `for _ in 0..n { vec.push(T::decode(r)?) }` into a reserved vector (sia/src/encoding/v1.rs 120-122). -/
def metN {α : Type} (d : Met α) : Nat → Met (List α)
  | 0 => pure []
  | n + 1 => do
    let a ← d
    let as ← metN d n
    pure (a :: as)

/-- The same loop into a vector with `k` elements and room for `cap`, which grows when it is full. -/
def metPush {α : Type} (size : Nat) (d : Met α) : Nat → Nat → Nat → Met (List α)
  | _, _, 0 => pure []
  | cap, k, n + 1 => do
    let a ← d
    if k = cap then do
      Met.ask (grownCap size cap * size)
      let as ← metPush size d (grownCap size cap) (k + 1) n
      pure (a :: as)
    else do
      let as ← metPush size d cap (k + 1) n
      pure (a :: as)

/-- `n` elements of `size` bytes into a new vector. -/
def metVec {α : Type} (A : Alloc) (size : Nat) (d : Met α) (n : Nat) : Met (List α) :=
  if A.grow then metPush size d 0 0 n
  else do
    Met.ask (n * size)
    metN d n

/-- A type's decoder with account. -/
class Metered (v : Ver) (α : Type) where
  decodeMet : Alloc → Met α

/-- `α::decode_v1(r)` / `α::decode(r)` with account. -/
def met (v : Ver) {α : Type} [Metered v α] (A : Alloc) : Met α := Metered.decodeMet v A

variable {v : Ver} {α β : Type}

/-! Types without vectors and policies ask for nothing. -/

instance : Metered v UInt8 := ⟨fun _ => .quiet (dec v)⟩
instance : Metered v Bool := ⟨fun _ => .quiet (dec v)⟩
instance : Metered v U64 := ⟨fun _ => .quiet (dec v)⟩
instance {n : Nat} : Metered v (Arr n) := ⟨fun _ => .quiet (dec v)⟩
instance : Metered v DateTime := ⟨fun _ => .quiet (dec v)⟩
instance : Metered v Duration := ⟨fun _ => .quiet (dec v)⟩
instance : Metered v Work := ⟨fun _ => .quiet (dec v)⟩
instance : Metered v Currency := ⟨fun _ => .quiet (dec v)⟩
instance : Metered v SiafundOutput := ⟨fun _ => .quiet (dec v)⟩
instance : Metered v ElementAccumulator := ⟨fun _ => .quiet (dec v)⟩

/-- `Vec<T>` (sia/src/encoding/v1.rs 113-125, v2.rs 159-171). -/
instance [ElemSize α] [Metered v α] : Metered v (List α) where
  decodeMet A := do
    let len ← (met v A : Met U64)
    metVec A (ElemSize.size α A) (met v A) len.toNat

/-- `Option<T>` (sia/src/encoding/v1.rs 66-75, v2.rs 112-121). -/
instance [Metered v α] : Metered v (Option α) where
  decodeMet A := do
    let has ← (met v A : Met Bool)
    if has then do
      let a ← met v A
      pure (some a)
    else pure none

/-- `String` (sia/src/encoding/v1.rs 133-138, v2.rs 179-184): `from_utf8` keeps the buffer. -/
instance : Metered v String where
  decodeMet A := do
    let buf ← (met v A : Met (List UInt8))
    match strOfBytes buf with
    | some s => pure s
    | none => Met.fail .invalidLength

/-- Two consecutive fields of a derived struct (sia_derive/src/lib.rs 53-98, 147-190). -/
instance [Metered v α] [Metered v β] : Metered v (α × β) where
  decodeMet A := do
    let a ← met v A
    let b ← met v A
    pure (a, b)

/-- A derived decoder (sia_derive/src/lib.rs 53-98, 147-190). -/
instance (priority := low) [Struct α β] [Metered v β] : Metered v α where
  decodeMet A := do
    let b ← met v A
    pure (Struct.build b)

instance : Metered v ChainIndex := inferInstance
instance : Metered v SiacoinOutput := inferInstance
instance : Metered v StateElement := inferInstance
instance : Metered v UnlockKey := inferInstance
instance : Metered v UnlockConditions := inferInstance
instance : Metered v V1.SiacoinInput := inferInstance
instance : Metered v V1.SiafundInput := inferInstance
instance : Metered v V1.FileContract := inferInstance
instance : Metered v V1.FileContractRevision := inferInstance
instance : Metered v V1.StorageProof := inferInstance
instance : Metered v V1.CoveredFields := inferInstance
instance : Metered v V1.TransactionSignature := inferInstance
instance : Metered v V1.Transaction := inferInstance
/-- `Block` (sia/src/types/common.rs 190-205). -/
instance : Metered v Block := inferInstance

/-- `decode_policy` (sia/src/types/spendpolicy.rs 349-379); the second argument is the number of nested calls the stack still has room for. -/
def SpendPolicy.metPolicy (A : Alloc) : Nat → Met SpendPolicy
  | 0 => Met.crash
  | k + 1 => do
    let ty ← (met .v2 A : Met UInt8)
    if ty = 1 then do
      let h ← met .v2 A
      pure (.above h)
    else if ty = 2 then do
      let secs ← (met .v2 A : Met U64)
      match DateTime.fromUnix secs.toInt with
      | some t => pure (.after t)
      | none => Met.fail .custom
    else if ty = 3 then do
      let pk ← met .v2 A
      pure (.publicKey pk)
    else if ty = 4 then do
      let h ← met .v2 A
      pure (.hash h)
    else if ty = 5 then do
      let of ← (met .v2 A : Met UInt8)
      let n ← (met .v2 A : Met UInt8)
      let ps ← metVec A (ElemSize.size SpendPolicy A) (metPolicy A k) n.toNat
      pure (.threshold of ps)
    else if ty = 6 then do
      let a ← met .v2 A
      pure (.opaqueAddr a)
    else if ty = 7 then do
      let uc ← met .v2 A
      pure (.unlockConditions uc)
    else Met.fail .custom

/-- `SpendPolicy` (sia/src/types/spendpolicy.rs 345-388). -/
instance : Metered v SpendPolicy where
  decodeMet A := do
    let ver ← (met .v2 A : Met UInt8)
    if ver ≠ 1 then Met.fail .custom
    else fun M bs => SpendPolicy.metPolicy A M.stack M bs

instance : Metered v SatisfiedPolicy := inferInstance
instance : Metered v V2.Attestation := inferInstance
instance : Metered v V2.FileContract := inferInstance
instance : Metered v V2.SiacoinElement := inferInstance
instance : Metered v V2.SiafundElement := inferInstance
instance : Metered v V2.FileContractElement := inferInstance
instance : Metered v V2.ChainIndexElement := inferInstance
instance : Metered v V2.SiacoinInput := inferInstance
instance : Metered v V2.SiafundInput := inferInstance
instance : Metered v V2.FileContractRevision := inferInstance
instance : Metered v V2.FileContractRenewal := inferInstance
instance : Metered v V2.StorageProof := inferInstance

/-- `FileContractResolution` (sia/src/types/v2.rs 342-357). -/
instance : Metered v V2.FileContractResolution where
  decodeMet A := do
    let parent ← met v A
    let tag ← (met v A : Met UInt8)
    if tag = 0 then do
      let r ← met v A
      pure ⟨parent, .renewal r⟩
    else if tag = 1 then do
      let p ← met v A
      pure ⟨parent, .storageProof p⟩
    else if tag = 2 then pure ⟨parent, .expiration⟩
    else Met.fail .custom

/-- `if fields & m != 0 { txn.f = T::decode(r)?; }` (sia/src/types/v2.rs 616-648). -/
def metField {α : Type} (fields mask : U64) (d : Met α) (default : α) : Met α :=
  if fields &&& mask ≠ 0 then d else pure default

/-- v2 transaction (sia/src/types/v2.rs 592-651). -/
instance : Metered v V2.Transaction where
  decodeMet A := do
    let version ← (met v A : Met UInt8)
    if version ≠ 2 then Met.fail .custom
    else do
      let fields ← (met v A : Met U64)
      let siacoinInputs ← metField fields 1 (met v A) []
      let siacoinOutputs ← metField fields 2 (met v A) []
      let siafundInputs ← metField fields 4 (met v A) []
      let siafundOutputs ← metField fields 8 (met v A) []
      let fileContracts ← metField fields 16 (met v A) []
      let fileContractRevisions ← metField fields 32 (met v A) []
      let fileContractResolutions ← metField fields 64 (met v A) []
      let attestations ← metField fields 128 (met v A) []
      let arbitraryData ← metField fields 256 (met v A) []
      let newFoundationAddress ← metField fields 512 (do let a ← met v A; pure (some a)) none
      let minerFee ← metField fields 1024 (met v A) ⟨0⟩
      pure { siacoinInputs, siacoinOutputs, siafundInputs, siafundOutputs, fileContracts, fileContractRevisions,
             fileContractResolutions, attestations, arbitraryData, newFoundationAddress, minerFee }

end Verif
