import Verif.Model.V2
import Verif.Model.Consensus

/-!
# Decoders that do not panic, not in the code

The decoders of the code panic on machines with limits (C10).  The decoders here differ from them in four places: a vector grows with the elements read
instead of being reserved from its length prefix, a timestamp out of range is an error, policies nested deeper than a chosen number are an error, and so
is the maximal height of a chain state.
-/

namespace Verif

/-- A decoder with a limit on the nesting of policies. -/
class Careful (v : Ver) (α : Type) where
  decodeSafe : Nat → Dec α

/-- The repaired `α::decode_v1(r)` / `α::decode(r)`; policies may be nested `D` deep. -/
def decSafe (v : Ver) {α : Type} [Careful v α] (D : Nat) : Dec α := Careful.decodeSafe v D

variable {v : Ver} {α β : Type}

/-- `for _ in 0..n { vec.push(T::decode(r)?) }` into a vector holding `k` elements.  A push may have to grow the vector, to at least eight elements or to
twice its size.  Simplification: growing is asked for at every push, whether the vector is full or not. -/
def pushN (d : Dec α) : Nat → Nat → Dec (List α)
  | _, 0 => pure []
  | k, n + 1 => do
    let a ← d
    Dec.reserve (max 8 (2 * k))
    let as ← pushN d (k + 1) n
    pure (a :: as)

/-! Types without vectors, timestamps and policies: the decoders of the code. -/

instance : Careful v UInt8 := ⟨fun _ => dec v⟩
instance : Careful v Bool := ⟨fun _ => dec v⟩
instance : Careful v U64 := ⟨fun _ => dec v⟩
instance {n : Nat} : Careful v (Arr n) := ⟨fun _ => dec v⟩
instance : Careful v Duration := ⟨fun _ => dec v⟩
instance : Careful v Work := ⟨fun _ => dec v⟩
instance : Careful v Currency := ⟨fun _ => dec v⟩
instance : Careful v SiafundOutput := ⟨fun _ => dec v⟩
instance : Careful v ElementAccumulator := ⟨fun _ => dec v⟩

/-- `OffsetDateTime` (sia/src/encoding/v2.rs 68-72) with an error in place of `unwrap`. -/
instance : Careful v DateTime where
  decodeSafe _ := do
    let b ← numDecode 64
    match DateTime.fromUnix b.toInt with
    | some t => pure t
    | none => Dec.fail .custom

/-- `Vec<T>` (sia/src/encoding/v1.rs 113-125, v2.rs 159-171) with `Vec::new()` in place of `Vec::with_capacity(len)`. -/
instance [Careful v α] : Careful v (List α) where
  decodeSafe D := do
    let len ← (dec v : Dec U64)
    pushN (decSafe v D) 0 len.toNat

/-- `Option<T>` (sia/src/encoding/v1.rs 66-75, v2.rs 112-121). -/
instance [Careful v α] : Careful v (Option α) where
  decodeSafe D := do
    let has ← (dec v : Dec Bool)
    if has then do
      let a ← decSafe v D
      pure (some a)
    else pure none

/-- `String` (sia/src/encoding/v1.rs 133-138, v2.rs 179-184). -/
instance : Careful v String where
  decodeSafe D := do
    let buf ← (decSafe v D : Dec (List UInt8))
    match strOfBytes buf with
    | some s => pure s
    | none => Dec.fail .invalidLength

/-- Two consecutive fields of a derived struct (sia_derive/src/lib.rs 53-98, 147-190). -/
instance [Careful v α] [Careful v β] : Careful v (α × β) where
  decodeSafe D := do
    let a ← decSafe v D
    let b ← decSafe v D
    pure (a, b)

/-- A derived decoder (sia_derive/src/lib.rs 53-98, 147-190). -/
instance (priority := low) [Struct α β] [Careful v β] : Careful v α where
  decodeSafe D := do
    let b ← decSafe v D
    pure (Struct.build b)

instance : Careful v ChainIndex := inferInstance
instance : Careful v SiacoinOutput := inferInstance
instance : Careful v StateElement := inferInstance
instance : Careful v UnlockKey := inferInstance
instance : Careful v UnlockConditions := inferInstance
instance : Careful v V1.SiacoinInput := inferInstance
instance : Careful v V1.SiafundInput := inferInstance
instance : Careful v V1.FileContract := inferInstance
instance : Careful v V1.FileContractRevision := inferInstance
instance : Careful v V1.StorageProof := inferInstance
instance : Careful v V1.CoveredFields := inferInstance
instance : Careful v V1.TransactionSignature := inferInstance
instance : Careful v V1.Transaction := inferInstance
/-- `Block` (sia/src/types/common.rs 190-205). -/
instance : Careful v Block := inferInstance

/-- `decode_policy` (sia/src/types/spendpolicy.rs 349-379) with the number of nested policies still allowed as first argument and the number of nested
calls the stack has room for as second. -/
def SpendPolicy.decodePolicySafe : Nat → Nat → Dec SpendPolicy
  | 0, _ => Dec.fail .custom
  | _ + 1, 0 => Dec.crash
  | k + 1, s + 1 => do
    let ty ← (dec .v2 : Dec UInt8)
    if ty = 1 then do
      let h ← dec .v2
      pure (.above h)
    else if ty = 2 then do
      let secs ← (dec .v2 : Dec U64)
      match DateTime.fromUnix secs.toInt with
      | some t => pure (.after t)
      | none => Dec.fail .custom
    else if ty = 3 then do
      let pk ← dec .v2
      pure (.publicKey pk)
    else if ty = 4 then do
      let h ← dec .v2
      pure (.hash h)
    else if ty = 5 then do
      let of ← (dec .v2 : Dec UInt8)
      let n ← (dec .v2 : Dec UInt8)
      let ps ← pushN (decodePolicySafe k s) 0 n.toNat
      pure (.threshold of ps)
    else if ty = 6 then do
      let a ← dec .v2
      pure (.opaqueAddr a)
    else if ty = 7 then do
      let uc ← decSafe .v2 k
      pure (.unlockConditions uc)
    else Dec.fail .custom

/-- `SpendPolicy` (sia/src/types/spendpolicy.rs 345-388). -/
instance : Careful v SpendPolicy where
  decodeSafe D := do
    let ver ← (dec .v2 : Dec UInt8)
    if ver ≠ 1 then Dec.fail .custom
    else fun lim bs => SpendPolicy.decodePolicySafe D lim.stack lim bs

instance : Careful v SatisfiedPolicy := inferInstance
instance : Careful v V2.Attestation := inferInstance
instance : Careful v V2.FileContract := inferInstance
instance : Careful v V2.SiacoinElement := inferInstance
instance : Careful v V2.SiafundElement := inferInstance
instance : Careful v V2.FileContractElement := inferInstance
instance : Careful v V2.ChainIndexElement := inferInstance
instance : Careful v V2.SiacoinInput := inferInstance
instance : Careful v V2.SiafundInput := inferInstance
instance : Careful v V2.FileContractRevision := inferInstance
instance : Careful v V2.FileContractRenewal := inferInstance
instance : Careful v V2.StorageProof := inferInstance

/-- `FileContractResolution` (sia/src/types/v2.rs 342-357). -/
instance : Careful v V2.FileContractResolution where
  decodeSafe D := do
    let parent ← decSafe v D
    let tag ← (dec v : Dec UInt8)
    if tag = 0 then do
      let r ← decSafe v D
      pure ⟨parent, .renewal r⟩
    else if tag = 1 then do
      let p ← decSafe v D
      pure ⟨parent, .storageProof p⟩
    else if tag = 2 then pure ⟨parent, .expiration⟩
    else Dec.fail .custom

open V2.Transaction in
/-- v2 transaction (sia/src/types/v2.rs 592-651). -/
instance : Careful v V2.Transaction where
  decodeSafe D := do
    let version ← (dec v : Dec UInt8)
    if version ≠ 2 then Dec.fail .custom
    else do
      let fields ← (dec v : Dec U64)
      let siacoinInputs ← decodeField fields 1 (decSafe v D) []
      let siacoinOutputs ← decodeField fields 2 (decSafe v D) []
      let siafundInputs ← decodeField fields 4 (decSafe v D) []
      let siafundOutputs ← decodeField fields 8 (decSafe v D) []
      let fileContracts ← decodeField fields 16 (decSafe v D) []
      let fileContractRevisions ← decodeField fields 32 (decSafe v D) []
      let fileContractResolutions ← decodeField fields 64 (decSafe v D) []
      let attestations ← decodeField fields 128 (decSafe v D) []
      let arbitraryData ← decodeField fields 256 (decSafe v D) []
      let newFoundationAddress ← decodeField fields 512 (do let a ← decSafe v D; pure (some a)) none
      let minerFee ← decodeField fields 1024 (decSafe v D) ⟨0⟩
      pure { siacoinInputs, siacoinOutputs, siafundInputs, siafundOutputs, fileContracts, fileContractRevisions,
             fileContractResolutions, attestations, arbitraryData, newFoundationAddress, minerFee }

/-- `State::decode` (sia/src/consensus.rs 403-440) with `checked_add` for the height of the child. -/
def State.decodeSafe (D : Nat) : Dec State := do
  let index ← (dec .v2 : Dec ChainIndex)
  if index.height.toNat = 2 ^ 64 - 1 then Dec.fail .custom
  else do
    let count := if index.height.toNat + 1 < 11 then index.height.toNat + 1 else 11
    let prevTimestamps ← decodeSlots (fun i => decide (i < count)) (decSafe .v2 D) DateTime.epoch 0 11
    let (a, b, c, d, e, f, g, h, i, j, k, l) ← (dec .v2 : Dec Tail)
    pure ⟨index, prevTimestamps, a, b, c, d, e, f, g, h, i, j, k, l⟩

end Verif
