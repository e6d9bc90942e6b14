import Verif.Model.V2
import Verif.Model.Consensus

/-!
# The decoders on targets with other pointer widths

`usize` is decoded as `u64::from_le_bytes(buf) as usize`, which on 32-bit targets (such as wasm32) keeps the low 32 bits.  Lengths of vectors and of v1
currencies and the indices of covered fields are `usize`.  `dec` is the decoder on 64-bit targets; here the conversion is a parameter.
-/

namespace Verif

/-- How a `u64` becomes a `usize`; `none` is an error, which only the repair has. -/
abbrev ToUsize := U64 → Option U64

namespace ToUsize

/-- `as usize` on 64-bit targets. -/
def wide : ToUsize := some

/-- `as usize` on 32-bit targets. -/
def narrow : ToUsize := fun x => some ((x.setWidth 32).setWidth 64)

/-- `usize::try_from` on 32-bit targets, not in the code. -/
def checked : ToUsize := fun x => if x.toNat < 2 ^ 32 then some x else none

end ToUsize

/-- `decode_v1`/`decode` with the conversion to `usize` as a parameter. -/
class Widths (v : Ver) (α : Type) where
  decodeAs : ToUsize → Dec α

/-- `α::decode_v1(r)` / `α::decode(r)`. -/
def decAs (v : Ver) {α : Type} [Widths v α] (T : ToUsize) : Dec α := Widths.decodeAs v T

variable {v : Ver} {α β : Type}

/-- `usize` in `impl_sia_numeric!` (sia/src/encoding/v1.rs 87-93, v2.rs 133-139). -/
def decUsize (T : ToUsize) : Dec U64 := do
  let x ← numDecode 64
  match T x with
  | some y => pure y
  | none => Dec.fail .invalidLength

/-- `Vec<T>` (sia/src/encoding/v1.rs 113-125, v2.rs 159-171). -/
def decVec (T : ToUsize) (d : Dec α) : Dec (List α) := do
  let len ← decUsize T
  Dec.reserve len.toNat
  decodeN d len.toNat

/-! Types without lengths and indices. -/

instance : Widths v UInt8 := ⟨fun _ => dec v⟩
instance : Widths v Bool := ⟨fun _ => dec v⟩
instance : Widths v U64 := ⟨fun _ => dec v⟩
instance {n : Nat} : Widths v (Arr n) := ⟨fun _ => dec v⟩
instance : Widths v DateTime := ⟨fun _ => dec v⟩
instance : Widths v Duration := ⟨fun _ => dec v⟩
instance : Widths v Work := ⟨fun _ => dec v⟩

instance [Widths v α] : Widths v (List α) := ⟨fun T => decVec T (decAs v T)⟩

/-- `Option<T>` (sia/src/encoding/v1.rs 66-75, v2.rs 112-121). -/
instance [Widths v α] : Widths v (Option α) where
  decodeAs T := do
    let has ← (dec v : Dec Bool)
    if has then do
      let a ← decAs v T
      pure (some a)
    else pure none

/-- `String` (sia/src/encoding/v1.rs 133-138, v2.rs 179-184). -/
instance : Widths v String where
  decodeAs T := do
    let buf ← (decAs v T : Dec (List UInt8))
    match strOfBytes buf with
    | some s => pure s
    | none => Dec.fail .invalidLength

/-- Two consecutive fields of a derived struct (sia_derive/src/lib.rs 53-98, 147-190). -/
instance [Widths v α] [Widths v β] : Widths v (α × β) where
  decodeAs T := do
    let a ← decAs v T
    let b ← decAs v T
    pure (a, b)

/-- A derived decoder (sia_derive/src/lib.rs 53-98, 147-190). -/
instance (priority := low) [Struct α β] [Widths v β] : Widths v α where
  decodeAs T := do
    let b ← decAs v T
    pure (Struct.build b)

/-- `Currency` (sia/src/types/currency.rs 89-99, 108-114): the length of a v1 currency is a `usize`. -/
instance : Widths v Currency where
  decodeAs T := match v with
    | .v1 => do
      let len ← decUsize T
      if len.toNat > 16 then Dec.fail .invalidLength
      else do
        let buf ← readExact len.toNat
        pure ⟨BitVec.ofNat 128 (beVal (List.replicate (16 - len.toNat) 0 ++ buf.1))⟩
    | .v2 => dec .v2

/-- `SiafundOutput` (sia/src/types/common.rs 313, 329-339). -/
instance : Widths v SiafundOutput where
  decodeAs T := match v with
    | .v1 => do
      let c ← (decAs .v1 T : Dec Currency)
      match c.toU64? with
      | none => Dec.fail .custom
      | some value => do
        let address ← (decAs .v1 T : Dec Address)
        let _ ← (decAs .v1 T : Dec Currency)
        pure ⟨value, address⟩
    | .v2 => dec .v2

instance : Widths v ChainIndex := inferInstance
instance : Widths v SiacoinOutput := inferInstance
instance : Widths v StateElement := inferInstance
instance : Widths v UnlockKey := inferInstance
instance : Widths v UnlockConditions := inferInstance
instance : Widths v V1.SiacoinInput := inferInstance
instance : Widths v V1.SiafundInput := inferInstance
instance : Widths v V1.FileContract := inferInstance
instance : Widths v V1.FileContractRevision := inferInstance
instance : Widths v V1.StorageProof := inferInstance

/-- `CoveredFields` (sia/src/types/v1.rs 230-263): the indices are `usize`. -/
instance : Widths v V1.CoveredFields where
  decodeAs T := do
    let a ← (dec v : Dec Bool)
    let b ← decVec T (decUsize T)
    let c ← decVec T (decUsize T)
    let d ← decVec T (decUsize T)
    let e ← decVec T (decUsize T)
    let f ← decVec T (decUsize T)
    let g ← decVec T (decUsize T)
    let h ← decVec T (decUsize T)
    let i ← decVec T (decUsize T)
    let j ← decVec T (decUsize T)
    let k ← decVec T (decUsize T)
    pure ⟨a, b, c, d, e, f, g, h, i, j, k⟩

instance : Widths v V1.TransactionSignature := inferInstance
instance : Widths v V1.Transaction := inferInstance
/-- `Block` (sia/src/types/common.rs 190-205). -/
instance : Widths v Block := inferInstance

/-- `decode_policy` (sia/src/types/spendpolicy.rs 349-379).  The number of policies is a `u8`. -/
def SpendPolicy.decodePolicyAs (T : ToUsize) : Nat → Dec SpendPolicy
  | 0 => Dec.crash
  | k + 1 => do
    let ty ← (dec .v2 : Dec UInt8)
    if ty = 1 then do
      let h ← dec .v2
      pure (.above h)
    else if ty = 2 then do
      let secs ← (dec .v2 : Dec U64)
      match DateTime.fromUnix secs.toInt with
      | some t => pure (.after t)
      | none => Dec.fail .custom
    else if ty = 3 then do
      let pk ← dec .v2
      pure (.publicKey pk)
    else if ty = 4 then do
      let h ← dec .v2
      pure (.hash h)
    else if ty = 5 then do
      let of ← (dec .v2 : Dec UInt8)
      let n ← (dec .v2 : Dec UInt8)
      Dec.reserve n.toNat
      let ps ← decodeN (decodePolicyAs T k) n.toNat
      pure (.threshold of ps)
    else if ty = 6 then do
      let a ← dec .v2
      pure (.opaqueAddr a)
    else if ty = 7 then do
      let uc ← decAs .v2 T
      pure (.unlockConditions uc)
    else Dec.fail .custom

/-- `SpendPolicy` (sia/src/types/spendpolicy.rs 345-388). -/
instance : Widths v SpendPolicy where
  decodeAs T := do
    let ver ← (dec .v2 : Dec UInt8)
    if ver ≠ 1 then Dec.fail .custom
    else fun lim bs => SpendPolicy.decodePolicyAs T lim.stack lim bs

instance : Widths v SatisfiedPolicy := inferInstance
instance : Widths v V2.Attestation := inferInstance
instance : Widths v V2.FileContract := inferInstance
instance : Widths v V2.SiacoinElement := inferInstance
instance : Widths v V2.SiafundElement := inferInstance
instance : Widths v V2.FileContractElement := inferInstance
instance : Widths v V2.ChainIndexElement := inferInstance
instance : Widths v V2.SiacoinInput := inferInstance
instance : Widths v V2.SiafundInput := inferInstance
instance : Widths v V2.FileContractRevision := inferInstance
instance : Widths v V2.FileContractRenewal := inferInstance
instance : Widths v V2.StorageProof := inferInstance

/-- `FileContractResolution` (sia/src/types/v2.rs 342-357). -/
instance : Widths v V2.FileContractResolution where
  decodeAs T := do
    let parent ← decAs v T
    let tag ← (dec v : Dec UInt8)
    if tag = 0 then do
      let r ← decAs v T
      pure ⟨parent, .renewal r⟩
    else if tag = 1 then do
      let p ← decAs v T
      pure ⟨parent, .storageProof p⟩
    else if tag = 2 then pure ⟨parent, .expiration⟩
    else Dec.fail .custom

open V2.Transaction in
/-- v2 transaction (sia/src/types/v2.rs 592-651). -/
instance : Widths v V2.Transaction where
  decodeAs T := do
    let version ← (dec v : Dec UInt8)
    if version ≠ 2 then Dec.fail .custom
    else do
      let fields ← (dec v : Dec U64)
      let siacoinInputs ← decodeField fields 1 (decAs v T) []
      let siacoinOutputs ← decodeField fields 2 (decAs v T) []
      let siafundInputs ← decodeField fields 4 (decAs v T) []
      let siafundOutputs ← decodeField fields 8 (decAs v T) []
      let fileContracts ← decodeField fields 16 (decAs v T) []
      let fileContractRevisions ← decodeField fields 32 (decAs v T) []
      let fileContractResolutions ← decodeField fields 64 (decAs v T) []
      let attestations ← decodeField fields 128 (decAs v T) []
      let arbitraryData ← decodeField fields 256 (decAs v T) []
      let newFoundationAddress ← decodeField fields 512 (do let a ← decAs v T; pure (some a)) none
      let minerFee ← decodeField fields 1024 (decAs v T) ⟨0⟩
      pure { siacoinInputs, siacoinOutputs, siafundInputs, siafundOutputs, fileContracts, fileContractRevisions,
             fileContractResolutions, attestations, arbitraryData, newFoundationAddress, minerFee }

end Verif
