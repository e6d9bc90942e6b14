import Verif.Model.Codec

/-!
# Types shared by both transaction versions, and the v1 transaction

All the 32-byte newtypes made by `impl_hash_id!` (sia/src/macros.rs 3-104) derive the same codecs: the bytes.
They are one type here.
-/

namespace Verif

variable {v : Ver}

/-- `Hash256`, made by `impl_hash_id!` (sia/src/types/common.rs 17). -/
abbrev Hash256 := Arr 32
/-- `SiacoinOutputID` (sia/src/types/common.rs 18). -/
abbrev SiacoinOutputID := Arr 32
/-- `SiafundOutputID` (sia/src/types/common.rs 21). -/
abbrev SiafundOutputID := Arr 32
/-- `AttestationID` (sia/src/types/common.rs 19). -/
abbrev AttestationID := Arr 32
/-- `BlockID` (sia/src/types/common.rs 39). -/
abbrev BlockID := Arr 32
/-- `TransactionID` (sia/src/types/common.rs 59). -/
abbrev TransactionID := Arr 32
/-- `FileContractID` (sia/src/types/common.rs 96). -/
abbrev FileContractID := Arr 32
/-- `Address` (sia/src/types/common.rs 215). -/
abbrev Address := Arr 32
/-- `PublicKey` (sia/src/signing.rs 8-10). -/
abbrev PublicKey := Arr 32
/-- `Signature` (sia/src/signing.rs 137-140). -/
abbrev Signature := Arr 64
/-- `Specifier` (sia/src/types/specifier.rs 10-22). -/
abbrev Specifier := Arr 16
/-- `Leaf` (sia/src/types/common.rs 343). -/
abbrev Leaf := Arr 64

/-- `ChainIndex` (sia/src/types/common.rs 149-153). -/
structure ChainIndex where
  height : U64
  id : BlockID
  deriving DecidableEq, Repr

instance : Struct ChainIndex (U64 × BlockID) where
  fields x := (x.height, x.id)
  build := fun (a, b) => ⟨a, b⟩
instance : Codec v ChainIndex := inferInstance

/-- `SiacoinOutput` (sia/src/types/common.rs 302-309). -/
structure SiacoinOutput where
  value : Currency
  address : Address
  deriving DecidableEq, Repr

instance : Struct SiacoinOutput (Currency × Address) where
  fields x := (x.value, x.address)
  build := fun (a, b) => ⟨a, b⟩
instance : Codec v SiacoinOutput := inferInstance

/-- `SiafundOutput` (sia/src/types/common.rs 313-318). -/
structure SiafundOutput where
  value : U64
  address : Address
  deriving DecidableEq, Repr

/-- `Currency::new` (sia/src/types/currency.rs 149-151) of a `u64` widened to `u128`. -/
def Currency.ofU64 (x : U64) : Currency := ⟨x.setWidth 128⟩

/-- `TryInto<u64> for Currency` (sia/src/types/currency.rs 131-136). -/
def Currency.toU64? (c : Currency) : Option U64 :=
  if c.val.toNat < 2 ^ 64 then some (c.val.setWidth 64) else none

/-- SiafundOutput: v1 (sia/src/types/common.rs 320-339) writes the value as a currency, the address and a zero
claim start, and ignores the claim start when reading; v2 is derived (313). -/
instance : Codec v SiafundOutput where
  encode x := match v with
    | .v1 => enc .v1 (Currency.ofU64 x.value) ++ (enc .v1 x.address ++ enc .v1 (Currency.mk 0))
    | .v2 => enc .v2 x.value ++ enc .v2 x.address
  decode := match v with
    | .v1 => do
      let c ← (dec .v1 : Dec Currency)
      match c.toU64? with
      | none => Dec.fail .custom
      | some value => do
        let address ← (dec .v1 : Dec Address)
        let _ ← (dec .v1 : Dec Currency)
        pure ⟨value, address⟩
    | .v2 => do
      let value ← dec .v2
      let address ← dec .v2
      pure ⟨value, address⟩

/-- `StateElement` (sia/src/types/common.rs 390-395). -/
structure StateElement where
  leafIndex : U64
  merkleProof : List Hash256
  deriving DecidableEq, Repr

instance : Struct StateElement (U64 × List Hash256) where
  fields x := (x.leafIndex, x.merkleProof)
  build := fun (a, b) => ⟨a, b⟩
instance : Codec v StateElement := inferInstance

/-- `UnlockKey` (sia/src/types/v1.rs 33-37). -/
structure UnlockKey where
  algorithm : Specifier
  key : List UInt8
  deriving DecidableEq, Repr

instance : Struct UnlockKey (Specifier × List UInt8) where
  fields x := (x.algorithm, x.key)
  build := fun (a, b) => ⟨a, b⟩
instance : Codec v UnlockKey := inferInstance

/-- `UnlockConditions` (sia/src/types/v1.rs 98-106). -/
structure UnlockConditions where
  timelock : U64
  publicKeys : List UnlockKey
  signaturesRequired : U64
  deriving DecidableEq, Repr

instance : Struct UnlockConditions (U64 × List UnlockKey × U64) where
  fields x := (x.timelock, x.publicKeys, x.signaturesRequired)
  build := fun (a, b, c) => ⟨a, b, c⟩
instance : Codec v UnlockConditions := inferInstance

namespace V1

/-- `v1::SiacoinInput` (sia/src/types/v1.rs 159-165). -/
structure SiacoinInput where
  parentId : SiacoinOutputID
  unlockConditions : UnlockConditions
  deriving DecidableEq, Repr

instance : Struct SiacoinInput (SiacoinOutputID × UnlockConditions) where
  fields x := (x.parentId, x.unlockConditions)
  build := fun (a, b) => ⟨a, b⟩
instance : Codec v SiacoinInput := inferInstance

/-- `v1::SiafundInput` (sia/src/types/v1.rs 167-174). -/
structure SiafundInput where
  parentId : SiafundOutputID
  unlockConditions : UnlockConditions
  claimAddress : Address
  deriving DecidableEq, Repr

instance : Struct SiafundInput (SiafundOutputID × UnlockConditions × Address) where
  fields x := (x.parentId, x.unlockConditions, x.claimAddress)
  build := fun (a, b, c) => ⟨a, b, c⟩
instance : Codec v SiafundInput := inferInstance

/-- `v1::FileContract` (sia/src/types/v1.rs 176-189). -/
structure FileContract where
  fileSize : U64
  fileMerkleRoot : Hash256
  windowStart : U64
  windowEnd : U64
  payout : Currency
  validProofOutputs : List SiacoinOutput
  missedProofOutputs : List SiacoinOutput
  unlockHash : Address
  revisionNumber : U64
  deriving DecidableEq, Repr

instance : Struct FileContract (U64 × Hash256 × U64 × U64 × Currency × List SiacoinOutput ×
    List SiacoinOutput × Address × U64) where
  fields x := (x.fileSize, x.fileMerkleRoot, x.windowStart, x.windowEnd, x.payout, x.validProofOutputs,
    x.missedProofOutputs, x.unlockHash, x.revisionNumber)
  build := fun (a, b, c, d, e, f, g, h, i) => ⟨a, b, c, d, e, f, g, h, i⟩
instance : Codec v FileContract := inferInstance

/-- `v1::FileContractRevision` (sia/src/types/v1.rs 204-219). -/
structure FileContractRevision where
  parentId : FileContractID
  unlockConditions : UnlockConditions
  revisionNumber : U64
  fileSize : U64
  fileMerkleRoot : Hash256
  windowStart : U64
  windowEnd : U64
  validProofOutputs : List SiacoinOutput
  missedProofOutputs : List SiacoinOutput
  unlockHash : Address
  deriving DecidableEq, Repr

instance : Struct FileContractRevision (FileContractID × UnlockConditions × U64 × U64 × Hash256 × U64 × U64 ×
    List SiacoinOutput × List SiacoinOutput × Address) where
  fields x := (x.parentId, x.unlockConditions, x.revisionNumber, x.fileSize, x.fileMerkleRoot, x.windowStart,
    x.windowEnd, x.validProofOutputs, x.missedProofOutputs, x.unlockHash)
  build := fun (a, b, c, d, e, f, g, h, i, j) => ⟨a, b, c, d, e, f, g, h, i, j⟩
instance : Codec v FileContractRevision := inferInstance

/-- `v1::StorageProof` (sia/src/types/v1.rs 221-228). -/
structure StorageProof where
  parentId : FileContractID
  leaf : Leaf
  proof : List Hash256
  deriving DecidableEq, Repr

instance : Struct StorageProof (FileContractID × Leaf × List Hash256) where
  fields x := (x.parentId, x.leaf, x.proof)
  build := fun (a, b, c) => ⟨a, b, c⟩
instance : Codec v StorageProof := inferInstance

/-- `v1::CoveredFields` (sia/src/types/v1.rs 230-263); `usize` is 64-bit. -/
structure CoveredFields where
  wholeTransaction : Bool
  siacoinInputs : List U64
  siacoinOutputs : List U64
  fileContracts : List U64
  fileContractRevisions : List U64
  storageProofs : List U64
  siafundInputs : List U64
  siafundOutputs : List U64
  minerFees : List U64
  arbitraryData : List U64
  signatures : List U64
  deriving DecidableEq, Repr

instance : Struct CoveredFields (Bool × List U64 × List U64 × List U64 × List U64 × List U64 × List U64 ×
    List U64 × List U64 × List U64 × List U64) where
  fields x := (x.wholeTransaction, x.siacoinInputs, x.siacoinOutputs, x.fileContracts, x.fileContractRevisions,
    x.storageProofs, x.siafundInputs, x.siafundOutputs, x.minerFees, x.arbitraryData, x.signatures)
  build := fun (a, b, c, d, e, f, g, h, i, j, k) => ⟨a, b, c, d, e, f, g, h, i, j, k⟩
instance : Codec v CoveredFields := inferInstance

/-- `v1::TransactionSignature` (sia/src/types/v1.rs 265-275). -/
structure TransactionSignature where
  parentId : Hash256
  publicKeyIndex : U64
  timelock : U64
  coveredFields : CoveredFields
  signature : List UInt8
  deriving DecidableEq, Repr

instance : Struct TransactionSignature (Hash256 × U64 × U64 × CoveredFields × List UInt8) where
  fields x := (x.parentId, x.publicKeyIndex, x.timelock, x.coveredFields, x.signature)
  build := fun (a, b, c, d, e) => ⟨a, b, c, d, e⟩
instance : Codec v TransactionSignature := inferInstance

/-- `v1::Transaction` (sia/src/types/v1.rs 277-304). -/
structure Transaction where
  siacoinInputs : List SiacoinInput
  siacoinOutputs : List SiacoinOutput
  fileContracts : List FileContract
  fileContractRevisions : List FileContractRevision
  storageProofs : List StorageProof
  siafundInputs : List SiafundInput
  siafundOutputs : List SiafundOutput
  minerFees : List Currency
  arbitraryData : List (List UInt8)
  signatures : List TransactionSignature
  deriving DecidableEq, Repr

instance : Struct Transaction (List SiacoinInput × List SiacoinOutput × List FileContract ×
    List FileContractRevision × List StorageProof × List SiafundInput × List SiafundOutput × List Currency ×
    List (List UInt8) × List TransactionSignature) where
  fields x := (x.siacoinInputs, x.siacoinOutputs, x.fileContracts, x.fileContractRevisions, x.storageProofs,
    x.siafundInputs, x.siafundOutputs, x.minerFees, x.arbitraryData, x.signatures)
  build := fun (a, b, c, d, e, f, g, h, i, j) => ⟨a, b, c, d, e, f, g, h, i, j⟩
instance : Codec v Transaction := inferInstance

end V1

/-- `Block` (sia/src/types/common.rs 161-174). -/
structure Block where
  parentId : BlockID
  nonce : U64
  timestamp : DateTime
  minerPayouts : List SiacoinOutput
  transactions : List V1.Transaction
  deriving DecidableEq, Repr

/-- Block (sia/src/types/common.rs 176-200): the hand-written v1 codec writes all fields in order; the first
three with the v2 codec, which for them produces the same bytes as v1.  There is no v2 codec for `Block`;
the instance at `.v2` has no counterpart. -/
instance : Struct Block (BlockID × U64 × DateTime × List SiacoinOutput × List V1.Transaction) where
  fields x := (x.parentId, x.nonce, x.timestamp, x.minerPayouts, x.transactions)
  build := fun (a, b, c, d, e) => ⟨a, b, c, d, e⟩
instance : Codec v Block := inferInstance

end Verif
