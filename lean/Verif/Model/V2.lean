import Verif.Model.Policy

/-!
# The v2 transaction (sia/src/types/v2.rs)
-/

namespace Verif.V2

variable {v : Ver}

/-- `v2::Attestation` (sia/src/types/v2.rs 28-37). -/
structure Attestation where
  publicKey : PublicKey
  key : String
  value : List UInt8
  signature : Signature
  deriving DecidableEq

instance : Struct Attestation (PublicKey × String × List UInt8 × Signature) where
  fields x := (x.publicKey, x.key, x.value, x.signature)
  build := fun (a, b, c, d) => ⟨a, b, c, d⟩
instance : Codec v Attestation := inferInstance

/-- `v2::FileContract` (sia/src/types/v2.rs 60-78). -/
structure FileContract where
  capacity : U64
  filesize : U64
  fileMerkleRoot : Hash256
  proofHeight : U64
  expirationHeight : U64
  renterOutput : SiacoinOutput
  hostOutput : SiacoinOutput
  missedHostValue : Currency
  totalCollateral : Currency
  renterPublicKey : PublicKey
  hostPublicKey : PublicKey
  revisionNumber : U64
  renterSignature : Signature
  hostSignature : Signature
  deriving DecidableEq

instance : Struct FileContract (U64 × U64 × Hash256 × U64 × U64 × SiacoinOutput × SiacoinOutput × Currency ×
    Currency × PublicKey × PublicKey × U64 × Signature × Signature) where
  fields x := (x.capacity, x.filesize, x.fileMerkleRoot, x.proofHeight, x.expirationHeight, x.renterOutput,
    x.hostOutput, x.missedHostValue, x.totalCollateral, x.renterPublicKey, x.hostPublicKey, x.revisionNumber,
    x.renterSignature, x.hostSignature)
  build := fun (a, b, c, d, e, f, g, h, i, j, k, l, m, n) => ⟨a, b, c, d, e, f, g, h, i, j, k, l, m, n⟩
instance : Codec v FileContract := inferInstance

/-- `v2::SiacoinElement` (sia/src/types/v2.rs 113-121). -/
structure SiacoinElement where
  stateElement : StateElement
  id : SiacoinOutputID
  siacoinOutput : SiacoinOutput
  maturityHeight : U64
  deriving DecidableEq

instance : Struct SiacoinElement (StateElement × SiacoinOutputID × SiacoinOutput × U64) where
  fields x := (x.stateElement, x.id, x.siacoinOutput, x.maturityHeight)
  build := fun (a, b, c, d) => ⟨a, b, c, d⟩
instance : Codec v SiacoinElement := inferInstance

/-- `v2::SiafundElement` (sia/src/types/v2.rs 123-131). -/
structure SiafundElement where
  stateElement : StateElement
  id : SiafundOutputID
  siafundOutput : SiafundOutput
  claimStart : Currency
  deriving DecidableEq

instance : Struct SiafundElement (StateElement × SiafundOutputID × SiafundOutput × Currency) where
  fields x := (x.stateElement, x.id, x.siafundOutput, x.claimStart)
  build := fun (a, b, c, d) => ⟨a, b, c, d⟩
instance : Codec v SiafundElement := inferInstance

/-- `v2::FileContractElement` (sia/src/types/v2.rs 133-141). -/
structure FileContractElement where
  stateElement : StateElement
  id : FileContractID
  fileContract : FileContract
  deriving DecidableEq

instance : Struct FileContractElement (StateElement × FileContractID × FileContract) where
  fields x := (x.stateElement, x.id, x.fileContract)
  build := fun (a, b, c) => ⟨a, b, c⟩
instance : Codec v FileContractElement := inferInstance

/-- `v2::ChainIndexElement` (sia/src/types/v2.rs 143-150). -/
structure ChainIndexElement where
  stateElement : StateElement
  id : BlockID
  chainIndex : ChainIndex
  deriving DecidableEq

instance : Struct ChainIndexElement (StateElement × BlockID × ChainIndex) where
  fields x := (x.stateElement, x.id, x.chainIndex)
  build := fun (a, b, c) => ⟨a, b, c⟩
instance : Codec v ChainIndexElement := inferInstance

/-- `v2::SiacoinInput` (sia/src/types/v2.rs 170-177). -/
structure SiacoinInput where
  parent : SiacoinElement
  satisfiedPolicy : SatisfiedPolicy

instance : Struct SiacoinInput (SiacoinElement × SatisfiedPolicy) where
  fields x := (x.parent, x.satisfiedPolicy)
  build := fun (a, b) => ⟨a, b⟩
instance : Codec v SiacoinInput := inferInstance

/-- `v2::SiafundInput` (sia/src/types/v2.rs 179-187). -/
structure SiafundInput where
  parent : SiafundElement
  claimAddress : Address
  satisfiedPolicy : SatisfiedPolicy

instance : Struct SiafundInput (SiafundElement × Address × SatisfiedPolicy) where
  fields x := (x.parent, x.claimAddress, x.satisfiedPolicy)
  build := fun (a, b, c) => ⟨a, b, c⟩
instance : Codec v SiafundInput := inferInstance

/-- `v2::FileContractRevision` (sia/src/types/v2.rs 189-195). -/
structure FileContractRevision where
  parent : FileContractElement
  revision : FileContract
  deriving DecidableEq

instance : Struct FileContractRevision (FileContractElement × FileContract) where
  fields x := (x.parent, x.revision)
  build := fun (a, b) => ⟨a, b⟩
instance : Codec v FileContractRevision := inferInstance

/-- `v2::FileContractRenewal` (sia/src/types/v2.rs 205-218). -/
structure FileContractRenewal where
  finalRevision : FileContract
  newContract : FileContract
  renterRollover : Currency
  hostRollover : Currency
  renterSignature : Signature
  hostSignature : Signature
  deriving DecidableEq

instance : Struct FileContractRenewal (FileContract × FileContract × Currency × Currency × Signature ×
    Signature) where
  fields x := (x.finalRevision, x.newContract, x.renterRollover, x.hostRollover, x.renterSignature,
    x.hostSignature)
  build := fun (a, b, c, d, e, f) => ⟨a, b, c, d, e, f⟩
instance : Codec v FileContractRenewal := inferInstance

/-- `v2::StorageProof` (sia/src/types/v2.rs 240-257). -/
structure StorageProof where
  proofIndex : ChainIndexElement
  leaf : Leaf
  proof : List Hash256
  deriving DecidableEq

instance : Struct StorageProof (ChainIndexElement × Leaf × List Hash256) where
  fields x := (x.proofIndex, x.leaf, x.proof)
  build := fun (a, b, c) => ⟨a, b, c⟩
instance : Codec v StorageProof := inferInstance

/-- `ContractResolution` (sia/src/types/v2.rs 297-304). -/
inductive ContractResolution where
  | renewal (r : FileContractRenewal)
  | storageProof (p : StorageProof)
  | expiration
  deriving DecidableEq

/-- `v2::FileContractResolution` (sia/src/types/v2.rs 306-311). -/
structure FileContractResolution where
  parent : FileContractElement
  resolution : ContractResolution
  deriving DecidableEq

/-- FileContractResolution (sia/src/types/v2.rs 325-357): the parent, a tag byte and the resolution.  Only v2
exists. -/
instance : Codec v FileContractResolution where
  encode x := enc v x.parent ++ match x.resolution with
    | .renewal r => enc v (0 : UInt8) ++ enc v r
    | .storageProof p => enc v (1 : UInt8) ++ enc v p
    | .expiration => enc v (2 : UInt8)
  decode := do
    let parent ← dec v
    let tag ← (dec v : Dec UInt8)
    if tag = 0 then do
      let r ← dec v
      pure ⟨parent, .renewal r⟩
    else if tag = 1 then do
      let p ← dec v
      pure ⟨parent, .storageProof p⟩
    else if tag = 2 then pure ⟨parent, .expiration⟩
    else Dec.fail .custom

/-- `v2::Transaction` (sia/src/types/v2.rs 452-481). -/
structure Transaction where
  siacoinInputs : List SiacoinInput
  siacoinOutputs : List SiacoinOutput
  siafundInputs : List SiafundInput
  siafundOutputs : List SiafundOutput
  fileContracts : List FileContract
  fileContractRevisions : List FileContractRevision
  fileContractResolutions : List FileContractResolution
  attestations : List Attestation
  arbitraryData : List UInt8
  newFoundationAddress : Option Address
  minerFee : Currency

namespace Transaction

/-- The conditions of the bit field (sia/src/types/v2.rs 535-547). -/
def present (t : Transaction) : List Bool :=
  [!t.siacoinInputs.isEmpty, !t.siacoinOutputs.isEmpty, !t.siafundInputs.isEmpty, !t.siafundOutputs.isEmpty,
   !t.fileContracts.isEmpty, !t.fileContractRevisions.isEmpty, !t.fileContractResolutions.isEmpty,
   !t.attestations.isEmpty, !t.arbitraryData.isEmpty, t.newFoundationAddress.isSome, t.minerFee ≠ ⟨0⟩]

/-- `.iter().enumerate().filter(..).map(|(i, _)| 1 << i).sum::<u64>()` (sia/src/types/v2.rs 548-552). -/
def fieldBits (l : List Bool) : U64 :=
  ((l.zipIdx.filter fun p => p.1).map fun p => (1 : U64) <<< p.2).sum

/-- `if !vec.is_empty() { vec.encode(w)?; }` (sia/src/types/v2.rs 555-581). -/
def encodeVec {α : Type} [Codec v α] (l : List α) : List UInt8 := if !l.isEmpty then enc v l else []

/-- `if let Some(addr) = &self.new_foundation_address { addr.encode(w)?; }` (sia/src/types/v2.rs 582-584). -/
def encodeOpt {α : Type} [Codec v α] : Option α → List UInt8
  | some a => enc v a
  | none => []

/-- `if fields & m != 0 { txn.f = T::decode(r)?; }`, the field being `default` before
(sia/src/types/v2.rs 616-648). -/
def decodeField {α : Type} (fields mask : U64) (d : Dec α) (default : α) : Dec α :=
  if fields &&& mask ≠ 0 then d else pure default

end Transaction

open Transaction in
/-- v2 transaction codec (sia/src/types/v2.rs 529-651): version byte 2, bit field, the present fields.  Only v2
exists. -/
instance : Codec v Transaction where
  encode t := enc v (2 : UInt8) ++ (enc v (fieldBits t.present) ++
    (encodeVec (v := v) t.siacoinInputs ++ (encodeVec (v := v) t.siacoinOutputs ++
    (encodeVec (v := v) t.siafundInputs ++ (encodeVec (v := v) t.siafundOutputs ++
    (encodeVec (v := v) t.fileContracts ++ (encodeVec (v := v) t.fileContractRevisions ++
    (encodeVec (v := v) t.fileContractResolutions ++ (encodeVec (v := v) t.attestations ++
    (encodeVec (v := v) t.arbitraryData ++
    (encodeOpt (v := v) t.newFoundationAddress ++
    (if t.minerFee ≠ ⟨0⟩ then enc v t.minerFee else []))))))))))))
  decode := do
    let version ← (dec v : Dec UInt8)
    if version ≠ 2 then Dec.fail .custom
    else do
      let fields ← (dec v : Dec U64)
      let siacoinInputs ← decodeField fields 1 (dec v) []
      let siacoinOutputs ← decodeField fields 2 (dec v) []
      let siafundInputs ← decodeField fields 4 (dec v) []
      let siafundOutputs ← decodeField fields 8 (dec v) []
      let fileContracts ← decodeField fields 16 (dec v) []
      let fileContractRevisions ← decodeField fields 32 (dec v) []
      let fileContractResolutions ← decodeField fields 64 (dec v) []
      let attestations ← decodeField fields 128 (dec v) []
      let arbitraryData ← decodeField fields 256 (dec v) []
      let newFoundationAddress ← decodeField fields 512 (do let a ← dec v; pure (some a)) none
      let minerFee ← decodeField fields 1024 (dec v) ⟨0⟩
      pure { siacoinInputs, siacoinOutputs, siafundInputs, siafundOutputs, fileContracts, fileContractRevisions,
             fileContractResolutions, attestations, arbitraryData, newFoundationAddress, minerFee }

end Verif.V2
