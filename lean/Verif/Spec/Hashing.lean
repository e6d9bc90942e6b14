import Verif.Model.Hashing

/-!
# What identifiers and signature hashes are supposed to cover

Commitment properties are stated without assuming anything about the hash function: a function that hashes once is shown to
be `H` of a byte string from which the covered data can be recovered.  Equal hashes of different data are then, by
definition, a collision of `H` between two known strings.
-/

namespace Verif

/-! ## v1 -/

namespace V1

/-- The transaction without its signatures. -/
def Transaction.unsigned (t : Transaction) : Transaction := { t with signatures := [] }

/-- Unlock conditions whose vectors have 64-bit lengths, as every Rust vector has. -/
def SizedConditions (u : UnlockConditions) : Prop := u.publicKeys.length < 2 ^ 64 ∧ ∀ k ∈ u.publicKeys, k.key.length < 2 ^ 64

/-- All vectors of the transaction, other than the signatures, have 64-bit lengths, as every Rust vector has. -/
structure Transaction.Sized (t : Transaction) : Prop where
  siacoinInputs : t.siacoinInputs.length < 2 ^ 64 ∧ ∀ i ∈ t.siacoinInputs, SizedConditions i.unlockConditions
  siacoinOutputs : t.siacoinOutputs.length < 2 ^ 64
  fileContracts : t.fileContracts.length < 2 ^ 64 ∧
    ∀ c ∈ t.fileContracts, c.validProofOutputs.length < 2 ^ 64 ∧ c.missedProofOutputs.length < 2 ^ 64
  fileContractRevisions : t.fileContractRevisions.length < 2 ^ 64 ∧ ∀ c ∈ t.fileContractRevisions,
    SizedConditions c.unlockConditions ∧ c.validProofOutputs.length < 2 ^ 64 ∧ c.missedProofOutputs.length < 2 ^ 64
  storageProofs : t.storageProofs.length < 2 ^ 64 ∧ ∀ p ∈ t.storageProofs, p.proof.length < 2 ^ 64
  siafundInputs : t.siafundInputs.length < 2 ^ 64 ∧ ∀ i ∈ t.siafundInputs, SizedConditions i.unlockConditions
  siafundOutputs : t.siafundOutputs.length < 2 ^ 64
  minerFees : t.minerFees.length < 2 ^ 64
  arbitraryData : t.arbitraryData.length < 2 ^ 64 ∧ ∀ d ∈ t.arbitraryData, d.length < 2 ^ 64

/-- A signature whose vectors have 64-bit lengths. -/
structure TransactionSignature.Sized (s : TransactionSignature) : Prop where
  signature : s.signature.length < 2 ^ 64
  covered : ∀ l ∈ [s.coveredFields.siacoinInputs, s.coveredFields.siacoinOutputs, s.coveredFields.fileContracts,
    s.coveredFields.fileContractRevisions, s.coveredFields.storageProofs, s.coveredFields.siafundInputs,
    s.coveredFields.siafundOutputs, s.coveredFields.minerFees, s.coveredFields.arbitraryData, s.coveredFields.signatures],
    l.length < 2 ^ 64

/-- All vectors of the transaction, those of the signatures included, have 64-bit lengths. -/
def Transaction.AllSized (t : Transaction) : Prop := t.Sized ∧ ∀ s ∈ t.signatures, s.Sized

/-- All selected indices exist. -/
structure InRange (t : Transaction) (c : CoveredFields) : Prop where
  siacoinInputs : ∀ i ∈ c.siacoinInputs, i.toNat < t.siacoinInputs.length
  siacoinOutputs : ∀ i ∈ c.siacoinOutputs, i.toNat < t.siacoinOutputs.length
  fileContracts : ∀ i ∈ c.fileContracts, i.toNat < t.fileContracts.length
  fileContractRevisions : ∀ i ∈ c.fileContractRevisions, i.toNat < t.fileContractRevisions.length
  storageProofs : ∀ i ∈ c.storageProofs, i.toNat < t.storageProofs.length
  siafundInputs : ∀ i ∈ c.siafundInputs, i.toNat < t.siafundInputs.length
  siafundOutputs : ∀ i ∈ c.siafundOutputs, i.toNat < t.siafundOutputs.length
  minerFees : ∀ i ∈ c.minerFees, i.toNat < t.minerFees.length
  arbitraryData : ∀ i ∈ c.arbitraryData, i.toNat < t.arbitraryData.length
  signatures : ∀ i ∈ c.signatures, i.toNat < t.signatures.length

/-- Two transactions have the same elements, or none, at all selected indices. -/
structure AgreeOn (c : CoveredFields) (t t' : Transaction) : Prop where
  siacoinInputs : ∀ i ∈ c.siacoinInputs, t.siacoinInputs[i.toNat]? = t'.siacoinInputs[i.toNat]?
  siacoinOutputs : ∀ i ∈ c.siacoinOutputs, t.siacoinOutputs[i.toNat]? = t'.siacoinOutputs[i.toNat]?
  fileContracts : ∀ i ∈ c.fileContracts, t.fileContracts[i.toNat]? = t'.fileContracts[i.toNat]?
  fileContractRevisions : ∀ i ∈ c.fileContractRevisions, t.fileContractRevisions[i.toNat]? = t'.fileContractRevisions[i.toNat]?
  storageProofs : ∀ i ∈ c.storageProofs, t.storageProofs[i.toNat]? = t'.storageProofs[i.toNat]?
  siafundInputs : ∀ i ∈ c.siafundInputs, t.siafundInputs[i.toNat]? = t'.siafundInputs[i.toNat]?
  siafundOutputs : ∀ i ∈ c.siafundOutputs, t.siafundOutputs[i.toNat]? = t'.siafundOutputs[i.toNat]?
  minerFees : ∀ i ∈ c.minerFees, t.minerFees[i.toNat]? = t'.minerFees[i.toNat]?
  arbitraryData : ∀ i ∈ c.arbitraryData, t.arbitraryData[i.toNat]? = t'.arbitraryData[i.toNat]?
  signatures : ∀ i ∈ c.signatures, t.signatures[i.toNat]? = t'.signatures[i.toNat]?

end V1

/-! ## v2 -/

namespace V2

/-- The contract with both signatures blanked. -/
def FileContract.unsigned (c : FileContract) : FileContract :=
  { c with renterSignature := Arr.zero 64, hostSignature := Arr.zero 64 }

/-- What a resolution does, without signatures and without the Merkle proof of the chain index. -/
inductive ResolutionEffect where
  | renewal (finalRevision newContract : FileContract) (renterRollover hostRollover : Currency)
  | storageProof (leafIndex : U64) (id : BlockID) (index : ChainIndex) (leaf : Leaf) (proof : List Hash256)
  | expiration
  deriving DecidableEq

def ContractResolution.effect : ContractResolution → ResolutionEffect
  | .renewal r => .renewal r.finalRevision.unsigned r.newContract.unsigned r.renterRollover r.hostRollover
  | .storageProof p => .storageProof p.proofIndex.stateElement.leafIndex p.proofIndex.id p.proofIndex.chainIndex p.leaf p.proof
  | .expiration => .expiration

/-- Which of the three kinds a resolution is. -/
inductive Kind where
  | renewal
  | storageProof
  | expiration
  deriving DecidableEq

def ContractResolution.kind : ContractResolution → Kind
  | .renewal _ => .renewal
  | .storageProof _ => .storageProof
  | .expiration => .expiration

/-- What a v2 transaction does, apart from the witnesses (policies, signatures of contracts, Merkle proofs, copies of the
parent elements) and apart from the claim addresses of siafund inputs. -/
structure Effects where
  siacoinsSpent : List SiacoinOutputID
  siacoinOutputs : List SiacoinOutput
  siafundsSpent : List SiafundOutputID
  siafundOutputs : List SiafundOutput
  contracts : List FileContract
  revisions : List (FileContractID × FileContract)
  resolutions : List (FileContractID × ResolutionEffect)
  attestations : List Attestation
  arbitraryData : List UInt8
  newFoundationAddress : Option Address
  minerFee : Currency
  deriving DecidableEq

def Transaction.effects (t : Transaction) : Effects where
  siacoinsSpent := t.siacoinInputs.map (·.parent.id)
  siacoinOutputs := t.siacoinOutputs
  siafundsSpent := t.siafundInputs.map (·.parent.id)
  siafundOutputs := t.siafundOutputs
  contracts := t.fileContracts.map (·.unsigned)
  revisions := t.fileContractRevisions.map fun r => (r.parent.id, r.revision.unsigned)
  resolutions := t.fileContractResolutions.map fun r => (r.parent.id, r.resolution.effect)
  attestations := t.attestations
  arbitraryData := t.arbitraryData
  newFoundationAddress := t.newFoundationAddress
  minerFee := t.minerFee

/-- Where the claims of the spent siafunds go. -/
def Transaction.claimAddresses (t : Transaction) : List Address := t.siafundInputs.map (·.claimAddress)

/-- The kinds of the resolutions, in order. -/
def Transaction.resolutionKinds (t : Transaction) : List Kind := t.fileContractResolutions.map (·.resolution.kind)

/-- All vectors that the effects contain have 64-bit lengths, as every Rust vector has. -/
structure Transaction.Sized (t : Transaction) : Prop where
  siacoinInputs : t.siacoinInputs.length < 2 ^ 64
  siacoinOutputs : t.siacoinOutputs.length < 2 ^ 64
  siafundInputs : t.siafundInputs.length < 2 ^ 64
  siafundOutputs : t.siafundOutputs.length < 2 ^ 64
  fileContracts : t.fileContracts.length < 2 ^ 64
  fileContractRevisions : t.fileContractRevisions.length < 2 ^ 64
  fileContractResolutions : t.fileContractResolutions.length < 2 ^ 64 ∧
    ∀ r ∈ t.fileContractResolutions, ∀ p, r.resolution = .storageProof p → p.proof.length < 2 ^ 64
  attestations : t.attestations.length < 2 ^ 64 ∧
    ∀ a ∈ t.attestations, a.key.utf8ByteSize < 2 ^ 64 ∧ a.value.length < 2 ^ 64
  arbitraryData : t.arbitraryData.length < 2 ^ 64

end V2

/-! ## Derived identifiers -/

/-- Every way the crate derives an identifier from a parent. -/
inductive Derivation where
  | claim (id : SiafundOutputID)
  | v2Claim (id : SiafundOutputID)
  | foundation (id : BlockID)
  | miner (id : BlockID) (i : U64)
  | v2Siacoin (id : TransactionID) (i : U64)
  | v2Siafund (id : TransactionID) (i : U64)
  | v2FileContract (id : TransactionID) (i : U64)
  | v2Attestation (id : TransactionID) (i : U64)
  | valid (id : FileContractID) (i : U64)
  | missed (id : FileContractID) (i : U64)
  | v2Renter (id : FileContractID)
  | v2Host (id : FileContractID)
  | v2Renewal (id : FileContractID)
  | siacoin (t : V1.Transaction) (i : U64)
  | siafund (t : V1.Transaction) (i : U64)
  | fileContract (t : V1.Transaction) (i : U64)
  deriving DecidableEq

namespace Derivation

/-- The identifier the crate computes. -/
def eval (H : Hasher) : Derivation → Arr 32
  | claim id => Ids.claimOutputId H id
  | v2Claim id => Ids.v2ClaimOutputId H id
  | foundation id => Ids.foundationOutputId H id
  | miner id i => Ids.minerOutputId H id i
  | v2Siacoin id i => Ids.v2SiacoinOutputId H id i
  | v2Siafund id i => Ids.v2SiafundOutputId H id i
  | v2FileContract id i => Ids.v2FileContractId H id i
  | v2Attestation id i => Ids.v2AttestationId H id i
  | valid id i => Ids.validOutputId H id i
  | missed id i => Ids.missedOutputId H id i
  | v2Renter id => Ids.v2RenterOutputId H id
  | v2Host id => Ids.v2HostOutputId H id
  | v2Renewal id => Ids.v2RenewalId H id
  | siacoin t i => t.siacoinOutputId H i
  | siafund t i => t.siafundOutputId H i
  | fileContract t i => t.fileContractId H i

/-- The derivation with the signatures of a v1 parent transaction removed. -/
def unsigned : Derivation → Derivation
  | siacoin t i => siacoin t.unsigned i
  | siafund t i => siafund t.unsigned i
  | fileContract t i => fileContract t.unsigned i
  | d => d

/-- The parent, if it is a v1 transaction, has vectors of 64-bit length. -/
def Sized : Derivation → Prop
  | siacoin t _ => t.Sized
  | siafund t _ => t.Sized
  | fileContract t _ => t.Sized
  | _ => True

end Derivation

/-! ## Signed messages of v2 -/

/-- The four kinds of messages signed in v2 transactions. -/
inductive Signed where
  | attestation (a : V2.Attestation)
  | contract (c : V2.FileContract)
  | renewal (r : V2.FileContractRenewal)
  | input (t : V2.Transaction)

namespace Signed

/-- The signature hash the crate computes. -/
def sigHash (H : Hasher) (cs : ChainState) : Signed → Hash256
  | attestation a => a.sigHash H cs
  | contract c => c.sigHash H cs
  | renewal r => r.sigHash H cs
  | input t => t.inputSigHash H cs

/-- What is being signed. -/
inductive Purpose where
  | attestation
  | contract
  | renewal
  | input
  deriving DecidableEq

def purpose : Signed → Purpose
  | attestation _ => .attestation
  | contract _ => .contract
  | renewal _ => .renewal
  | input _ => .input

/-- The same message with every signature in it blanked (for inputs see `V2.Transaction.effects`). -/
def unsigned : Signed → Signed
  | attestation a => attestation { a with signature := Arr.zero 64 }
  | contract c => contract c.unsigned
  | renewal r => renewal { r with finalRevision := r.finalRevision.unsigned, newContract := r.newContract.unsigned,
                                  renterSignature := Arr.zero 64, hostSignature := Arr.zero 64 }
  | input t => input t

/-- Strings and byte vectors have 64-bit lengths. -/
def Sized : Signed → Prop
  | attestation a => a.key.utf8ByteSize < 2 ^ 64 ∧ a.value.length < 2 ^ 64
  | contract _ => True
  | renewal _ => True
  | input t => t.Sized

end Signed

end Verif
