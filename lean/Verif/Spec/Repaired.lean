import Verif.Spec.Hashing
import Verif.Spec.Merkle

/-!
# Hashing programs that differ from the code in one place

The properties C24, C32, C44, C76 and C77 are false of the code.  These are programs for which they hold.
-/

namespace Verif

/-- `UnlockConditions::address` with an accumulator that merges the running node. -/
def UnlockConditions.addressMerged (H : Hasher) (uc : UnlockConditions) : Res Address := do
  let a ← Accumulator.new.addLeafWith (fun _ node => node) H (H ([0] ++ leBytes 8 uc.timelock.toNat))
  let a ← a.addLeavesWith (fun _ node => node) H (uc.publicKeys.map fun k => H ([0] ++ enc .v2 k))
  let a ← a.addLeafWith (fun _ node => node) H (H ([0] ++ leBytes 8 uc.signaturesRequired.toNat))
  pure (a.root H)

namespace V2

/-- The byte that tells the kinds of resolutions apart in the encoding of a transaction (sia/src/types/v2.rs 327-341). -/
def ContractResolution.kindByte : ContractResolution → UInt8
  | .renewal _ => 0
  | .storageProof _ => 1
  | .expiration => 2

/-- `Transaction::encode_semantics` with the claim address of each siafund input and the kind of each resolution written too. -/
def Transaction.encodeCovering (t : Transaction) : List UInt8 :=
  lenThen (fun i => enc .v2 i.parent.id) t.siacoinInputs ++ (enc .v2 t.siacoinOutputs ++
  (lenThen (fun i => enc .v2 i.parent.id ++ enc .v2 i.claimAddress) t.siafundInputs ++ (enc .v2 t.siafundOutputs ++
  (lenThen FileContract.encodeSemantics t.fileContracts ++
  (lenThen FileContractRevision.encodeSemantics t.fileContractRevisions ++
  (lenThen (fun r => r.resolution.kindByte :: r.encodeSemantics) t.fileContractResolutions ++
  (enc .v2 t.attestations ++ (enc .v2 t.arbitraryData ++ (enc .v2 t.newFoundationAddress ++ enc .v2 t.minerFee)))))))))

/-- `Transaction::id` with `encodeCovering`. -/
def Transaction.idCovering (H : Hasher) (t : Transaction) : TransactionID := H t.encodeCovering

/-- `Transaction::id` with a constant of its own before that string, as the other v2 identifiers have. -/
def Transaction.idTagged (H : Hasher) (t : Transaction) : TransactionID := H (ascii "sia/id/transaction|" ++ t.encodeCovering)

/-- `input_sig_hash` (sia/src/types/v2.rs 520-526) of that string. -/
def Transaction.inputSigHashCovering (H : Hasher) (t : Transaction) (cs : ChainState) : Hash256 :=
  H (ascii "sia/sig/input|" ++ (cs.replayPrefix ++ t.encodeCovering))

end V2

namespace V1

/-- `partial_sig_hash` with the covered fields themselves hashed first. -/
def Transaction.partialSigHashCovering (H : Hasher) (t : Transaction) (cs : ChainState) (c : CoveredFields) : Res Hash256 := do
  let b0 ← coveredBytes cs.replayPrefix t.siacoinInputs c.siacoinInputs
  let b1 ← coveredBytes [] t.siacoinOutputs c.siacoinOutputs
  let b2 ← coveredBytes [] t.fileContracts c.fileContracts
  let b3 ← coveredBytes [] t.fileContractRevisions c.fileContractRevisions
  let b4 ← coveredBytes [] t.storageProofs c.storageProofs
  let b5 ← coveredBytes cs.replayPrefix t.siafundInputs c.siafundInputs
  let b6 ← coveredBytes [] t.siafundOutputs c.siafundOutputs
  let b7 ← coveredBytes [] t.minerFees c.minerFees
  let b8 ← coveredBytes [] t.arbitraryData c.arbitraryData
  let b9 ← coveredBytes [] t.signatures c.signatures
  pure (H (enc .v1 c ++ (b0 ++ (b1 ++ (b2 ++ (b3 ++ (b4 ++ (b5 ++ (b6 ++ (b7 ++ (b8 ++ b9)))))))))))

/-- `partial_sig_hash` with a constant of its own and the covered fields hashed first. -/
def Transaction.partialSigHashTagged (H : Hasher) (t : Transaction) (cs : ChainState) (c : CoveredFields) : Res Hash256 :=
  t.partialSigHashCovering (fun bs => H (ascii "sia/sig/partial|" ++ bs)) cs c

/-- A selection whose lists have 64-bit lengths, as every Rust vector has. -/
def CoveredFields.Sized (c : CoveredFields) : Prop :=
  ∀ l ∈ [c.siacoinInputs, c.siacoinOutputs, c.fileContracts, c.fileContractRevisions, c.storageProofs, c.siafundInputs,
    c.siafundOutputs, c.minerFees, c.arbitraryData, c.signatures], l.length < 2 ^ 64

/-- Two selections select equally many elements of each kind. -/
structure SameCounts (c c' : CoveredFields) : Prop where
  siacoinInputs : c.siacoinInputs.length = c'.siacoinInputs.length
  siacoinOutputs : c.siacoinOutputs.length = c'.siacoinOutputs.length
  fileContracts : c.fileContracts.length = c'.fileContracts.length
  fileContractRevisions : c.fileContractRevisions.length = c'.fileContractRevisions.length
  storageProofs : c.storageProofs.length = c'.storageProofs.length
  siafundInputs : c.siafundInputs.length = c'.siafundInputs.length
  siafundOutputs : c.siafundOutputs.length = c'.siafundOutputs.length
  minerFees : c.minerFees.length = c'.minerFees.length
  arbitraryData : c.arbitraryData.length = c'.arbitraryData.length
  signatures : c.signatures.length = c'.signatures.length

/-- The two selections select the same elements, in the same order. -/
structure SameSelected (t t' : Transaction) (c c' : CoveredFields) : Prop where
  siacoinInputs : c.siacoinInputs.map (t.siacoinInputs[·.toNat]?) = c'.siacoinInputs.map (t'.siacoinInputs[·.toNat]?)
  siacoinOutputs : c.siacoinOutputs.map (t.siacoinOutputs[·.toNat]?) = c'.siacoinOutputs.map (t'.siacoinOutputs[·.toNat]?)
  fileContracts : c.fileContracts.map (t.fileContracts[·.toNat]?) = c'.fileContracts.map (t'.fileContracts[·.toNat]?)
  fileContractRevisions :
    c.fileContractRevisions.map (t.fileContractRevisions[·.toNat]?) = c'.fileContractRevisions.map (t'.fileContractRevisions[·.toNat]?)
  storageProofs : c.storageProofs.map (t.storageProofs[·.toNat]?) = c'.storageProofs.map (t'.storageProofs[·.toNat]?)
  siafundInputs : c.siafundInputs.map (t.siafundInputs[·.toNat]?) = c'.siafundInputs.map (t'.siafundInputs[·.toNat]?)
  siafundOutputs : c.siafundOutputs.map (t.siafundOutputs[·.toNat]?) = c'.siafundOutputs.map (t'.siafundOutputs[·.toNat]?)
  minerFees : c.minerFees.map (t.minerFees[·.toNat]?) = c'.minerFees.map (t'.minerFees[·.toNat]?)
  arbitraryData : c.arbitraryData.map (t.arbitraryData[·.toNat]?) = c'.arbitraryData.map (t'.arbitraryData[·.toNat]?)
  signatures : c.signatures.map (t.signatures[·.toNat]?) = c'.signatures.map (t'.signatures[·.toNat]?)

end V1

end Verif
