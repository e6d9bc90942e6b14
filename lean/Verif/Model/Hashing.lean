import Verif.Model.Merkle
import Verif.Model.V2

/-!
# Identifiers and signature hashes

`H` is blake2b-256.  Encoding into a hash state cannot fail, so the `unwrap`s and `?`s on it cannot either and are left out.
-/

namespace Verif

/-- `specifier!` (sia/src/types/specifier.rs 59-72) on a text of at most 16 bytes: zero-padded.  Longer texts do not compile. -/
def specifier (s : List UInt8) : Specifier := ⟨(s ++ List.replicate 16 0).take 16, by simp⟩

/-- The bytes of an ASCII literal `b"..."`. -/
def ascii (s : String) : List UInt8 := s.toList.map fun c => UInt8.ofNat c.toNat

/-- `i as u64` of a `usize`, written with `to_le_bytes`. -/
def le8 (i : U64) : List UInt8 := leBytes 8 i.toNat

namespace Ids

/-- `SiafundOutputID::claim_output_id` (sia/src/types/common.rs 25-29). -/
def claimOutputId (H : Hasher) (id : SiafundOutputID) : SiacoinOutputID := H id.1

/-- `SiafundOutputID::v2_claim_output_id` (sia/src/types/common.rs 31-36). -/
def v2ClaimOutputId (H : Hasher) (id : SiafundOutputID) : SiacoinOutputID := H (ascii "sia/id/v2siacoinclaimoutput|" ++ id.1)

/-- `BlockID::foundation_output_id` (sia/src/types/common.rs 42-49). -/
def foundationOutputId (H : Hasher) (id : BlockID) : SiacoinOutputID := H (id.1 ++ (specifier (ascii "foundation")).1)

/-- `BlockID::miner_output_id` (sia/src/types/common.rs 51-56). -/
def minerOutputId (H : Hasher) (id : BlockID) (i : U64) : SiacoinOutputID := H (id.1 ++ le8 i)

/-- `TransactionID::derive_v2_child_id` (sia/src/types/common.rs 67-73). -/
def deriveV2ChildId (H : Hasher) (id : TransactionID) (pre : List UInt8) (i : U64) : Arr 32 := H (pre ++ (id.1 ++ le8 i))

/-- `TransactionID::v2_siacoin_output_id` (sia/src/types/common.rs 62, 75-78). -/
def v2SiacoinOutputId (H : Hasher) (id : TransactionID) (i : U64) : SiacoinOutputID :=
  deriveV2ChildId H id (ascii "sia/id/siacoinoutput|") i

/-- `TransactionID::v2_siafund_output_id` (sia/src/types/common.rs 63, 80-83). -/
def v2SiafundOutputId (H : Hasher) (id : TransactionID) (i : U64) : SiafundOutputID :=
  deriveV2ChildId H id (ascii "sia/id/siafundoutput|") i

/-- `TransactionID::v2_file_contract_id` (sia/src/types/common.rs 64, 85-88). -/
def v2FileContractId (H : Hasher) (id : TransactionID) (i : U64) : FileContractID :=
  deriveV2ChildId H id (ascii "sia/id/filecontract|") i

/-- `TransactionID::v2_attestation_id` (sia/src/types/common.rs 65, 90-93). -/
def v2AttestationId (H : Hasher) (id : TransactionID) (i : U64) : AttestationID :=
  deriveV2ChildId H id (ascii "sia/id/attestation|") i

/-- `FileContractID::derive_proof_output_id` (sia/src/types/common.rs 98, 102-109). -/
def deriveProofOutputId (H : Hasher) (id : FileContractID) (valid : Bool) (i : U64) : SiacoinOutputID :=
  H ((specifier (ascii "storage proof")).1 ++ (id.1 ++ ([if valid then 1 else 0] ++ le8 i)))

/-- `FileContractID::valid_output_id` (sia/src/types/common.rs 119-122). -/
def validOutputId (H : Hasher) (id : FileContractID) (i : U64) : SiacoinOutputID := deriveProofOutputId H id true i

/-- `FileContractID::missed_output_id` (sia/src/types/common.rs 124-127). -/
def missedOutputId (H : Hasher) (id : FileContractID) (i : U64) : SiacoinOutputID := deriveProofOutputId H id false i

/-- `FileContractID::derive_v2_proof_output_id` (sia/src/types/common.rs 99, 111-117). -/
def deriveV2ProofOutputId (H : Hasher) (id : FileContractID) (i : U64) : SiacoinOutputID :=
  H (ascii "id/v2filecontractoutput" ++ (id.1 ++ le8 i))

/-- `FileContractID::v2_renter_output_id` (sia/src/types/common.rs 129-132). -/
def v2RenterOutputId (H : Hasher) (id : FileContractID) : SiacoinOutputID := deriveV2ProofOutputId H id 0

/-- `FileContractID::v2_host_output_id` (sia/src/types/common.rs 134-137). -/
def v2HostOutputId (H : Hasher) (id : FileContractID) : SiacoinOutputID := deriveV2ProofOutputId H id 1

/-- `FileContractID::v2_renewal_id` (sia/src/types/common.rs 100, 139-146). -/
def v2RenewalId (H : Hasher) (id : FileContractID) : FileContractID := H (ascii "id/v2filecontractrenewal" ++ id.1)

end Ids

/-! ## v1 transactions -/

namespace V1.Transaction

/-- `encode_no_sigs` (sia/src/types/v1.rs 307-317). -/
def encodeNoSigs (t : Transaction) : List UInt8 :=
  enc .v1 t.siacoinInputs ++ (enc .v1 t.siacoinOutputs ++ (enc .v1 t.fileContracts ++ (enc .v1 t.fileContractRevisions ++
  (enc .v1 t.storageProofs ++ (enc .v1 t.siafundInputs ++ (enc .v1 t.siafundOutputs ++ (enc .v1 t.minerFees ++
  enc .v1 t.arbitraryData)))))))

/-- `id` (sia/src/types/v1.rs 457-462). -/
def id (H : Hasher) (t : Transaction) : TransactionID := H t.encodeNoSigs

/-- `derive_child_id` (sia/src/types/v1.rs 464-470). -/
def deriveChildId (H : Hasher) (t : Transaction) (pre : Specifier) (i : U64) : Arr 32 :=
  H (pre.1 ++ (t.encodeNoSigs ++ le8 i))

/-- `siacoin_output_id` (sia/src/types/v1.rs 472-477). -/
def siacoinOutputId (H : Hasher) (t : Transaction) (i : U64) : SiacoinOutputID :=
  t.deriveChildId H (specifier (ascii "siacoin output")) i

/-- `siafund_output_id` (sia/src/types/v1.rs 479-484). -/
def siafundOutputId (H : Hasher) (t : Transaction) (i : U64) : SiafundOutputID :=
  t.deriveChildId H (specifier (ascii "siafund output")) i

/-- `file_contract_id` (sia/src/types/v1.rs 486-491). -/
def fileContractId (H : Hasher) (t : Transaction) (i : U64) : FileContractID :=
  t.deriveChildId H (specifier (ascii "file contract")) i

/-- The loops `for input in inputs { state.update(replay_prefix); input.encode_v1(..)? }` after the length
(sia/src/types/v1.rs 328-332, 339-343). -/
def prefixedInputs {α : Type} [Codec .v1 α] (pre : List UInt8) (l : List α) : List UInt8 :=
  leBytes 8 (BitVec.ofNat 64 l.length).toNat ++ l.flatMap fun a => pre ++ enc .v1 a

/-- `whole_sig_hash` (sia/src/types/v1.rs 319-354). -/
def wholeSigHash (H : Hasher) (t : Transaction) (cs : ChainState) (parentId : Arr 32) (publicKeyIndex timelock : U64) :
    Hash256 :=
  H (prefixedInputs cs.replayPrefix t.siacoinInputs ++ (enc .v1 t.siacoinOutputs ++ (enc .v1 t.fileContracts ++
    (enc .v1 t.fileContractRevisions ++ (enc .v1 t.storageProofs ++ (prefixedInputs cs.replayPrefix t.siafundInputs ++
    (enc .v1 t.siafundOutputs ++ (enc .v1 t.minerFees ++ (enc .v1 t.arbitraryData ++ (parentId.1 ++
    (enc .v1 publicKeyIndex ++ enc .v1 timelock)))))))))))

/-- One of the loops of `partial_sig_hash` (e.g. sia/src/types/v1.rs 363-371): each covered element with a prefix, or
an error when the index is out of bounds. -/
def coveredBytes {α : Type} [Codec .v1 α] (pre : List UInt8) (l : List α) : List U64 → Res (List UInt8)
  | [] => .ok []
  | i :: is =>
    if h : i.toNat < l.length then do
      let rest ← coveredBytes pre l is
      pure (pre ++ (enc .v1 l[i.toNat] ++ rest))
    else .err .custom

/-- `partial_sig_hash` (sia/src/types/v1.rs 356-455). -/
def partialSigHash (H : Hasher) (t : Transaction) (cs : ChainState) (c : CoveredFields) : Res Hash256 := do
  let b0 ← coveredBytes cs.replayPrefix t.siacoinInputs c.siacoinInputs
  let b1 ← coveredBytes [] t.siacoinOutputs c.siacoinOutputs
  let b2 ← coveredBytes [] t.fileContracts c.fileContracts
  let b3 ← coveredBytes [] t.fileContractRevisions c.fileContractRevisions
  let b4 ← coveredBytes [] t.storageProofs c.storageProofs
  let b5 ← coveredBytes cs.replayPrefix t.siafundInputs c.siafundInputs
  let b6 ← coveredBytes [] t.siafundOutputs c.siafundOutputs
  let b7 ← coveredBytes [] t.minerFees c.minerFees
  let b8 ← coveredBytes [] t.arbitraryData c.arbitraryData
  let b9 ← coveredBytes [] t.signatures c.signatures
  pure (H (b0 ++ (b1 ++ (b2 ++ (b3 ++ (b4 ++ (b5 ++ (b6 ++ (b7 ++ (b8 ++ b9))))))))))

end V1.Transaction

/-! ## v2 transactions -/

namespace V2

/-- `Attestation::encode_semantics` (sia/src/types/v2.rs 40-45). -/
def Attestation.encodeSemantics (a : Attestation) : List UInt8 :=
  enc .v2 a.publicKey ++ (enc .v2 a.key ++ (enc .v2 a.value ++ enc .v2 (Arr.zero 64)))

/-- `Attestation::sig_hash` (sia/src/types/v2.rs 47-53). -/
def Attestation.sigHash (H : Hasher) (a : Attestation) (cs : ChainState) : Hash256 :=
  H (ascii "sia/sig/attestation|" ++ (cs.replayPrefix ++ a.encodeSemantics))

/-- `FileContract::encode_semantics` (sia/src/types/v2.rs 86-102). -/
def FileContract.encodeSemantics (c : FileContract) : List UInt8 :=
  enc .v2 c.capacity ++ (enc .v2 c.filesize ++ (enc .v2 c.fileMerkleRoot ++ (enc .v2 c.proofHeight ++
  (enc .v2 c.expirationHeight ++ (enc .v2 c.renterOutput ++ (enc .v2 c.hostOutput ++ (enc .v2 c.missedHostValue ++
  (enc .v2 c.totalCollateral ++ (enc .v2 c.renterPublicKey ++ (enc .v2 c.hostPublicKey ++ (enc .v2 c.revisionNumber ++
  (enc .v2 (Arr.zero 64) ++ enc .v2 (Arr.zero 64)))))))))))))

/-- `FileContract::sig_hash` (sia/src/types/v2.rs 104-110). -/
def FileContract.sigHash (H : Hasher) (c : FileContract) (cs : ChainState) : Hash256 :=
  H (ascii "sia/sig/filecontract|" ++ (cs.replayPrefix ++ c.encodeSemantics))

/-- `ChainIndexElement::encode_semantics` (sia/src/types/v2.rs 152-160). -/
def ChainIndexElement.encodeSemantics (e : ChainIndexElement) : List UInt8 :=
  enc .v2 e.stateElement.leafIndex ++ (enc .v2 ([] : List Hash256) ++ (enc .v2 e.id ++ enc .v2 e.chainIndex))

/-- `FileContractRevision::encode_semantics` (sia/src/types/v2.rs 197-203). -/
def FileContractRevision.encodeSemantics (r : FileContractRevision) : List UInt8 :=
  enc .v2 r.parent.id ++ r.revision.encodeSemantics

/-- `FileContractRenewal::encode_semantics` (sia/src/types/v2.rs 220-229). -/
def FileContractRenewal.encodeSemantics (r : FileContractRenewal) : List UInt8 :=
  r.finalRevision.encodeSemantics ++ (r.newContract.encodeSemantics ++ (enc .v2 r.renterRollover ++
  (enc .v2 r.hostRollover ++ (enc .v2 (Arr.zero 64) ++ enc .v2 (Arr.zero 64)))))

/-- `FileContractRenewal::sig_hash` (sia/src/types/v2.rs 231-237). -/
def FileContractRenewal.sigHash (H : Hasher) (r : FileContractRenewal) (cs : ChainState) : Hash256 :=
  H (ascii "sia/sig/filecontractrenewal|" ++ (cs.replayPrefix ++ r.encodeSemantics))

/-- `StorageProof::encode_semantics` (sia/src/types/v2.rs 259-266). -/
def StorageProof.encodeSemantics (p : StorageProof) : List UInt8 :=
  p.proofIndex.encodeSemantics ++ (enc .v2 p.leaf ++ enc .v2 p.proof)

/-- The match in `FileContractResolution::encode_semantics` (sia/src/types/v2.rs 316-321): the kind is not written. -/
def ContractResolution.encodeSemantics : ContractResolution → List UInt8
  | .renewal r => r.encodeSemantics
  | .storageProof p => p.encodeSemantics
  | .expiration => []

/-- `FileContractResolution::encode_semantics` (sia/src/types/v2.rs 313-323). -/
def FileContractResolution.encodeSemantics (r : FileContractResolution) : List UInt8 :=
  enc .v2 r.parent.id ++ r.resolution.encodeSemantics

/-- `vec.len().encode(w)?; for x in &vec { .. }` (e.g. sia/src/types/v2.rs 485-488). -/
def lenThen {α : Type} (e : α → List UInt8) (l : List α) : List UInt8 :=
  enc .v2 (BitVec.ofNat 64 l.length : U64) ++ l.flatMap e

/-- `Transaction::encode_semantics` (sia/src/types/v2.rs 484-512). -/
def Transaction.encodeSemantics (t : Transaction) : List UInt8 :=
  lenThen (fun i => enc .v2 i.parent.id) t.siacoinInputs ++ (enc .v2 t.siacoinOutputs ++
  (lenThen (fun i => enc .v2 i.parent.id) t.siafundInputs ++ (enc .v2 t.siafundOutputs ++
  (lenThen FileContract.encodeSemantics t.fileContracts ++
  (lenThen FileContractRevision.encodeSemantics t.fileContractRevisions ++
  (lenThen FileContractResolution.encodeSemantics t.fileContractResolutions ++
  (enc .v2 t.attestations ++ (enc .v2 t.arbitraryData ++ (enc .v2 t.newFoundationAddress ++ enc .v2 t.minerFee)))))))))

/-- `Transaction::id` (sia/src/types/v2.rs 514-518). -/
def Transaction.id (H : Hasher) (t : Transaction) : TransactionID := H t.encodeSemantics

/-- `Transaction::input_sig_hash` (sia/src/types/v2.rs 520-526). -/
def Transaction.inputSigHash (H : Hasher) (t : Transaction) (cs : ChainState) : Hash256 :=
  H (ascii "sia/sig/input|" ++ (cs.replayPrefix ++ t.encodeSemantics))

end V2

/-! ## Policies -/

namespace SpendPolicy

mutual

/-- `SpendPolicy::address` (sia/src/types/spendpolicy.rs 145-168).  Only unlock conditions with 2^64 keys could panic. -/
def address (H : Hasher) : SpendPolicy → Res Address
  | .unlockConditions uc => uc.address H
  | .opaqueAddr a => .ok a
  | .threshold n of => do
    let hidden ← opaqueAll H of
    pure (H (ascii "sia/address|" ++ enc .v2 (SpendPolicy.threshold n hidden)))
  | .above h => .ok (H (ascii "sia/address|" ++ enc .v2 (SpendPolicy.above h)))
  | .after t => .ok (H (ascii "sia/address|" ++ enc .v2 (SpendPolicy.after t)))
  | .publicKey k => .ok (H (ascii "sia/address|" ++ enc .v2 (SpendPolicy.publicKey k)))
  | .hash h => .ok (H (ascii "sia/address|" ++ enc .v2 (SpendPolicy.hash h)))

/-- The loop building the opaque children (sia/src/types/spendpolicy.rs 157-160). -/
def opaqueAll (H : Hasher) : List SpendPolicy → Res (List SpendPolicy)
  | [] => .ok []
  | p :: ps => do
    let a ← address H p
    let rest ← opaqueAll H ps
    pure (.opaqueAddr a :: rest)

end

/-- `SpendPolicy::threshold` (sia/src/types/spendpolicy.rs 125-133): panics if a direct child is unlock conditions. -/
def mkThreshold (n : UInt8) (ps : List SpendPolicy) : Res SpendPolicy :=
  if ps.any (fun | .unlockConditions _ => true | _ => false) then .panic else .ok (.threshold n ps)

end SpendPolicy

end Verif
