import Verif.Lemmas.Declarations

/-!
# C70: the derive macros

For every struct declaration, whatever the types of its fields: what the derived encoder writes, what the derived
decoder reads, and when there is none.  Then, for every deriving type of the crate, that the generated programs are
the codecs that the other theorems are about.
-/

namespace Verif

open Derive

variable {τ : Type} [DecidableEq τ]

omit [DecidableEq τ] in
/-- The macros work for structs and for nothing else. -/
theorem C70_structs_only (v : Ver) (D : Data τ) :
    ((deriveEncode v D).isSome ↔ ∃ F, D = .struct F) ∧ ((deriveDecode v D).isSome ↔ ∃ F, D = .struct F) := by
  constructor <;> rcases D with (_ | _ | _) | _ | _ <;> cases v <;>
    simp [deriveEncode, deriveDecode, siaEncode, siaDecode, v1SiaEncode, v1SiaDecode]

omit [DecidableEq τ] in
/-- A derived encoder compiles and writes the encodings of the covered fields, in declaration order, and nothing
else.  In v1 all fields are covered, in v2 all but the named fields that are not `pub`. -/
theorem C70_encoder {v : Ver} (sem : τ → Ty v) (F : Fields τ) (hd : F.Distinct) (x : Value sem F.types) :
    encoderOf sem F x = some (layout sem (F.covered v) F.types x) := encoder_eq sem F hd x

/-- A derived decoder compiles exactly if all fields are covered. -/
theorem C70_compiles {v : Ver} (sem : τ → Ty v) (F : Fields τ) (hd : F.Distinct) :
    (decoderOf sem F).isSome ↔ F.Covered v := by
  constructor
  · intro h
    exact Classical.byContradiction fun hc => by simp [decoder_private sem F hd hc] at h
  · intro hc
    simp [decoder_eq sem F hd hc]

/-- A derived decoder reads the fields in declaration order, each with its own decoder: it accepts exactly the
streams that start with them, and otherwise fails, or panics, as the first of them that does. -/
theorem C70_decoder {v : Ver} (sem : τ → Ty v) (F : Fields τ) (hd : F.Distinct) (hc : F.Covered v) :
    ∃ d, decoderOf sem F = some d ∧ ∀ lim bs,
      (∀ x rest, d lim bs = .ok (x, rest) ↔ Reads sem lim F.types bs x rest) ∧
      (∀ e, d lim bs = .err e ↔ Fails sem lim e F.types bs) ∧
      (d lim bs = .panic ↔ Panics sem lim F.types bs) :=
  ⟨_, decoder_eq sem F hd hc, fun lim bs => ⟨decodeAll_ok sem lim _ bs, fun e => decodeAll_err sem lim e _ bs,
    decodeAll_panic sem lim _ bs⟩⟩

/-- A value whose fields are read back is read back: the derived decoder inverts the derived encoder, and leaves
what follows in the stream. -/
theorem C70_round_trip {v : Ver} (sem : τ → Ty v) (F : Fields τ) (hd : F.Distinct) (hc : F.Covered v) (lim : Lim)
    (x : Value sem F.types) (hx : FieldsReadBack sem lim F.types x) :
    ∃ d bs, decoderOf sem F = some d ∧ encoderOf sem F x = some bs ∧ ∀ rest, d lim (bs ++ rest) = .ok (x, rest) :=
  ⟨_, _, decoder_eq sem F hd hc, encoder_eq sem F hd x, fun rest =>
    (decodeAll_ok sem lim _ _ x rest).2 (reads_back sem lim _ _ x rest (covered_length F) hc hx)⟩

/-- What v2 does to a struct with a named field that is not `pub`: it has no decoder, and values that differ in such
fields only have the same encoding. -/
theorem C70_private (sem : τ → Ty .v2) (l : List (Named τ)) (hd : (l.map fun f => f.name).Nodup)
    (hp : ∃ f ∈ l, f.vis ≠ .pub) :
    decoderOf sem (.named l) = none ∧
    ∀ x y : Value sem (Fields.named l).types,
      Alike sem (l.map fun f => decide (f.vis = .pub)) (Fields.named l).types x y →
      encoderOf sem (.named l) x = encoderOf sem (.named l) y := by
  constructor
  · apply decoder_private sem (.named l) hd
    intro hc
    obtain ⟨f, hf, hv⟩ := hp
    have := hc _ (by simp only [Fields.covered]; exact List.mem_map_of_mem hf)
    simp [hv] at this
  · intro x y h
    rw [encoder_eq sem (.named l) hd, encoder_eq sem (.named l) hd]
    refine congrArg some (layout_alike sem _ _ x y ?_)
    have e : (Fields.named l).covered .v2 = l.map fun f => decide (f.vis = .pub) := by simp [Fields.covered]
    rw [e]
    exact h

omit [DecidableEq τ] in
/-- For structs without private named fields the macros of the two versions write the same programs. -/
theorem C70_same_programs (F : Fields τ) (hc : F.Covered .v2) :
    deriveEncode .v1 (.struct F) = deriveEncode .v2 (.struct F) ∧
    deriveDecode .v1 (.struct F) = deriveDecode .v2 (.struct F) := by
  cases F with
  | unnamed l => exact ⟨rfl, rfl⟩
  | unit => exact ⟨rfl, rfl⟩
  | named l =>
    have hv : ∀ f ∈ l, f.vis = .pub := fun f hf => by
      have := hc _ (by simp only [Fields.covered]; exact List.mem_map_of_mem hf)
      simpa using this
    clear hc
    simp only [deriveEncode, deriveDecode, siaEncode, siaDecode, v1SiaEncode, v1SiaDecode, Option.some.injEq,
      Decoder.named.injEq]
    induction l with
    | nil => exact ⟨rfl, rfl⟩
    | cons f l ih =>
      have h := ih fun g hg => hv g (by simp [hg])
      rw [List.filterMap_cons, List.filterMap_cons, ← h.1, ← h.2]
      simp [hv f (by simp)]

/-! ## The types of the crate -/

/-- The types that derive the codecs of both versions. -/
theorem C70_crate :
    (Derives .v1 (RTy.sem .v1) Decl.hashId Hash256 fun x => (x, ())) ∧
    (Derives .v2 (RTy.sem .v2) Decl.hashId Hash256 fun x => (x, ())) ∧
    (Derives .v1 (RTy.sem .v1) Decl.hashId SiacoinOutputID fun x => (x, ())) ∧
    (Derives .v2 (RTy.sem .v2) Decl.hashId SiacoinOutputID fun x => (x, ())) ∧
    (Derives .v1 (RTy.sem .v1) Decl.hashId SiafundOutputID fun x => (x, ())) ∧
    (Derives .v2 (RTy.sem .v2) Decl.hashId SiafundOutputID fun x => (x, ())) ∧
    (Derives .v1 (RTy.sem .v1) Decl.hashId BlockID fun x => (x, ())) ∧
    (Derives .v2 (RTy.sem .v2) Decl.hashId BlockID fun x => (x, ())) ∧
    (Derives .v1 (RTy.sem .v1) Decl.hashId TransactionID fun x => (x, ())) ∧
    (Derives .v2 (RTy.sem .v2) Decl.hashId TransactionID fun x => (x, ())) ∧
    (Derives .v1 (RTy.sem .v1) Decl.hashId FileContractID fun x => (x, ())) ∧
    (Derives .v2 (RTy.sem .v2) Decl.hashId FileContractID fun x => (x, ())) ∧
    (Derives .v1 (RTy.sem .v1) Decl.hashId AttestationID fun x => (x, ())) ∧
    (Derives .v2 (RTy.sem .v2) Decl.hashId AttestationID fun x => (x, ())) ∧
    (Derives .v1 (RTy.sem .v1) Decl.address Address fun x => (x, ())) ∧
    (Derives .v2 (RTy.sem .v2) Decl.address Address fun x => (x, ())) ∧
    (Derives .v1 (RTy.sem .v1) Decl.leaf Leaf fun x => (x, ())) ∧
    (Derives .v2 (RTy.sem .v2) Decl.leaf Leaf fun x => (x, ())) ∧
    (Derives .v1 (RTy.sem .v1) Decl.specifier Specifier fun x => (x, ())) ∧
    (Derives .v2 (RTy.sem .v2) Decl.specifier Specifier fun x => (x, ())) ∧
    (Derives .v1 (RTy.sem .v1) Decl.siacoinOutput SiacoinOutput fun x => (x.value, x.address, ())) ∧
    (Derives .v2 (RTy.sem .v2) Decl.siacoinOutput SiacoinOutput fun x => (x.value, x.address, ())) ∧
    (Derives .v1 (RTy.sem .v1) Decl.unlockKey UnlockKey fun x => (x.algorithm, x.key, ())) ∧
    (Derives .v2 (RTy.sem .v2) Decl.unlockKey UnlockKey fun x => (x.algorithm, x.key, ())) ∧
    (Derives .v1 (RTy.sem .v1) Decl.unlockConditions UnlockConditions
      fun x => (x.timelock, x.publicKeys, x.signaturesRequired, ())) ∧
    (Derives .v2 (RTy.sem .v2) Decl.unlockConditions UnlockConditions
      fun x => (x.timelock, x.publicKeys, x.signaturesRequired, ())) :=
  ⟨derives_hash256_v1,
    derives_hash256_v2,
    derives_siacoinOutputID_v1,
    derives_siacoinOutputID_v2,
    derives_siafundOutputID_v1,
    derives_siafundOutputID_v2,
    derives_blockID_v1,
    derives_blockID_v2,
    derives_transactionID_v1,
    derives_transactionID_v2,
    derives_fileContractID_v1,
    derives_fileContractID_v2,
    derives_attestationID_v1,
    derives_attestationID_v2,
    derives_address_v1,
    derives_address_v2,
    derives_leaf_v1,
    derives_leaf_v2,
    derives_specifier_v1,
    derives_specifier_v2,
    derives_siacoinOutput_v1,
    derives_siacoinOutput_v2,
    derives_unlockKey_v1,
    derives_unlockKey_v2,
    derives_unlockConditions_v1,
    derives_unlockConditions_v2⟩

/-- The types that derive the v1 codec only. -/
theorem C70_crate_v1 :
    (Derives .v1 (RTy.sem .v1) Decl.v1SiacoinInput V1.SiacoinInput
      fun x => (x.parentId, x.unlockConditions, ())) ∧
    (Derives .v1 (RTy.sem .v1) Decl.v1SiafundInput V1.SiafundInput
      fun x => (x.parentId, x.unlockConditions, x.claimAddress, ())) ∧
    (Derives .v1 (RTy.sem .v1) Decl.v1FileContract V1.FileContract
      fun x => (x.fileSize, x.fileMerkleRoot, x.windowStart, x.windowEnd, x.payout, x.validProofOutputs,
      x.missedProofOutputs, x.unlockHash, x.revisionNumber, ())) ∧
    (Derives .v1 (RTy.sem .v1) Decl.v1FileContractRevision V1.FileContractRevision
      fun x => (x.parentId, x.unlockConditions, x.revisionNumber, x.fileSize, x.fileMerkleRoot, x.windowStart, x.windowEnd,
      x.validProofOutputs, x.missedProofOutputs, x.unlockHash, ())) ∧
    (Derives .v1 (RTy.sem .v1) Decl.v1StorageProof V1.StorageProof fun x => (x.parentId, x.leaf, x.proof, ())) ∧
    (Derives .v1 (RTy.sem .v1) Decl.v1CoveredFields V1.CoveredFields
      fun x => (x.wholeTransaction, x.siacoinInputs, x.siacoinOutputs, x.fileContracts, x.fileContractRevisions,
      x.storageProofs, x.siafundInputs, x.siafundOutputs, x.minerFees, x.arbitraryData, x.signatures, ())) ∧
    (Derives .v1 (RTy.sem .v1) Decl.v1TransactionSignature V1.TransactionSignature
      fun x => (x.parentId, x.publicKeyIndex, x.timelock, x.coveredFields, x.signature, ())) ∧
    (Derives .v1 (RTy.sem .v1) Decl.v1Transaction V1.Transaction
      fun x => (x.siacoinInputs, x.siacoinOutputs, x.fileContracts, x.fileContractRevisions, x.storageProofs,
      x.siafundInputs, x.siafundOutputs, x.minerFees, x.arbitraryData, x.signatures, ())) :=
  ⟨derives_v1SiacoinInput_v1,
    derives_v1SiafundInput_v1,
    derives_v1FileContract_v1,
    derives_v1FileContractRevision_v1,
    derives_v1StorageProof_v1,
    derives_v1CoveredFields_v1,
    derives_v1TransactionSignature_v1,
    derives_v1Transaction_v1⟩

/-- The types that derive the v2 codec only. -/
theorem C70_crate_v2 :
    (Derives .v2 (RTy.sem .v2) Decl.publicKey PublicKey fun x => (x, ())) ∧
    (Derives .v2 (RTy.sem .v2) Decl.signature Signature fun x => (x, ())) ∧
    (Derives .v2 (RTy.sem .v2) Decl.chainIndex ChainIndex fun x => (x.height, x.id, ())) ∧
    (Derives .v2 (RTy.sem .v2) Decl.siafundOutput SiafundOutput fun x => (x.value, x.address, ())) ∧
    (Derives .v2 (RTy.sem .v2) Decl.stateElement StateElement fun x => (x.leafIndex, x.merkleProof, ())) ∧
    (Derives .v2 (RTy.sem .v2) Decl.satisfiedPolicy SatisfiedPolicy
      fun x => (x.policy, x.signatures, x.preimages, ())) ∧
    (Derives .v2 (RTy.sem .v2) Decl.attestation V2.Attestation
      fun x => (x.publicKey, x.key, x.value, x.signature, ())) ∧
    (Derives .v2 (RTy.sem .v2) Decl.v2FileContract V2.FileContract
      fun x => (x.capacity, x.filesize, x.fileMerkleRoot, x.proofHeight, x.expirationHeight, x.renterOutput, x.hostOutput,
      x.missedHostValue, x.totalCollateral, x.renterPublicKey, x.hostPublicKey, x.revisionNumber,
      x.renterSignature, x.hostSignature, ())) ∧
    (Derives .v2 (RTy.sem .v2) Decl.siacoinElement V2.SiacoinElement
      fun x => (x.stateElement, x.id, x.siacoinOutput, x.maturityHeight, ())) ∧
    (Derives .v2 (RTy.sem .v2) Decl.siafundElement V2.SiafundElement
      fun x => (x.stateElement, x.id, x.siafundOutput, x.claimStart, ())) ∧
    (Derives .v2 (RTy.sem .v2) Decl.fileContractElement V2.FileContractElement
      fun x => (x.stateElement, x.id, x.fileContract, ())) ∧
    (Derives .v2 (RTy.sem .v2) Decl.chainIndexElement V2.ChainIndexElement
      fun x => (x.stateElement, x.id, x.chainIndex, ())) ∧
    (Derives .v2 (RTy.sem .v2) Decl.v2SiacoinInput V2.SiacoinInput fun x => (x.parent, x.satisfiedPolicy, ())) ∧
    (Derives .v2 (RTy.sem .v2) Decl.v2SiafundInput V2.SiafundInput
      fun x => (x.parent, x.claimAddress, x.satisfiedPolicy, ())) ∧
    (Derives .v2 (RTy.sem .v2) Decl.v2FileContractRevision V2.FileContractRevision
      fun x => (x.parent, x.revision, ())) ∧
    (Derives .v2 (RTy.sem .v2) Decl.fileContractRenewal V2.FileContractRenewal
      fun x => (x.finalRevision, x.newContract, x.renterRollover, x.hostRollover, x.renterSignature, x.hostSignature, ())) ∧
    (Derives .v2 (RTy.sem .v2) Decl.v2StorageProof V2.StorageProof
      fun x => (x.proofIndex, x.leaf, x.proof, ())) :=
  ⟨derives_publicKey_v2,
    derives_signature_v2,
    derives_chainIndex_v2,
    derives_siafundOutput_v2,
    derives_stateElement_v2,
    derives_satisfiedPolicy_v2,
    derives_v2Attestation_v2,
    derives_v2FileContract_v2,
    derives_v2SiacoinElement_v2,
    derives_v2SiafundElement_v2,
    derives_v2FileContractElement_v2,
    derives_v2ChainIndexElement_v2,
    derives_v2SiacoinInput_v2,
    derives_v2SiafundInput_v2,
    derives_v2FileContractRevision_v2,
    derives_v2FileContractRenewal_v2,
    derives_v2StorageProof_v2⟩

/-- The names that belong to the accessors of `C70_crate`, `C70_crate_v1` and `C70_crate_v2`: the struct fields in
declaration order, which is the order on the wire. -/
theorem C70_names :
    Decl.chainIndex.names = ["height", "id"] ∧
    Decl.siacoinOutput.names = ["value", "address"] ∧
    Decl.siafundOutput.names = ["value", "address"] ∧
    Decl.stateElement.names = ["leaf_index", "merkle_proof"] ∧
    Decl.unlockKey.names = ["algorithm", "key"] ∧
    Decl.unlockConditions.names = ["timelock", "public_keys", "signatures_required"] ∧
    Decl.v1SiacoinInput.names = ["parent_id", "unlock_conditions"] ∧
    Decl.v1SiafundInput.names = ["parent_id", "unlock_conditions", "claim_address"] ∧
    Decl.v1FileContract.names = ["file_size", "file_merkle_root", "window_start", "window_end", "payout",
      "valid_proof_outputs", "missed_proof_outputs", "unlock_hash", "revision_number"] ∧
    Decl.v1FileContractRevision.names = ["parent_id", "unlock_conditions", "revision_number", "file_size",
      "file_merkle_root", "window_start", "window_end", "valid_proof_outputs", "missed_proof_outputs", "unlock_hash"] ∧
    Decl.v1StorageProof.names = ["parent_id", "leaf", "proof"] ∧
    Decl.v1CoveredFields.names = ["whole_transaction", "siacoin_inputs", "siacoin_outputs", "file_contracts",
      "file_contract_revisions", "storage_proofs", "siafund_inputs", "siafund_outputs", "miner_fees",
      "arbitrary_data", "signatures"] ∧
    Decl.v1TransactionSignature.names = ["parent_id", "public_key_index", "timelock", "covered_fields", "signature"] ∧
    Decl.v1Transaction.names = ["siacoin_inputs", "siacoin_outputs", "file_contracts", "file_contract_revisions",
      "storage_proofs", "siafund_inputs", "siafund_outputs", "miner_fees", "arbitrary_data", "signatures"] ∧
    Decl.satisfiedPolicy.names = ["policy", "signatures", "preimages"] ∧
    Decl.attestation.names = ["public_key", "key", "value", "signature"] ∧
    Decl.v2FileContract.names = ["capacity", "filesize", "file_merkle_root", "proof_height", "expiration_height",
      "renter_output", "host_output", "missed_host_value", "total_collateral", "renter_public_key",
      "host_public_key", "revision_number", "renter_signature", "host_signature"] ∧
    Decl.siacoinElement.names = ["state_element", "id", "siacoin_output", "maturity_height"] ∧
    Decl.siafundElement.names = ["state_element", "id", "siafund_output", "claim_start"] ∧
    Decl.fileContractElement.names = ["state_element", "id", "v2_file_contract"] ∧
    Decl.chainIndexElement.names = ["state_element", "id", "chain_index"] ∧
    Decl.v2SiacoinInput.names = ["parent", "satisfied_policy"] ∧
    Decl.v2SiafundInput.names = ["parent", "claim_address", "satisfied_policy"] ∧
    Decl.v2FileContractRevision.names = ["parent", "revision"] ∧
    Decl.fileContractRenewal.names = ["final_revision", "new_contract", "renter_rollover", "host_rollover",
      "renter_signature", "host_signature"] ∧
    Decl.v2StorageProof.names = ["proof_index", "leaf", "proof"] := by
  refine ⟨?_, ?_, ?_, ?_, ?_, ?_, ?_, ?_, ?_, ?_, ?_, ?_, ?_, ?_, ?_, ?_, ?_, ?_, ?_, ?_, ?_, ?_, ?_, ?_, ?_, ?_⟩ <;> rfl

/-! ## Examples -/

/-- A struct with a private field in the middle. -/
def partlyPrivate : List (Named RTy) := [⟨"a", .pub, .u8⟩, ⟨"b", .other, .u8⟩, ⟨"c", .pub, .u8⟩]

example : encoderOf (RTy.sem .v1) (.named partlyPrivate) ((1 : UInt8), (2 : UInt8), (3 : UInt8), ()) =
    some [1, 2, 3] := by decide +kernel

example : encoderOf (RTy.sem .v2) (.named partlyPrivate) ((1 : UInt8), (2 : UInt8), (3 : UInt8), ()) =
    some [1, 3] := by decide +kernel

example : (decoderOf (RTy.sem .v2) (.named partlyPrivate)).isNone ∧
    (decoderOf (RTy.sem .v1) (.named partlyPrivate)).isSome := by decide +kernel

/-- The hypotheses of `C70_private` hold for it, and two different values have the same encoding. -/
example : (∃ f ∈ partlyPrivate, f.vis ≠ .pub) ∧
    Alike (RTy.sem .v2) (partlyPrivate.map fun f => decide (f.vis = .pub)) (Fields.named partlyPrivate).types
      ((1 : UInt8), (2 : UInt8), (3 : UInt8), ()) ((1 : UInt8), (9 : UInt8), (3 : UInt8), ()) :=
  ⟨⟨⟨"b", .other, .u8⟩, by simp [partlyPrivate], by decide⟩, fun _ => rfl, fun h => by simp at h, fun _ => rfl, trivial⟩

/-- The derived decoder of a chain index at work. -/
example : ∃ d, decoderOf (RTy.sem .v2) Decl.chainIndex = some d ∧
    d ⟨100, 100⟩ ([5, 0, 0, 0, 0, 0, 0, 0] ++ List.replicate 32 7 ++ [1, 2]) =
      .ok (((5 : U64), (⟨List.replicate 32 7, by simp⟩ : BlockID), ()), [1, 2]) := by
  obtain ⟨d, hd, h⟩ := C70_decoder (RTy.sem .v2) Decl.chainIndex
    (by simp [Fields.Distinct, Decl.chainIndex, Decl.pub])
    (by simp [Fields.Covered, Fields.covered, Decl.chainIndex, Decl.pub])
  refine ⟨d, hd, ((h _ _).1 _ _).2 ?_⟩
  exact ⟨List.replicate 32 7 ++ [1, 2], rfl, [1, 2], rfl, rfl⟩

end Verif
