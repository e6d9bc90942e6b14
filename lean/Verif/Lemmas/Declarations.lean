import Verif.Lemmas.Derive
import Verif.Model.Declarations

/-! # The derived codecs of the crate: lemmas -/

namespace Verif.Derive

theorem derives_hash256_v1 :
    Derives .v1 (RTy.sem .v1) Decl.hashId Hash256 fun x => (x, ()) :=
  .of _ _ (trivial) (by simp [Fields.Covered, Fields.covered, Decl.hashId])
    (Flat.one (RTy.sem .v1) (.bytes 32))

theorem derives_hash256_v2 :
    Derives .v2 (RTy.sem .v2) Decl.hashId Hash256 fun x => (x, ()) :=
  .of _ _ (trivial) (by simp [Fields.Covered, Fields.covered, Decl.hashId])
    (Flat.one (RTy.sem .v2) (.bytes 32))

theorem derives_siacoinOutputID_v1 :
    Derives .v1 (RTy.sem .v1) Decl.hashId SiacoinOutputID fun x => (x, ()) :=
  .of _ _ (trivial) (by simp [Fields.Covered, Fields.covered, Decl.hashId])
    (Flat.one (RTy.sem .v1) (.bytes 32))

theorem derives_siacoinOutputID_v2 :
    Derives .v2 (RTy.sem .v2) Decl.hashId SiacoinOutputID fun x => (x, ()) :=
  .of _ _ (trivial) (by simp [Fields.Covered, Fields.covered, Decl.hashId])
    (Flat.one (RTy.sem .v2) (.bytes 32))

theorem derives_siafundOutputID_v1 :
    Derives .v1 (RTy.sem .v1) Decl.hashId SiafundOutputID fun x => (x, ()) :=
  .of _ _ (trivial) (by simp [Fields.Covered, Fields.covered, Decl.hashId])
    (Flat.one (RTy.sem .v1) (.bytes 32))

theorem derives_siafundOutputID_v2 :
    Derives .v2 (RTy.sem .v2) Decl.hashId SiafundOutputID fun x => (x, ()) :=
  .of _ _ (trivial) (by simp [Fields.Covered, Fields.covered, Decl.hashId])
    (Flat.one (RTy.sem .v2) (.bytes 32))

theorem derives_blockID_v1 :
    Derives .v1 (RTy.sem .v1) Decl.hashId BlockID fun x => (x, ()) :=
  .of _ _ (trivial) (by simp [Fields.Covered, Fields.covered, Decl.hashId])
    (Flat.one (RTy.sem .v1) (.bytes 32))

theorem derives_blockID_v2 :
    Derives .v2 (RTy.sem .v2) Decl.hashId BlockID fun x => (x, ()) :=
  .of _ _ (trivial) (by simp [Fields.Covered, Fields.covered, Decl.hashId])
    (Flat.one (RTy.sem .v2) (.bytes 32))

theorem derives_transactionID_v1 :
    Derives .v1 (RTy.sem .v1) Decl.hashId TransactionID fun x => (x, ()) :=
  .of _ _ (trivial) (by simp [Fields.Covered, Fields.covered, Decl.hashId])
    (Flat.one (RTy.sem .v1) (.bytes 32))

theorem derives_transactionID_v2 :
    Derives .v2 (RTy.sem .v2) Decl.hashId TransactionID fun x => (x, ()) :=
  .of _ _ (trivial) (by simp [Fields.Covered, Fields.covered, Decl.hashId])
    (Flat.one (RTy.sem .v2) (.bytes 32))

theorem derives_fileContractID_v1 :
    Derives .v1 (RTy.sem .v1) Decl.hashId FileContractID fun x => (x, ()) :=
  .of _ _ (trivial) (by simp [Fields.Covered, Fields.covered, Decl.hashId])
    (Flat.one (RTy.sem .v1) (.bytes 32))

theorem derives_fileContractID_v2 :
    Derives .v2 (RTy.sem .v2) Decl.hashId FileContractID fun x => (x, ()) :=
  .of _ _ (trivial) (by simp [Fields.Covered, Fields.covered, Decl.hashId])
    (Flat.one (RTy.sem .v2) (.bytes 32))

theorem derives_attestationID_v1 :
    Derives .v1 (RTy.sem .v1) Decl.hashId AttestationID fun x => (x, ()) :=
  .of _ _ (trivial) (by simp [Fields.Covered, Fields.covered, Decl.hashId])
    (Flat.one (RTy.sem .v1) (.bytes 32))

theorem derives_attestationID_v2 :
    Derives .v2 (RTy.sem .v2) Decl.hashId AttestationID fun x => (x, ()) :=
  .of _ _ (trivial) (by simp [Fields.Covered, Fields.covered, Decl.hashId])
    (Flat.one (RTy.sem .v2) (.bytes 32))

theorem derives_address_v1 :
    Derives .v1 (RTy.sem .v1) Decl.address Address fun x => (x, ()) :=
  .of _ _ (trivial) (by simp [Fields.Covered, Fields.covered, Decl.address])
    (Flat.one (RTy.sem .v1) (.bytes 32))

theorem derives_address_v2 :
    Derives .v2 (RTy.sem .v2) Decl.address Address fun x => (x, ()) :=
  .of _ _ (trivial) (by simp [Fields.Covered, Fields.covered, Decl.address])
    (Flat.one (RTy.sem .v2) (.bytes 32))

theorem derives_leaf_v1 :
    Derives .v1 (RTy.sem .v1) Decl.leaf Leaf fun x => (x, ()) :=
  .of _ _ (trivial) (by simp [Fields.Covered, Fields.covered, Decl.leaf])
    (Flat.one (RTy.sem .v1) (.bytes 64))

theorem derives_leaf_v2 :
    Derives .v2 (RTy.sem .v2) Decl.leaf Leaf fun x => (x, ()) :=
  .of _ _ (trivial) (by simp [Fields.Covered, Fields.covered, Decl.leaf])
    (Flat.one (RTy.sem .v2) (.bytes 64))

theorem derives_specifier_v1 :
    Derives .v1 (RTy.sem .v1) Decl.specifier Specifier fun x => (x, ()) :=
  .of _ _ (trivial) (by simp [Fields.Covered, Fields.covered, Decl.specifier])
    (Flat.one (RTy.sem .v1) (.bytes 16))

theorem derives_specifier_v2 :
    Derives .v2 (RTy.sem .v2) Decl.specifier Specifier fun x => (x, ()) :=
  .of _ _ (trivial) (by simp [Fields.Covered, Fields.covered, Decl.specifier])
    (Flat.one (RTy.sem .v2) (.bytes 16))

theorem derives_publicKey_v2 :
    Derives .v2 (RTy.sem .v2) Decl.publicKey PublicKey fun x => (x, ()) :=
  .of _ _ (trivial) (by simp [Fields.Covered, Fields.covered, Decl.publicKey])
    (Flat.one (RTy.sem .v2) (.bytes 32))

theorem derives_signature_v2 :
    Derives .v2 (RTy.sem .v2) Decl.signature Signature fun x => (x, ()) :=
  .of _ _ (trivial) (by simp [Fields.Covered, Fields.covered, Decl.signature])
    (Flat.one (RTy.sem .v2) (.bytes 64))

theorem derives_chainIndex_v2 :
    Derives .v2 (RTy.sem .v2) Decl.chainIndex ChainIndex fun x => (x.height, x.id, ()) :=
  .of _ _ (by simp [Fields.Distinct, Decl.chainIndex, Decl.pub]) (by simp [Fields.Covered, Fields.covered, Decl.chainIndex, Decl.pub])
    (Flat.struct (RTy.sem .v2) (S := ChainIndex) <|
      .cons (RTy.sem .v2) (.u64) <|
      .one (RTy.sem .v2) (.blockId))

theorem derives_siacoinOutput_v1 :
    Derives .v1 (RTy.sem .v1) Decl.siacoinOutput SiacoinOutput fun x => (x.value, x.address, ()) :=
  .of _ _ (by simp [Fields.Distinct, Decl.siacoinOutput, Decl.pub]) (by simp [Fields.Covered, Fields.covered, Decl.siacoinOutput, Decl.pub])
    (Flat.struct (RTy.sem .v1) (S := SiacoinOutput) <|
      .cons (RTy.sem .v1) (.currency) <|
      .one (RTy.sem .v1) (.address))

theorem derives_siacoinOutput_v2 :
    Derives .v2 (RTy.sem .v2) Decl.siacoinOutput SiacoinOutput fun x => (x.value, x.address, ()) :=
  .of _ _ (by simp [Fields.Distinct, Decl.siacoinOutput, Decl.pub]) (by simp [Fields.Covered, Fields.covered, Decl.siacoinOutput, Decl.pub])
    (Flat.struct (RTy.sem .v2) (S := SiacoinOutput) <|
      .cons (RTy.sem .v2) (.currency) <|
      .one (RTy.sem .v2) (.address))

theorem derives_siafundOutput_v2 :
    Derives .v2 (RTy.sem .v2) Decl.siafundOutput SiafundOutput fun x => (x.value, x.address, ()) :=
  .of _ _ (by simp [Fields.Distinct, Decl.siafundOutput, Decl.pub]) (by simp [Fields.Covered, Fields.covered, Decl.siafundOutput, Decl.pub])
    { inj := fun a b h => by
        have h : ((a.value, a.address, ()) : U64 × Address × Unit) = (b.value, b.address, ()) := h
        cases a; cases b; simpa using h
      surj := fun x => ⟨⟨x.1, x.2.1⟩, rfl⟩
      enc := fun bs hl hb a => by
        match bs, hl with
        | [b, c], _ =>
          have hb0 : b = true := hb b (by simp)
          have hc0 : c = true := hb c (by simp)
          subst hb0 hc0
          show enc .v2 a.value ++ (enc .v2 a.address ++ []) = enc .v2 a.value ++ enc .v2 a.address
          simp
      dec := fun lim bs => by
        show (do let a ← (dec .v2 : Dec U64)
                 let b ← (do let b ← (dec .v2 : Dec Address)
                             let c ← (pure () : Dec Unit)
                             pure (b, c))
                 pure (a, b) : Dec (U64 × Address × Unit)) lim bs =
          (do let x ← (do let a ← (dec .v2 : Dec U64)
                          let b ← (dec .v2 : Dec Address)
                          pure (⟨a, b⟩ : SiafundOutput))
              pure (x.value, x.address, ()) : Dec (U64 × Address × Unit)) lim bs
        simp only [bind, Dec.bind]
        cases (dec .v2 : Dec U64) lim bs with
        | err e => rfl
        | panic => rfl
        | ok p =>
          simp only
          cases (dec .v2 : Dec Address) lim p.2 <;> rfl }

theorem derives_stateElement_v2 :
    Derives .v2 (RTy.sem .v2) Decl.stateElement StateElement fun x => (x.leafIndex, x.merkleProof, ()) :=
  .of _ _ (by simp [Fields.Distinct, Decl.stateElement, Decl.pub]) (by simp [Fields.Covered, Fields.covered, Decl.stateElement, Decl.pub])
    (Flat.struct (RTy.sem .v2) (S := StateElement) <|
      .cons (RTy.sem .v2) (.u64) <|
      .one (RTy.sem .v2) (.vec .hash256))

theorem derives_unlockKey_v1 :
    Derives .v1 (RTy.sem .v1) Decl.unlockKey UnlockKey fun x => (x.algorithm, x.key, ()) :=
  .of _ _ (by simp [Fields.Distinct, Decl.unlockKey, Decl.pub]) (by simp [Fields.Covered, Fields.covered, Decl.unlockKey, Decl.pub])
    (Flat.struct (RTy.sem .v1) (S := UnlockKey) <|
      .cons (RTy.sem .v1) (.specifier) <|
      .one (RTy.sem .v1) (.vec .u8))

theorem derives_unlockKey_v2 :
    Derives .v2 (RTy.sem .v2) Decl.unlockKey UnlockKey fun x => (x.algorithm, x.key, ()) :=
  .of _ _ (by simp [Fields.Distinct, Decl.unlockKey, Decl.pub]) (by simp [Fields.Covered, Fields.covered, Decl.unlockKey, Decl.pub])
    (Flat.struct (RTy.sem .v2) (S := UnlockKey) <|
      .cons (RTy.sem .v2) (.specifier) <|
      .one (RTy.sem .v2) (.vec .u8))

theorem derives_unlockConditions_v1 :
    Derives .v1 (RTy.sem .v1) Decl.unlockConditions UnlockConditions
      fun x => (x.timelock, x.publicKeys, x.signaturesRequired, ()) :=
  .of _ _ (by simp [Fields.Distinct, Decl.unlockConditions, Decl.pub]) (by simp [Fields.Covered, Fields.covered, Decl.unlockConditions, Decl.pub])
    (Flat.struct (RTy.sem .v1) (S := UnlockConditions) <|
      .cons (RTy.sem .v1) (.u64) <|
      .cons (RTy.sem .v1) (.vec .unlockKey) <|
      .one (RTy.sem .v1) (.u64))

theorem derives_unlockConditions_v2 :
    Derives .v2 (RTy.sem .v2) Decl.unlockConditions UnlockConditions
      fun x => (x.timelock, x.publicKeys, x.signaturesRequired, ()) :=
  .of _ _ (by simp [Fields.Distinct, Decl.unlockConditions, Decl.pub]) (by simp [Fields.Covered, Fields.covered, Decl.unlockConditions, Decl.pub])
    (Flat.struct (RTy.sem .v2) (S := UnlockConditions) <|
      .cons (RTy.sem .v2) (.u64) <|
      .cons (RTy.sem .v2) (.vec .unlockKey) <|
      .one (RTy.sem .v2) (.u64))

theorem derives_v1SiacoinInput_v1 :
    Derives .v1 (RTy.sem .v1) Decl.v1SiacoinInput V1.SiacoinInput
      fun x => (x.parentId, x.unlockConditions, ()) :=
  .of _ _ (by simp [Fields.Distinct, Decl.v1SiacoinInput, Decl.pub]) (by simp [Fields.Covered, Fields.covered, Decl.v1SiacoinInput, Decl.pub])
    (Flat.struct (RTy.sem .v1) (S := V1.SiacoinInput) <|
      .cons (RTy.sem .v1) (.siacoinOutputId) <|
      .one (RTy.sem .v1) (.unlockConditions))

theorem derives_v1SiafundInput_v1 :
    Derives .v1 (RTy.sem .v1) Decl.v1SiafundInput V1.SiafundInput
      fun x => (x.parentId, x.unlockConditions, x.claimAddress, ()) :=
  .of _ _ (by simp [Fields.Distinct, Decl.v1SiafundInput, Decl.pub]) (by simp [Fields.Covered, Fields.covered, Decl.v1SiafundInput, Decl.pub])
    (Flat.struct (RTy.sem .v1) (S := V1.SiafundInput) <|
      .cons (RTy.sem .v1) (.siafundOutputId) <|
      .cons (RTy.sem .v1) (.unlockConditions) <|
      .one (RTy.sem .v1) (.address))

theorem derives_v1FileContract_v1 :
    Derives .v1 (RTy.sem .v1) Decl.v1FileContract V1.FileContract
      fun x => (x.fileSize, x.fileMerkleRoot, x.windowStart, x.windowEnd, x.payout, x.validProofOutputs,
    x.missedProofOutputs, x.unlockHash, x.revisionNumber, ()) :=
  .of _ _ (by simp [Fields.Distinct, Decl.v1FileContract, Decl.pub]) (by simp [Fields.Covered, Fields.covered, Decl.v1FileContract, Decl.pub])
    (Flat.struct (RTy.sem .v1) (S := V1.FileContract) <|
      .cons (RTy.sem .v1) (.u64) <|
      .cons (RTy.sem .v1) (.hash256) <|
      .cons (RTy.sem .v1) (.u64) <|
      .cons (RTy.sem .v1) (.u64) <|
      .cons (RTy.sem .v1) (.currency) <|
      .cons (RTy.sem .v1) (.vec .siacoinOutput) <|
      .cons (RTy.sem .v1) (.vec .siacoinOutput) <|
      .cons (RTy.sem .v1) (.address) <|
      .one (RTy.sem .v1) (.u64))

theorem derives_v1FileContractRevision_v1 :
    Derives .v1 (RTy.sem .v1) Decl.v1FileContractRevision V1.FileContractRevision
      fun x => (x.parentId, x.unlockConditions, x.revisionNumber, x.fileSize, x.fileMerkleRoot, x.windowStart, x.windowEnd,
    x.validProofOutputs, x.missedProofOutputs, x.unlockHash, ()) :=
  .of _ _ (by simp [Fields.Distinct, Decl.v1FileContractRevision, Decl.pub]) (by simp [Fields.Covered, Fields.covered, Decl.v1FileContractRevision, Decl.pub])
    (Flat.struct (RTy.sem .v1) (S := V1.FileContractRevision) <|
      .cons (RTy.sem .v1) (.fileContractId) <|
      .cons (RTy.sem .v1) (.unlockConditions) <|
      .cons (RTy.sem .v1) (.u64) <|
      .cons (RTy.sem .v1) (.u64) <|
      .cons (RTy.sem .v1) (.hash256) <|
      .cons (RTy.sem .v1) (.u64) <|
      .cons (RTy.sem .v1) (.u64) <|
      .cons (RTy.sem .v1) (.vec .siacoinOutput) <|
      .cons (RTy.sem .v1) (.vec .siacoinOutput) <|
      .one (RTy.sem .v1) (.address))

theorem derives_v1StorageProof_v1 :
    Derives .v1 (RTy.sem .v1) Decl.v1StorageProof V1.StorageProof fun x => (x.parentId, x.leaf, x.proof, ()) :=
  .of _ _ (by simp [Fields.Distinct, Decl.v1StorageProof, Decl.pub]) (by simp [Fields.Covered, Fields.covered, Decl.v1StorageProof, Decl.pub])
    (Flat.struct (RTy.sem .v1) (S := V1.StorageProof) <|
      .cons (RTy.sem .v1) (.fileContractId) <|
      .cons (RTy.sem .v1) (.leaf) <|
      .one (RTy.sem .v1) (.vec .hash256))

theorem derives_v1CoveredFields_v1 :
    Derives .v1 (RTy.sem .v1) Decl.v1CoveredFields V1.CoveredFields
      fun x => (x.wholeTransaction, x.siacoinInputs, x.siacoinOutputs, x.fileContracts, x.fileContractRevisions,
    x.storageProofs, x.siafundInputs, x.siafundOutputs, x.minerFees, x.arbitraryData, x.signatures, ()) :=
  .of _ _ (by simp [Fields.Distinct, Decl.v1CoveredFields, Decl.pub]) (by simp [Fields.Covered, Fields.covered, Decl.v1CoveredFields, Decl.pub])
    (Flat.struct (RTy.sem .v1) (S := V1.CoveredFields) <|
      .cons (RTy.sem .v1) (.bool) <|
      .cons (RTy.sem .v1) (.vec .usize) <|
      .cons (RTy.sem .v1) (.vec .usize) <|
      .cons (RTy.sem .v1) (.vec .usize) <|
      .cons (RTy.sem .v1) (.vec .usize) <|
      .cons (RTy.sem .v1) (.vec .usize) <|
      .cons (RTy.sem .v1) (.vec .usize) <|
      .cons (RTy.sem .v1) (.vec .usize) <|
      .cons (RTy.sem .v1) (.vec .usize) <|
      .cons (RTy.sem .v1) (.vec .usize) <|
      .one (RTy.sem .v1) (.vec .usize))

theorem derives_v1TransactionSignature_v1 :
    Derives .v1 (RTy.sem .v1) Decl.v1TransactionSignature V1.TransactionSignature
      fun x => (x.parentId, x.publicKeyIndex, x.timelock, x.coveredFields, x.signature, ()) :=
  .of _ _ (by simp [Fields.Distinct, Decl.v1TransactionSignature, Decl.pub]) (by simp [Fields.Covered, Fields.covered, Decl.v1TransactionSignature, Decl.pub])
    (Flat.struct (RTy.sem .v1) (S := V1.TransactionSignature) <|
      .cons (RTy.sem .v1) (.hash256) <|
      .cons (RTy.sem .v1) (.u64) <|
      .cons (RTy.sem .v1) (.u64) <|
      .cons (RTy.sem .v1) (.v1CoveredFields) <|
      .one (RTy.sem .v1) (.vec .u8))

theorem derives_v1Transaction_v1 :
    Derives .v1 (RTy.sem .v1) Decl.v1Transaction V1.Transaction
      fun x => (x.siacoinInputs, x.siacoinOutputs, x.fileContracts, x.fileContractRevisions, x.storageProofs,
    x.siafundInputs, x.siafundOutputs, x.minerFees, x.arbitraryData, x.signatures, ()) :=
  .of _ _ (by simp [Fields.Distinct, Decl.v1Transaction, Decl.pub]) (by simp [Fields.Covered, Fields.covered, Decl.v1Transaction, Decl.pub])
    (Flat.struct (RTy.sem .v1) (S := V1.Transaction) <|
      .cons (RTy.sem .v1) (.vec .v1SiacoinInput) <|
      .cons (RTy.sem .v1) (.vec .siacoinOutput) <|
      .cons (RTy.sem .v1) (.vec .v1FileContract) <|
      .cons (RTy.sem .v1) (.vec .v1FileContractRevision) <|
      .cons (RTy.sem .v1) (.vec .v1StorageProof) <|
      .cons (RTy.sem .v1) (.vec .v1SiafundInput) <|
      .cons (RTy.sem .v1) (.vec .siafundOutput) <|
      .cons (RTy.sem .v1) (.vec .currency) <|
      .cons (RTy.sem .v1) (.vec (.vec .u8)) <|
      .one (RTy.sem .v1) (.vec .v1TransactionSignature))

theorem derives_satisfiedPolicy_v2 :
    Derives .v2 (RTy.sem .v2) Decl.satisfiedPolicy SatisfiedPolicy
      fun x => (x.policy, x.signatures, x.preimages, ()) :=
  .of _ _ (by simp [Fields.Distinct, Decl.satisfiedPolicy, Decl.pub]) (by simp [Fields.Covered, Fields.covered, Decl.satisfiedPolicy, Decl.pub])
    (Flat.struct (RTy.sem .v2) (S := SatisfiedPolicy) <|
      .cons (RTy.sem .v2) (.spendPolicy) <|
      .cons (RTy.sem .v2) (.vec .signature) <|
      .one (RTy.sem .v2) (.vec .hash256))

theorem derives_v2Attestation_v2 :
    Derives .v2 (RTy.sem .v2) Decl.attestation V2.Attestation
      fun x => (x.publicKey, x.key, x.value, x.signature, ()) :=
  .of _ _ (by simp [Fields.Distinct, Decl.attestation, Decl.pub]) (by simp [Fields.Covered, Fields.covered, Decl.attestation, Decl.pub])
    (Flat.struct (RTy.sem .v2) (S := V2.Attestation) <|
      .cons (RTy.sem .v2) (.publicKey) <|
      .cons (RTy.sem .v2) (.string) <|
      .cons (RTy.sem .v2) (.vec .u8) <|
      .one (RTy.sem .v2) (.signature))

theorem derives_v2FileContract_v2 :
    Derives .v2 (RTy.sem .v2) Decl.v2FileContract V2.FileContract
      fun x => (x.capacity, x.filesize, x.fileMerkleRoot, x.proofHeight, x.expirationHeight, x.renterOutput, x.hostOutput,
    x.missedHostValue, x.totalCollateral, x.renterPublicKey, x.hostPublicKey, x.revisionNumber,
    x.renterSignature, x.hostSignature, ()) :=
  .of _ _ (by simp [Fields.Distinct, Decl.v2FileContract, Decl.pub]) (by simp [Fields.Covered, Fields.covered, Decl.v2FileContract, Decl.pub])
    (Flat.struct (RTy.sem .v2) (S := V2.FileContract) <|
      .cons (RTy.sem .v2) (.u64) <|
      .cons (RTy.sem .v2) (.u64) <|
      .cons (RTy.sem .v2) (.hash256) <|
      .cons (RTy.sem .v2) (.u64) <|
      .cons (RTy.sem .v2) (.u64) <|
      .cons (RTy.sem .v2) (.siacoinOutput) <|
      .cons (RTy.sem .v2) (.siacoinOutput) <|
      .cons (RTy.sem .v2) (.currency) <|
      .cons (RTy.sem .v2) (.currency) <|
      .cons (RTy.sem .v2) (.publicKey) <|
      .cons (RTy.sem .v2) (.publicKey) <|
      .cons (RTy.sem .v2) (.u64) <|
      .cons (RTy.sem .v2) (.signature) <|
      .one (RTy.sem .v2) (.signature))

theorem derives_v2SiacoinElement_v2 :
    Derives .v2 (RTy.sem .v2) Decl.siacoinElement V2.SiacoinElement
      fun x => (x.stateElement, x.id, x.siacoinOutput, x.maturityHeight, ()) :=
  .of _ _ (by simp [Fields.Distinct, Decl.siacoinElement, Decl.pub]) (by simp [Fields.Covered, Fields.covered, Decl.siacoinElement, Decl.pub])
    (Flat.struct (RTy.sem .v2) (S := V2.SiacoinElement) <|
      .cons (RTy.sem .v2) (.stateElement) <|
      .cons (RTy.sem .v2) (.siacoinOutputId) <|
      .cons (RTy.sem .v2) (.siacoinOutput) <|
      .one (RTy.sem .v2) (.u64))

theorem derives_v2SiafundElement_v2 :
    Derives .v2 (RTy.sem .v2) Decl.siafundElement V2.SiafundElement
      fun x => (x.stateElement, x.id, x.siafundOutput, x.claimStart, ()) :=
  .of _ _ (by simp [Fields.Distinct, Decl.siafundElement, Decl.pub]) (by simp [Fields.Covered, Fields.covered, Decl.siafundElement, Decl.pub])
    (Flat.struct (RTy.sem .v2) (S := V2.SiafundElement) <|
      .cons (RTy.sem .v2) (.stateElement) <|
      .cons (RTy.sem .v2) (.siafundOutputId) <|
      .cons (RTy.sem .v2) (.siafundOutput) <|
      .one (RTy.sem .v2) (.currency))

theorem derives_v2FileContractElement_v2 :
    Derives .v2 (RTy.sem .v2) Decl.fileContractElement V2.FileContractElement
      fun x => (x.stateElement, x.id, x.fileContract, ()) :=
  .of _ _ (by simp [Fields.Distinct, Decl.fileContractElement, Decl.pub]) (by simp [Fields.Covered, Fields.covered, Decl.fileContractElement, Decl.pub])
    (Flat.struct (RTy.sem .v2) (S := V2.FileContractElement) <|
      .cons (RTy.sem .v2) (.stateElement) <|
      .cons (RTy.sem .v2) (.fileContractId) <|
      .one (RTy.sem .v2) (.v2FileContract))

theorem derives_v2ChainIndexElement_v2 :
    Derives .v2 (RTy.sem .v2) Decl.chainIndexElement V2.ChainIndexElement
      fun x => (x.stateElement, x.id, x.chainIndex, ()) :=
  .of _ _ (by simp [Fields.Distinct, Decl.chainIndexElement, Decl.pub]) (by simp [Fields.Covered, Fields.covered, Decl.chainIndexElement, Decl.pub])
    (Flat.struct (RTy.sem .v2) (S := V2.ChainIndexElement) <|
      .cons (RTy.sem .v2) (.stateElement) <|
      .cons (RTy.sem .v2) (.blockId) <|
      .one (RTy.sem .v2) (.chainIndex))

theorem derives_v2SiacoinInput_v2 :
    Derives .v2 (RTy.sem .v2) Decl.v2SiacoinInput V2.SiacoinInput fun x => (x.parent, x.satisfiedPolicy, ()) :=
  .of _ _ (by simp [Fields.Distinct, Decl.v2SiacoinInput, Decl.pub]) (by simp [Fields.Covered, Fields.covered, Decl.v2SiacoinInput, Decl.pub])
    (Flat.struct (RTy.sem .v2) (S := V2.SiacoinInput) <|
      .cons (RTy.sem .v2) (.siacoinElement) <|
      .one (RTy.sem .v2) (.satisfiedPolicy))

theorem derives_v2SiafundInput_v2 :
    Derives .v2 (RTy.sem .v2) Decl.v2SiafundInput V2.SiafundInput
      fun x => (x.parent, x.claimAddress, x.satisfiedPolicy, ()) :=
  .of _ _ (by simp [Fields.Distinct, Decl.v2SiafundInput, Decl.pub]) (by simp [Fields.Covered, Fields.covered, Decl.v2SiafundInput, Decl.pub])
    (Flat.struct (RTy.sem .v2) (S := V2.SiafundInput) <|
      .cons (RTy.sem .v2) (.siafundElement) <|
      .cons (RTy.sem .v2) (.address) <|
      .one (RTy.sem .v2) (.satisfiedPolicy))

theorem derives_v2FileContractRevision_v2 :
    Derives .v2 (RTy.sem .v2) Decl.v2FileContractRevision V2.FileContractRevision
      fun x => (x.parent, x.revision, ()) :=
  .of _ _ (by simp [Fields.Distinct, Decl.v2FileContractRevision, Decl.pub]) (by simp [Fields.Covered, Fields.covered, Decl.v2FileContractRevision, Decl.pub])
    (Flat.struct (RTy.sem .v2) (S := V2.FileContractRevision) <|
      .cons (RTy.sem .v2) (.fileContractElement) <|
      .one (RTy.sem .v2) (.v2FileContract))

theorem derives_v2FileContractRenewal_v2 :
    Derives .v2 (RTy.sem .v2) Decl.fileContractRenewal V2.FileContractRenewal
      fun x => (x.finalRevision, x.newContract, x.renterRollover, x.hostRollover, x.renterSignature, x.hostSignature, ()) :=
  .of _ _ (by simp [Fields.Distinct, Decl.fileContractRenewal, Decl.pub]) (by simp [Fields.Covered, Fields.covered, Decl.fileContractRenewal, Decl.pub])
    (Flat.struct (RTy.sem .v2) (S := V2.FileContractRenewal) <|
      .cons (RTy.sem .v2) (.v2FileContract) <|
      .cons (RTy.sem .v2) (.v2FileContract) <|
      .cons (RTy.sem .v2) (.currency) <|
      .cons (RTy.sem .v2) (.currency) <|
      .cons (RTy.sem .v2) (.signature) <|
      .one (RTy.sem .v2) (.signature))

theorem derives_v2StorageProof_v2 :
    Derives .v2 (RTy.sem .v2) Decl.v2StorageProof V2.StorageProof
      fun x => (x.proofIndex, x.leaf, x.proof, ()) :=
  .of _ _ (by simp [Fields.Distinct, Decl.v2StorageProof, Decl.pub]) (by simp [Fields.Covered, Fields.covered, Decl.v2StorageProof, Decl.pub])
    (Flat.struct (RTy.sem .v2) (S := V2.StorageProof) <|
      .cons (RTy.sem .v2) (.chainIndexElement) <|
      .cons (RTy.sem .v2) (.leaf) <|
      .one (RTy.sem .v2) (.vec .hash256))

end Verif.Derive
