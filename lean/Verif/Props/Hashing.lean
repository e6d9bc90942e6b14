import Verif.Lemmas.Hashing
import Verif.Props.Samples

/-!
# Transaction identifiers and signature hashes (C22 to C29, C44)

The theorems hold for every hash function `H`.  "Commits to" means: the function is `H` of one byte string, and that
string determines the covered data, so that two different data with the same hash are a collision of `H`.
-/

namespace Verif

namespace Sample

theorem sized_uc : V1.SizedConditions uc := by
  simp [V1.SizedConditions, uc]

theorem sized_v1txn : v1txn.Sized := by
  constructor <;> simp [v1txn, v1fc, v1fcr, V1.SizedConditions, uc]

theorem allSized_v1txn : v1txn.AllSized := by
  refine ⟨sized_v1txn, ?_⟩
  intro s hs
  simp only [v1txn, List.mem_singleton] at hs
  subst hs
  constructor <;> simp [covered]

theorem sized_v2txn : v2txn.Sized := by
  constructor
  all_goals simp only [v2txn, List.length_cons, List.length_nil]
  case fileContractResolutions =>
    refine ⟨by decide, ?_⟩
    intro r hr p hp
    simp only [List.mem_cons, List.not_mem_nil, or_false] at hr
    rcases hr with rfl | rfl | rfl <;> simp only [V2.ContractResolution.storageProof.injEq, reduceCtorEq] at hp
    subst hp
    decide
  case attestations =>
    refine ⟨by decide, ?_⟩
    intro a ha
    simp only [List.mem_singleton] at ha
    subst ha
    decide +kernel
  all_goals decide

/-- The network of the samples: forks at heights 10, 20, 30. -/
def forkNetwork : Network :=
  { name := "test"
    initialCoinbase := ⟨300000⟩
    minimumCoinbase := ⟨30000⟩
    initialTarget := h 1
    blockInterval := ⟨600000000000⟩
    maturityDelay := 144
    hardforkDevAddr := ⟨1, h 0, h 0⟩
    hardforkTax := ⟨5⟩
    hardforkStorageProof := ⟨6⟩
    hardforkOak := ⟨7, 8, ⟨0, 0⟩⟩
    hardforkASIC := ⟨10, ⟨0⟩, h 1⟩
    hardforkFoundation := ⟨20, h 5, h 6⟩
    hardforkV2 := ⟨30, 40⟩ }

/-- A chain state at a height. -/
def chain (height : U64) : ChainState := { state := { state with index := ⟨height, h 1⟩ }, network := forkNetwork }

end Sample

/-! ## C22: the id of a v1 transaction -/

/-- C22.  The id of a v1 transaction is the hash of a string that determines, and is determined by, everything except the
signatures. -/
theorem C22_v1_transaction_id :
    ∃ pre : V1.Transaction → List UInt8, (∀ (H : Hasher) (t : V1.Transaction), t.id H = H (pre t)) ∧
      ∀ t t' : V1.Transaction, t.Sized → t'.Sized → (pre t = pre t' ↔ t.unsigned = t'.unsigned) := by
  refine ⟨V1.Transaction.encodeNoSigs, fun _ _ => rfl, fun t t' h h' => ⟨fun he => ?_, fun he => ?_⟩⟩
  · exact (V1.encodeNoSigs_inj h h' (x := []) (y := []) (by rw [he])).1
  · rw [← V1.encodeNoSigs_unsigned t, he, V1.encodeNoSigs_unsigned]

/-- C22.  Replacing all signatures does not change the id. -/
theorem C22_signatures_not_covered (H : Hasher) (t : V1.Transaction) (sigs : List V1.TransactionSignature) :
    ({ t with signatures := sigs } : V1.Transaction).id H = t.id H := rfl

example : Sample.v1txn.Sized ∧ ({ Sample.v1txn with minerFees := [] } : V1.Transaction).Sized ∧
    ({ Sample.v1txn with minerFees := [] } : V1.Transaction).unsigned ≠ Sample.v1txn.unsigned ∧
    ({ Sample.v1txn with signatures := [] } : V1.Transaction) ≠ Sample.v1txn :=
  ⟨Sample.sized_v1txn, { Sample.sized_v1txn with minerFees := by decide }, by decide +kernel, by decide +kernel⟩

/-! ## C23: the id of a v2 transaction ignores witnesses -/

/-- C23.  Two v2 transactions with the same effects have the same id and the same input signature hash, whatever their
satisfied policies, contract signatures, Merkle proofs, leaf indices and copies of parent elements. -/
theorem C23_witnesses_not_covered (H : Hasher) (cs : ChainState) (t t' : V2.Transaction) (h : t.effects = t'.effects) :
    t.id H = t'.id H ∧ t.inputSigHash H cs = t'.inputSigHash H cs := by
  unfold V2.Transaction.id V2.Transaction.inputSigHash
  rw [V2.encodeSemantics_effects h]
  exact ⟨rfl, rfl⟩

namespace Sample

/-- `v2txn` with every witness changed. -/
def v2txnOther : V2.Transaction :=
  let se' : StateElement := ⟨99, []⟩
  let fc' : V2.FileContract := { v2fc with renterSignature := sig 0, hostSignature := sig 1 }
  let fce' : V2.FileContractElement := ⟨se', h 1, { v2fc with capacity := 9 }⟩
  { v2txn with
    siacoinInputs := [⟨⟨se', h 1, ⟨⟨0⟩, h 0⟩, 0⟩, ⟨.above 0, [], []⟩⟩]
    siafundInputs := [⟨⟨se', h 1, ⟨0, h 0⟩, ⟨0⟩⟩, h 2, ⟨.hash (h 4), [sig 0], [h 1]⟩⟩]
    fileContracts := [fc']
    fileContractRevisions := [⟨fce', fc'⟩]
    fileContractResolutions := [⟨fce', .renewal ⟨fc', fc', ⟨1⟩, ⟨2⟩, sig 8, sig 9⟩⟩,
      ⟨fce', .storageProof ⟨⟨⟨12, []⟩, h 1, ⟨2, h 3⟩⟩, sig 4, [h 5]⟩⟩, ⟨fce', .expiration⟩] }

end Sample

example : Sample.v2txn.effects = Sample.v2txnOther.effects ∧ enc .v2 Sample.v2txn ≠ enc .v2 Sample.v2txnOther := by
  decide +kernel

/-! ## C24: what the id of a v2 transaction commits to -/

/-- C24, partial.  The id is the hash of a string that determines the elements spent, the outputs, the contracts, the
revisions and the number of resolutions; and all effects once the kinds of the resolutions are known.  Missing: the kinds of
the resolutions, and with them what follows (`C24_resolutions_ambiguous`), and the claim addresses
(`C24_claim_addresses_not_covered`). -/
theorem C24_v2_transaction_id_partial :
    ∃ pre : V2.Transaction → List UInt8, (∀ (H : Hasher) (t : V2.Transaction), t.id H = H (pre t)) ∧
      ∀ t t' : V2.Transaction, t.Sized → t'.Sized → pre t = pre t' →
        t.effects.siacoinsSpent = t'.effects.siacoinsSpent ∧ t.effects.siacoinOutputs = t'.effects.siacoinOutputs ∧
        t.effects.siafundsSpent = t'.effects.siafundsSpent ∧ t.effects.siafundOutputs = t'.effects.siafundOutputs ∧
        t.effects.contracts = t'.effects.contracts ∧ t.effects.revisions = t'.effects.revisions ∧
        t.effects.resolutions.length = t'.effects.resolutions.length ∧
        (t.resolutionKinds = t'.resolutionKinds → t.effects = t'.effects) := by
  refine ⟨V2.Transaction.encodeSemantics, fun _ _ => rfl, fun t t' h h' he => ?_⟩
  have := V2.encodeSemantics_inj h h' he
  simpa [V2.Transaction.effects] using this

/-- C24, partial.  A transaction without resolutions commits to all its effects. -/
theorem C24_no_resolutions_partial :
    ∃ pre : V2.Transaction → List UInt8, (∀ (H : Hasher) (t : V2.Transaction), t.id H = H (pre t)) ∧
      ∀ t t' : V2.Transaction, t.Sized → t'.Sized → t.fileContractResolutions = [] → (pre t = pre t' ↔ t.effects = t'.effects) := by
  refine ⟨V2.Transaction.encodeSemantics, fun _ _ => rfl, fun t t' h h' hn => ⟨fun he => ?_, V2.encodeSemantics_effects⟩⟩
  obtain ⟨-, -, -, -, -, -, hl, hk⟩ := V2.encodeSemantics_inj h h' he
  apply hk
  rw [hn] at hl
  rw [V2.Transaction.resolutionKinds, V2.Transaction.resolutionKinds, hn, List.eq_nil_of_length_eq_zero hl.symm]

example : Sample.v2txn.Sized ∧ Sample.v2txn.resolutionKinds = [.renewal, .storageProof, .expiration] ∧
    ({ Sample.v2txn with arbitraryData := [] } : V2.Transaction).effects ≠ Sample.v2txn.effects :=
  ⟨Sample.sized_v2txn, by decide +kernel, by decide +kernel⟩

/-- C24 does not hold for claim addresses: whoever relays a transaction can redirect the siafund claims without changing the
id or any signature hash. -/
theorem C24_claim_addresses_not_covered (H : Hasher) (cs : ChainState) (t : V2.Transaction)
    (redirect : V2.SiafundInput → Address) :
    let t' : V2.Transaction := { t with siafundInputs := t.siafundInputs.map fun i => { i with claimAddress := redirect i } }
    t'.id H = t.id H ∧ t'.inputSigHash H cs = t.inputSigHash H cs := by
  apply C23_witnesses_not_covered
  simp [V2.Transaction.effects, List.map_map, Function.comp_def]

example : ({ Sample.v2txn with siafundInputs := Sample.v2txn.siafundInputs.map fun i =>
    { i with claimAddress := Sample.h 200 } } : V2.Transaction).claimAddresses ≠ Sample.v2txn.claimAddresses := by
  decide +kernel

namespace Sample

/-- A storage proof whose semantic encoding can be read as an expiration followed by an attestation and a longer data field. -/
def ambiguous1 : V2.Transaction :=
  { siacoinInputs := [], siacoinOutputs := [], siafundInputs := [], siafundOutputs := [], fileContracts := []
    fileContractRevisions := []
    fileContractResolutions := [⟨fce, .storageProof ⟨⟨⟨1, []⟩, h 0, ⟨0, h 0⟩⟩,
      ⟨List.replicate 32 0 ++ [48, 0, 0, 0, 0, 0, 0, 0] ++ List.replicate 24 0, by decide⟩, []⟩⟩]
    attestations := [], arbitraryData := [], newFoundationAddress := none, minerFee := ⟨0⟩ }

/-- The other reading. -/
def ambiguous2 : V2.Transaction :=
  { siacoinInputs := [], siacoinOutputs := [], siafundInputs := [], siafundOutputs := [], fileContracts := []
    fileContractRevisions := []
    fileContractResolutions := [⟨fce, .expiration⟩]
    attestations := [⟨h 0, "", [], sig 0⟩], arbitraryData := List.replicate 48 0, newFoundationAddress := none
    minerFee := ⟨0⟩ }

theorem sized_ambiguous1 : ambiguous1.Sized := by
  constructor <;> simp [ambiguous1]

theorem sized_ambiguous2 : ambiguous2.Sized := by
  constructor <;> simp [ambiguous2]

end Sample

/-- C24 does not hold for resolutions: their kind is not hashed, and there are two transactions with different effects, one
resolving a contract with a storage proof and one letting it expire, with the same id and the same signature hashes for every
hash function. -/
theorem C24_resolutions_ambiguous :
    ∃ t t' : V2.Transaction, t.Sized ∧ t'.Sized ∧ t.effects ≠ t'.effects ∧ t.resolutionKinds ≠ t'.resolutionKinds ∧
      ∀ H : Hasher, t.id H = t'.id H ∧ ∀ cs : ChainState, t.inputSigHash H cs = t'.inputSigHash H cs := by
  have h : Sample.ambiguous1.encodeSemantics = Sample.ambiguous2.encodeSemantics := by decide +kernel
  refine ⟨Sample.ambiguous1, Sample.ambiguous2, Sample.sized_ambiguous1, Sample.sized_ambiguous2, by decide +kernel,
    by decide +kernel, fun H => ?_⟩
  simp only [V2.Transaction.id, V2.Transaction.inputSigHash, h, true_and, implies_true]

/-! ## C25: derived identifiers -/

/-- C25.  Every derived identifier is the hash of a string that determines the method, the parent (a v1 transaction up to
signatures) and the index. -/
theorem C25_derived_ids :
    ∃ pre : Derivation → List UInt8, (∀ (H : Hasher) (d : Derivation), d.eval H = H (pre d)) ∧
      ∀ d d' : Derivation, d.Sized → d'.Sized → (pre d = pre d' ↔ d.unsigned = d'.unsigned) := by
  refine ⟨Derivation.pre, Derivation.eval_pre, fun d d' h h' => ⟨Derivation.pre_inj d d' h h', fun he => ?_⟩⟩
  rw [← Derivation.pre_unsigned d, he, Derivation.pre_unsigned]

example : (Derivation.siacoin Sample.v1txn 0).Sized ∧ (Derivation.siafund Sample.v1txn 0).Sized ∧
    (Derivation.siacoin Sample.v1txn 0).unsigned ≠ (Derivation.siafund Sample.v1txn 0).unsigned ∧
    (Derivation.valid (Sample.h 1) 3).unsigned ≠ (Derivation.missed (Sample.h 1) 3).unsigned :=
  ⟨Sample.sized_v1txn, Sample.sized_v1txn, by decide +kernel, by decide +kernel⟩

/-! ## C26: whole-transaction signatures -/

/-- C26.  In one replay era, `whole_sig_hash` hashes a string that determines all fields but the signatures, the parent id,
the key index and the timelock. -/
theorem C26_whole_sig_hash :
    ∃ pre : ChainState → V1.Transaction → Arr 32 → U64 → U64 → List UInt8,
      (∀ (H : Hasher) (cs : ChainState) (t : V1.Transaction) (p : Arr 32) (k l : U64), t.wholeSigHash H cs p k l = H (pre cs t p k l)) ∧
      ∀ (cs cs' : ChainState) (t t' : V1.Transaction) (p p' : Arr 32) (k k' l l' : U64), t.Sized → t'.Sized → cs.replayPrefix = cs'.replayPrefix →
        (pre cs t p k l = pre cs' t' p' k' l' ↔ t.unsigned = t'.unsigned ∧ p = p' ∧ k = k' ∧ l = l') := by
  refine ⟨fun cs t p k l => V1.wholePreimage t cs.replayPrefix p k l, fun _ _ _ _ _ _ => rfl, ?_⟩
  intro cs cs' t t' p p' k k' l l' h h' hr
  simp only [hr]
  refine ⟨V1.wholePreimage_inj h h', ?_⟩
  rintro ⟨h1, rfl, rfl, rfl⟩
  have : ∀ t : V1.Transaction, V1.wholePreimage t cs'.replayPrefix p k l = V1.wholePreimage t.unsigned cs'.replayPrefix p k l :=
    fun _ => rfl
  rw [this t, this t', h1]

example : Sample.v1txn.Sized ∧ (Sample.chain 12).replayPrefix = (Sample.chain 13).replayPrefix := by
  exact ⟨Sample.sized_v1txn, by decide⟩

/-! ## C27: replay protection -/

/-- C27.  If a v1 transaction has an input, what it signs differs between chain states with different replay prefixes. -/
theorem C27_v1_replay :
    ∃ pre : ChainState → V1.Transaction → Arr 32 → U64 → U64 → List UInt8,
      (∀ (H : Hasher) (cs : ChainState) (t : V1.Transaction) (p : Arr 32) (k l : U64), t.wholeSigHash H cs p k l = H (pre cs t p k l)) ∧
      (∀ (cs cs' : ChainState) (t : V1.Transaction) (p : Arr 32) (k l : U64), (t.siacoinInputs ≠ [] ∨ t.siafundInputs ≠ []) → cs.replayPrefix ≠ cs'.replayPrefix →
        pre cs t p k l ≠ pre cs' t p k l) ∧
      (∀ (cs cs' : ChainState) (t t' : V1.Transaction) (p p' : Arr 32) (k k' l l' : U64), t.siacoinInputs ≠ [] → t'.siacoinInputs ≠ [] → cs.replayPrefix ≠ [] →
        cs'.replayPrefix ≠ [] → cs.replayPrefix ≠ cs'.replayPrefix → pre cs t p k l ≠ pre cs' t' p' k' l') := by
  refine ⟨fun cs t p k l => V1.wholePreimage t cs.replayPrefix p k l, fun _ _ _ _ _ _ => rfl, ?_, ?_⟩
  · intro cs cs' t p k l hin hne
    exact V1.wholePreimage_replay t hin (V1.replayPrefix_cases cs) (V1.replayPrefix_cases cs') hne p k l
  · intro cs cs' t t' p p' k k' l l' ht ht' he he' hne h
    rcases V1.replayPrefix_cases cs with e | ⟨b, e⟩
    · exact he e
    rcases V1.replayPrefix_cases cs' with e' | ⟨b', e'⟩
    · exact he' e'
    cases hs : t.siacoinInputs with
    | nil => exact ht hs
    | cons a as =>
      cases hs' : t'.siacoinInputs with
      | nil => exact ht' hs'
      | cons a' as' =>
        have := congrArg (·[8]?) h
        simp only [V1.wholePreimage, e, e', hs, hs', V1.prefixed_head] at this
        exact hne (by rw [e, e', Option.some.inj this])

/-- C27.  Without siacoin and siafund inputs a v1 transaction signs the same string in all eras (there is nothing to replay, but
the contract revisions of such a transaction carry no replay protection). -/
theorem C27_v1_no_inputs (H : Hasher) (cs cs' : ChainState) (t : V1.Transaction) (p : Arr 32) (k l : U64)
    (h : t.siacoinInputs = []) (h' : t.siafundInputs = []) : t.wholeSigHash H cs p k l = t.wholeSigHash H cs' p k l := by
  simp [V1.Transaction.wholeSigHash, h, h', V1.Transaction.prefixedInputs]

/-- C27.  From the ASIC hardfork on, what a v2 input, contract, renewal or attestation signs in one era is signed by no message
of another era. -/
theorem C27_v2_replay :
    ∃ pre : ChainState → Signed → List UInt8, (∀ (H : Hasher) (cs : ChainState) (s : Signed), s.sigHash H cs = H (pre cs s)) ∧
      ∀ (cs cs' : ChainState) (s s' : Signed), cs.replayPrefix ≠ [] → cs'.replayPrefix ≠ [] → cs.replayPrefix ≠ cs'.replayPrefix →
        pre cs s ≠ pre cs' s' := by
  refine ⟨Signed.pre, Signed.sigHash_pre, fun cs cs' s s' h h' hne he => hne ?_⟩
  exact (Signed.pre_parts (by simp [h, h']) he).2.1

example : (Sample.chain 5).replayPrefix = [] ∧ (Sample.chain 12).replayPrefix = [0] ∧ (Sample.chain 22).replayPrefix = [1] ∧
    (Sample.chain 32).replayPrefix = [2] ∧ Sample.v1txn.siacoinInputs ≠ [] := by decide

/-! ## C28: partial signatures -/

/-- C28.  `partial_sig_hash` fails exactly when a selected index does not exist, and never panics. -/
theorem C28_partial_sig_hash_range (H : Hasher) (cs : ChainState) (t : V1.Transaction) (c : V1.CoveredFields) :
    (V1.InRange t c → ∃ h, t.partialSigHash H cs c = .ok h) ∧ (¬ V1.InRange t c → t.partialSigHash H cs c = .err .custom) :=
  ⟨fun h => ⟨_, V1.partialSigHash_ok H t cs c h⟩, V1.partialSigHash_err H t cs c⟩

/-- C28.  `partial_sig_hash` depends only on the selected elements. -/
theorem C28_partial_sig_hash_coverage (H : Hasher) (cs : ChainState) (t t' : V1.Transaction) (c : V1.CoveredFields)
    (h : V1.AgreeOn c t t') : t.partialSigHash H cs c = t'.partialSigHash H cs c := by
  by_cases hr : V1.InRange t c
  · rw [V1.partialSigHash_ok H t cs c hr, V1.partialSigHash_ok H t' cs c (V1.inRange_congr h hr), V1.partialPreimage_congr h]
  · have h' : V1.AgreeOn c t' t :=
      ⟨fun i hi => (h.1 i hi).symm, fun i hi => (h.2 i hi).symm, fun i hi => (h.3 i hi).symm, fun i hi => (h.4 i hi).symm,
        fun i hi => (h.5 i hi).symm, fun i hi => (h.6 i hi).symm, fun i hi => (h.7 i hi).symm, fun i hi => (h.8 i hi).symm,
        fun i hi => (h.9 i hi).symm, fun i hi => (h.10 i hi).symm⟩
    rw [V1.partialSigHash_err H t cs c hr, V1.partialSigHash_err H t' cs c fun hr' => hr (V1.inRange_congr h' hr')]

example : V1.InRange Sample.v1txn Sample.covered ∧ ¬ V1.InRange Sample.v1txn { Sample.covered with siacoinInputs := [1] } ∧
    V1.AgreeOn Sample.covered Sample.v1txn { Sample.v1txn with arbitraryData := [], siafundInputs := [] } := by
  refine ⟨⟨?_, ?_, ?_, ?_, ?_, ?_, ?_, ?_, ?_, ?_⟩, fun h => absurd h.siacoinInputs ?_,
    ⟨?_, ?_, ?_, ?_, ?_, ?_, ?_, ?_, ?_, ?_⟩⟩
  all_goals simp [Sample.covered, Sample.v1txn]

/-! ## C44: partial signatures with the same bytes -/

/-- C44, partial.  For one selection and era, the hashed string determines all selected elements.  Missing: the selection itself
is not hashed (`C44_selections_ambiguous`). -/
theorem C44_same_selection_partial :
    ∃ pre : ChainState → V1.Transaction → V1.CoveredFields → List UInt8,
      (∀ (H : Hasher) (cs : ChainState) (t : V1.Transaction) (c : V1.CoveredFields), V1.InRange t c → t.partialSigHash H cs c = .ok (H (pre cs t c))) ∧
      ∀ (cs cs' : ChainState) (t t' : V1.Transaction) (c : V1.CoveredFields), t.AllSized → t'.AllSized → V1.InRange t c → V1.InRange t' c → cs.replayPrefix = cs'.replayPrefix →
        (pre cs t c = pre cs' t' c ↔ V1.AgreeOn c t t') := by
  refine ⟨fun cs t c => V1.partialPreimage cs.replayPrefix t c, fun H cs t c => V1.partialSigHash_ok H t cs c, ?_⟩
  intro cs cs' t t' c h h' r r' hr
  simp only [hr]
  exact ⟨V1.partialPreimage_inj h h' r r', fun ha => V1.partialPreimage_congr ha _⟩

example : Sample.v1txn.AllSized ∧ ¬ V1.AgreeOn Sample.covered Sample.v1txn { Sample.v1txn with minerFees := [⟨4⟩] } ∧
    V1.InRange { Sample.v1txn with minerFees := [⟨4⟩] } Sample.covered := by
  refine ⟨Sample.allSized_v1txn, fun h => absurd h.minerFees ?_, ⟨?_, ?_, ?_, ?_, ?_, ?_, ?_, ?_, ?_, ?_⟩⟩
  all_goals simp [Sample.covered, Sample.v1txn]

namespace Sample

def noTxn : V1.Transaction := ⟨[], [], [], [], [], [], [], [], [], []⟩
def noFields : V1.CoveredFields := ⟨false, [], [], [], [], [], [], [], [], [], []⟩
def feeTxn : V1.Transaction := { noTxn with minerFees := [⟨0⟩], arbitraryData := [[]] }
def dataTxn : V1.Transaction := { noTxn with arbitraryData := [[]] }

end Sample

/-- C44 does not hold in general: a signature that covers a miner fee of zero is also a signature over an empty arbitrary
data field, in the same transaction or in another one without any fee, under every hash function. -/
theorem C44_selections_ambiguous :
    ∃ (t t' : V1.Transaction) (c c' : V1.CoveredFields), t.AllSized ∧ t'.AllSized ∧ V1.InRange t c ∧ V1.InRange t c' ∧
      V1.InRange t' c' ∧ c ≠ c' ∧ t.unsigned ≠ t'.unsigned ∧ ∀ (H : Hasher) (cs : ChainState),
        t.partialSigHash H cs c = t.partialSigHash H cs c' ∧ t.partialSigHash H cs c = t'.partialSigHash H cs c' := by
  have r1 : V1.InRange Sample.feeTxn { Sample.noFields with minerFees := [0] } := by
    constructor <;> simp [Sample.feeTxn, Sample.noFields]
  have r2 : V1.InRange Sample.feeTxn { Sample.noFields with arbitraryData := [0] } := by
    constructor <;> simp [Sample.feeTxn, Sample.noFields]
  have r3 : V1.InRange Sample.dataTxn { Sample.noFields with arbitraryData := [0] } := by
    constructor <;> simp [Sample.dataTxn, Sample.noFields]
  have e : enc .v1 (⟨0⟩ : Currency) = enc .v1 ([] : List UInt8) := by decide
  refine ⟨Sample.feeTxn, Sample.dataTxn, { Sample.noFields with minerFees := [0] },
    { Sample.noFields with arbitraryData := [0] }, ⟨?_, by simp [Sample.feeTxn, Sample.noTxn]⟩,
    ⟨?_, by simp [Sample.dataTxn, Sample.noTxn]⟩, r1, r2, r3, by decide, by decide, fun H cs => ?_⟩
  · constructor <;> simp [Sample.feeTxn, Sample.noTxn]
  · constructor <;> simp [Sample.dataTxn, Sample.noTxn]
  · rw [V1.partialSigHash_ok H _ cs _ r1, V1.partialSigHash_ok H _ cs _ r2, V1.partialSigHash_ok H _ cs _ r3]
    simp [V1.partialPreimage, V1.pickBytes, V1.pick, Sample.noFields, Sample.feeTxn, Sample.dataTxn]
    exact congrArg H e

/-! ## C29: signature hashes of v2 contracts, renewals, attestations and inputs -/

/-- C29.  The strings signed for different purposes differ, in any two chain states; within an era, or between two
eras after the ASIC hardfork, the string determines the era, and everything but the signatures of an attestation, contract or
renewal. -/
theorem C29_v2_sig_hashes :
    ∃ pre : ChainState → Signed → List UInt8, (∀ (H : Hasher) (cs : ChainState) (s : Signed), s.sigHash H cs = H (pre cs s)) ∧
      (∀ (cs cs' : ChainState) (s s' : Signed), pre cs s = pre cs' s' → s.purpose = s'.purpose) ∧
      (∀ (cs cs' : ChainState) (s s' : Signed), s.Sized → s'.Sized → (cs.replayPrefix = [] ↔ cs'.replayPrefix = []) → s.purpose ≠ .input →
        (pre cs s = pre cs' s' ↔ cs.replayPrefix = cs'.replayPrefix ∧ s.unsigned = s'.unsigned)) := by
  refine ⟨Signed.pre, Signed.sigHash_pre, fun _ _ _ _ => Signed.pre_purpose, ?_⟩
  intro cs cs' s s' hs hs' hr hi
  constructor
  · intro h
    obtain ⟨h1, h2, h3⟩ := Signed.pre_parts hr h
    exact ⟨h2, Signed.message_inj h1 hs hs' hi h3⟩
  · rintro ⟨h1, h2⟩
    have hp : ∀ s : Signed, s.unsigned.purpose = s.purpose := by intro s; cases s <;> rfl
    rw [Signed.pre, Signed.pre, h1, ← hp s, ← hp s', ← Signed.message_unsigned s, ← Signed.message_unsigned s', h2]

/-- C29, partial for inputs: what a v2 input signs determines the effects if the kinds of the resolutions agree (the
rest is missing for the same reason as in C24). -/
theorem C29_input_sig_hash_partial :
    ∃ pre : ChainState → V2.Transaction → List UInt8, (∀ (H : Hasher) (cs : ChainState) (t : V2.Transaction), t.inputSigHash H cs = H (pre cs t)) ∧
      ∀ (cs cs' : ChainState) (t t' : V2.Transaction), t.Sized → t'.Sized → (cs.replayPrefix = [] ↔ cs'.replayPrefix = []) →
        t.resolutionKinds = t'.resolutionKinds →
        (pre cs t = pre cs' t' ↔ cs.replayPrefix = cs'.replayPrefix ∧ t.effects = t'.effects) := by
  refine ⟨fun cs t => (Signed.input t).pre cs, fun _ _ _ => rfl, ?_⟩
  intro cs cs' t t' h h' hr hk
  constructor
  · intro he
    obtain ⟨-, h2, h3⟩ := Signed.pre_parts hr he
    exact ⟨h2, (V2.encodeSemantics_inj h h' h3).2.2.2.2.2.2.2 hk⟩
  · rintro ⟨h1, h2⟩
    show _ ++ (_ ++ _) = _ ++ (_ ++ _)
    rw [h1]
    simp only [Signed.message, V2.encodeSemantics_effects h2, Signed.purpose]

example : (Signed.attestation Sample.attestation).Sized ∧ (Signed.renewal ⟨Sample.v2fc, Sample.v2fc, ⟨1⟩, ⟨2⟩, Sample.sig 1,
    Sample.sig 2⟩).Sized ∧ (Signed.contract Sample.v2fc).purpose ≠ .input ∧
    ({ Sample.v2fc with renterSignature := Sample.sig 77 } : V2.FileContract).unsigned = Sample.v2fc.unsigned ∧
    ({ Sample.v2fc with revisionNumber := 77 } : V2.FileContract).unsigned ≠ Sample.v2fc.unsigned := by
  refine ⟨?_, trivial, ?_, ?_, ?_⟩
  · show _ ∧ _
    decide +kernel
  all_goals decide +kernel

end Verif
