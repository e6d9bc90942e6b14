import Verif.Lemmas.Exact
import Verif.Props.Serde

/-!
# Exactly what survives JSON (C50), and a format that is not human-readable (C63)
-/

namespace Verif

open Serde

/-! ## C50: the conditions are necessary as well -/

/-- A v1 transaction survives JSON exactly if the algorithms of all its unlock keys are UTF-8 without colon. -/
theorem C50_v1_transaction_exactly (E : Env) (t : V1.Transaction) : (∃ j, (v1Transaction E).ser t = .ok j ∧ (v1Transaction E).de j = .ok t) ↔ t.JsonFits :=
  back_v1Transaction t

/-- A block, exactly if its transactions do and its time has a text that is read back. -/
theorem C50_block_exactly (E : Env) (b : Block) : (∃ j, (block E).ser b = .ok j ∧ (block E).de j = .ok b) ↔ b.JsonFits E := back_block b

/-- A v2 transaction, exactly if the policies it spends with do. -/
theorem C50_v2_transaction_exactly (E : Env) (t : V2.Transaction) : (∃ j, (v2Transaction E).ser t = .ok j ∧ (v2Transaction E).de j = .ok t) ↔ t.JsonFits E :=
  back_v2Transaction t

/-- A chain state, exactly if its times are read back, its duration has 64 bits, and the unused roots of its accumulator are zero. -/
theorem C50_state_exactly (E : Env) (s : State) : (∃ j, (state E).ser s = .ok j ∧ (state E).de j = .ok s) ↔ s.JsonFits E := back_state s

/-- A network, exactly if its durations have 64 bits and its time is read back. -/
theorem C50_network_exactly (E : Env) (n : Network) : (∃ j, (network E).ser n = .ok j ∧ (network E).de j = .ok n) ↔ n.JsonFits E := back_network n

/-- A chain state with its network, exactly if both do. -/
theorem C50_chain_state_exactly (E : Env) (c : ChainState) : (∃ j, (chainState E).ser c = .ok j ∧ (chainState E).de j = .ok c) ↔
    c.network.JsonFits E ∧ c.state.JsonFits E := back_chainState c

/-- The previous timestamps of a state: what is read is an array of at most eleven times; what is missing is filled up with the epoch. -/
theorem C50_timestamps (E : Env) (j : Json) (v : Vec DateTime 11) : (times E).de j = .ok v ↔ ∃ ts : List DateTime, ∃ texts : List String,
    j = .arr (texts.map .str) ∧ ts.length = texts.length ∧ ts.length ≤ 11 ∧ (∀ p ∈ texts.zip ts, E.timeRead p.1 = some p.2) ∧
    v.1 = ts ++ List.replicate (11 - ts.length) DateTime.epoch := by
  rw [times_iff]
  constructor
  · rintro ⟨l, ts, rfl, h1, h2, h3⟩
    obtain ⟨texts, rfl, h4, h5⟩ := (each_time l ts).mp h2
    rw [List.length_map] at h1 h3
    exact ⟨ts, texts, rfl, h4, by omega, h5, by rw [h4]; exact h3⟩
  · rintro ⟨ts, texts, rfl, h1, h2, h3, h4⟩
    exact ⟨_, ts, rfl, by simpa [← h1] using h2, (each_time _ ts).mpr ⟨texts, rfl, h1, h3⟩, by simpa [← h1] using h4⟩

/-- One time, the other ten are the epoch; twelve are refused. -/
example : (times Sample.env).de (.arr [.str "2015-06-06T14:13:20Z"]) = .ok ⟨⟨1433600000, 0⟩ :: List.replicate 10 DateTime.epoch, rfl⟩ ∧
    (∀ v, (times Sample.env).de (.arr (List.replicate 12 (.str "2015-06-06T14:13:20Z"))) ≠ .ok v) := by
  constructor
  · exact (C50_timestamps _ _ _).mpr ⟨[⟨1433600000, 0⟩], ["2015-06-06T14:13:20Z"], rfl, rfl, by decide, by simp [Sample.env], rfl⟩
  · intro v h
    obtain ⟨ts, texts, h1, h2, h3, -⟩ := (C50_timestamps _ _ _).mp h
    have := congrArg List.length (Json.arr.inj h1)
    simp at this
    omega

/-- The samples survive; a transaction with the algorithm "a:b" does not. -/
example : (∃ j, (v1Transaction Sample.env).ser Sample.v1txn = .ok j ∧ (v1Transaction Sample.env).de j = .ok Sample.v1txn) ∧
    ∀ i : V1.SiacoinInput, i.unlockConditions.publicKeys = [Sample.colonKey] →
      ¬ ∃ j, (v1Transaction Sample.env).ser { Sample.v1txn with siacoinInputs := [i] } = .ok j ∧
        (v1Transaction Sample.env).de j = .ok { Sample.v1txn with siacoinInputs := [i] } := by
  constructor
  · exact (C50_v1_transaction_exactly _ _).mpr Sample.jsonFits_v1txn
  · intro i hi h
    have := ((C50_v1_transaction_exactly _ _).mp h).1 i (by simp)
    obtain ⟨t, h1, h2, h3⟩ := this Sample.colonKey (by simp [hi])
    have e := names_unique h2 (t' := ascii "a:b") ⟨by decide +kernel, by decide +kernel⟩
    subst e
    exact h3 (by decide +kernel)

/-! ## C63 -/

/-- Identifiers are written as 32 numbers but read as text: no written identifier can be read. -/
theorem C63_not_identifiers (h : Hash256) : Binary.id.ser h = .ok (.bytes h.1) ∧ Binary.id.Lost h := by
  have hs : Binary.id.ser h = .ok (.bytes h.1) := by
    show (each u8.ser h.1 >>= _) = _
    have : each u8.ser h.1 = .ok (h.1.map fun b => .nat (BitVec.ofNat 64 b.toNat)) := by
      generalize h.1 = l
      induction l with
      | nil => rfl
      | cons b l ih => rw [each, ih]; rfl
    rw [this]
    rfl
  refine ⟨hs, fun j hj b hb => ?_⟩
  rw [hs] at hj
  cases hj
  cases hb

/-- Unlock keys are written as text but read as a pair: no written unlock key can be read. -/
theorem C63_not_unlock_keys (k : UnlockKey) : Binary.unlockKey.Lost k := by
  intro j hj b hb
  obtain ⟨s, -, e⟩ := bind_ok_iff.mp hj
  cases e
  cases hb

/-- What is read as an unlock key: the algorithm as 16 numbers and the key as any number of numbers. -/
theorem C63_unlock_key_reads (j : Json) (k : UnlockKey) : Binary.unlockKey.de j = .ok k ↔ j = .arr [.bytes k.algorithm.1, .bytes k.key] := by
  have hl : ∀ v l, (list u8).de v = .ok l ↔ v = .bytes l := by
    intro v l
    cases v with
    | arr js =>
      show each u8.de js = .ok l ↔ Json.arr js = .arr _
      rw [Json.arr.injEq]
      induction js generalizing l with
      | nil => cases l <;> simp [each]
      | cons j js ih =>
        rw [each]
        constructor
        · intro h
          obtain ⟨b, h1, h⟩ := bind_ok_iff.mp h
          obtain ⟨l', h2, h⟩ := bind_ok_iff.mp h
          cases h
          rw [List.map_cons, (ih l').mp h2]
          congr 1
          cases j with
          | nat n =>
            simp only [u8] at h1
            split at h1
            · rename_i hn
              cases h1
              congr 1
              apply BitVec.eq_of_toNat_eq
              simp only [BitVec.toNat_ofNat, UInt8.toNat_ofNat']
              omega
            · cases h1
          | _ => cases h1
        · intro h
          cases l with
          | nil => cases h
          | cons b l =>
            simp only [List.map_cons, List.cons.injEq] at h
            obtain ⟨rfl, rfl⟩ := h
            rw [(ih l).mpr rfl]
            have hb := b.toNat_lt
            have : (BitVec.ofNat 64 b.toNat).toNat = b.toNat := by rw [BitVec.toNat_ofNat, Nat.mod_eq_of_lt (by omega)]
            simp only [u8, this]
            rw [if_pos hb, UInt8.ofNat_toNat]
            rfl
    | _ => exact ⟨fun h => (by cases h), fun h => (by cases h)⟩
  obtain ⟨alg, key⟩ := k
  constructor
  · intro h
    unfold Binary.unlockKey at h
    simp only at h
    split at h
    · rename_i a b
      obtain ⟨x, h1, h⟩ := bind_ok_iff.mp h
      obtain ⟨y, h2, h⟩ := bind_ok_iff.mp h
      cases h
      obtain ⟨l, h3, h4⟩ := bind_ok_iff.mp (show ((list u8).de a >>= _) = _ from h1)
      split at h4
      · cases h4
        rw [(hl _ _).mp h2, (hl _ _).mp h3]
      · cases h4
    · cases h
  · intro h
    cases h
    have h1 := (hl (.bytes alg.1) alg.1).mpr rfl
    have h2 := (hl (.bytes key) key).mpr rfl
    simp [Binary.unlockKey, Binary.readBytes, h1, h2, alg.2]

/-- So nothing that holds an identifier survives. -/
theorem C63_not_others (E : Env) :
    (∀ x, ¬ Binary.chainIndex.Back x) ∧ (∀ x, ¬ Binary.v1SiacoinInput.Back x) ∧ (∀ x, ¬ (Binary.v1SiafundInput E).Back x) ∧
    (∀ x, ¬ (Binary.v1FileContract E).Back x) ∧ (∀ x, ¬ (Binary.v1FileContractRevision E).Back x) ∧ (∀ x, ¬ Binary.v1StorageProof.Back x) ∧
    (∀ x, ¬ Binary.transactionSignature.Back x) ∧ (∀ x, ¬ (Binary.block E).Back x) ∧ (∀ x, ¬ (Binary.v2FileContract E).Back x) ∧
    (∀ x, ¬ (Binary.siacoinElement E).Back x) ∧ (∀ x, ¬ (Binary.siafundElement E).Back x) ∧ (∀ x, ¬ (Binary.fileContractElement E).Back x) ∧
    (∀ x, ¬ Binary.chainIndexElement.Back x) ∧ (∀ x, ¬ (Binary.v2SiacoinInput E).Back x) ∧ (∀ x, ¬ (Binary.v2SiafundInput E).Back x) ∧
    (∀ x, ¬ (Binary.v2FileContractRevision E).Back x) ∧ (∀ x, ¬ (Binary.renewal E).Back x) ∧ (∀ x, ¬ Binary.v2StorageProof.Back x) ∧
    (∀ x, ¬ (Binary.resolution E).Back x) ∧ (∀ x, ¬ (Binary.state E).Back x) ∧ (∀ x, ¬ (Binary.network E).Back x) ∧ (∀ x, ¬ (Binary.chainState E).Back x) :=
  ⟨Binary.not_back_chainIndex, Binary.not_back_v1SiacoinInput, Binary.not_back_v1SiafundInput, Binary.not_back_v1FileContract,
    Binary.not_back_v1FileContractRevision, Binary.not_back_v1StorageProof, Binary.not_back_transactionSignature, Binary.not_back_block,
    Binary.not_back_v2FileContract, Binary.not_back_siacoinElement, Binary.not_back_siafundElement, Binary.not_back_fileContractElement,
    Binary.not_back_chainIndexElement, Binary.not_back_v2SiacoinInput, Binary.not_back_v2SiafundInput, Binary.not_back_v2FileContractRevision,
    Binary.not_back_renewal, Binary.not_back_v2StorageProof, Binary.not_back_resolution, Binary.not_back_state, Binary.not_back_network,
    Binary.not_back_chainState⟩

/-- The types without identifiers and unlock keys write and read the same in every format, and survive.
Missing: all other types, see the theorems before and after. -/
theorem C63_text_types_partial (E : Env) : (∀ x, (address E).Back x) ∧ (∀ x, key.Back x) ∧ (∀ x, signature.Back x) ∧ (∀ x, leaf.Back x) ∧
    (∀ x, (currency E).Back x) ∧ (∀ x, work.Back x) ∧ (∀ x, (siacoinOutput E).Back x) ∧ (∀ x, (siafundOutput E).Back x) ∧
    (∀ x, coveredFields.Back x) ∧ (∀ x, attestation.Back x) :=
  ⟨back_address, back_key, back_signature, back_leaf, back_currency, back_work, back_siacoinOutput, back_siafundOutput, back_coveredFields, back_attestation⟩

/-- A v1 transaction survives exactly if it has outputs, fees and arbitrary data only. -/
theorem C63_v1_transaction_partial (E : Env) (t : V1.Transaction) : (Binary.v1Transaction E).Back t ↔ t.siacoinInputs = [] ∧ t.fileContracts = [] ∧
    t.fileContractRevisions = [] ∧ t.storageProofs = [] ∧ t.siafundInputs = [] ∧ t.signatures = [] := Binary.back_v1Transaction t

/-- A v2 transaction survives exactly if it has no inputs and nothing about contracts. -/
theorem C63_v2_transaction_partial (E : Env) (t : V2.Transaction) : (Binary.v2Transaction E).Back t ↔ t.siacoinInputs = [] ∧ t.siafundInputs = [] ∧
    t.fileContracts = [] ∧ t.fileContractRevisions = [] ∧ t.fileContractResolutions = [] := Binary.back_v2Transaction t

/-- A policy survives exactly if it survives JSON and is not a hash.  Below a threshold hashes survive, because thresholds go through a JSON value; and
unlock conditions survive as a policy, although not on their own. -/
theorem C63_policy_partial (E : Env) (p : SpendPolicy) : (Binary.policy E).Back p ↔ p.JsonFits E.stack ∧ ∀ h, p ≠ .hash h := Binary.back_policy p

/-- A satisfied policy, exactly if in addition it has no preimages; unlock conditions, if they have no keys; a state element, if its proof is empty; an
accumulator, if it is empty. -/
theorem C63_smaller_partial (E : Env) :
    (∀ x, (Binary.satisfiedPolicy E).Back x ↔ x.policy.JsonFits E.stack ∧ (∀ h, x.policy ≠ .hash h) ∧ x.preimages = []) ∧
    (∀ x, Binary.unlockConditions.Back x ↔ x.publicKeys = []) ∧ (∀ x, Binary.stateElement.Back x ↔ x.merkleProof = []) ∧
    (∀ x, Binary.accumulator.Back x ↔ x.numLeaves = 0 ∧ ∀ h ∈ x.trees.1, h = Arr.zero 32) :=
  ⟨Binary.back_satisfiedPolicy, Binary.back_unlockConditions, Binary.back_stateElement, Binary.back_accumulator⟩

/-- A hash, the same hash below a threshold, and unlock conditions with a key. -/
example : ¬ (Binary.policy Sample.env).Back (.hash (Sample.h 1)) ∧ (Binary.policy Sample.env).Back (.threshold 1 [.hash (Sample.h 1)]) ∧
    (Binary.policy Sample.env).Back (.unlockConditions Sample.uc) ∧ ¬ Binary.unlockConditions.Back Sample.uc := by
  refine ⟨?_, ?_, ?_, ?_⟩
  · rw [C63_policy_partial]
    exact fun h => h.2 _ rfl
  · rw [C63_policy_partial]
    exact ⟨by simp [Sample.env, SpendPolicy.JsonFits], by simp⟩
  · rw [C63_policy_partial]
    exact ⟨by simpa [Sample.env, SpendPolicy.JsonFits] using Sample.textual_uc, by simp⟩
  · rw [(C63_smaller_partial Sample.env).2.1]
    simp [Sample.uc]

example : ¬ (Binary.v1Transaction Sample.env).Back Sample.v1txn ∧
    (Binary.v1Transaction Sample.env).Back ⟨[], [Sample.sco], [], [], [], [], [Sample.sfo], [⟨1⟩], [[1, 2]], []⟩ := by
  rw [C63_v1_transaction_partial, C63_v1_transaction_partial]
  simp [Sample.v1txn]

/-- With the reader of identifiers matching the writer, and the writer of unlock keys matching the reader, all of them survive. -/
theorem C63_repaired (h : Hash256) (k : UnlockKey) : Serde.Back { ser := Binary.id.ser, de := Binary.readBytes 32 } h ∧
    Serde.Back { ser := fun k : UnlockKey => .ok (.arr [.bytes k.algorithm.1, .bytes k.key]), de := Binary.unlockKey.de } k := by
  refine ⟨⟨.bytes h.1, (C63_not_identifiers h).1, ?_⟩, ⟨_, rfl, (C63_unlock_key_reads _ _).mpr rfl⟩⟩
  have := (back_list u8 h.1).mpr fun b _ => back_u8 b
  obtain ⟨j, h1, h2⟩ := this
  have e := (C63_not_identifiers h).1
  rw [show Binary.id.ser h = (list u8).ser h.1 from rfl, h1] at e
  cases e
  simp [Binary.readBytes, h2, h.2]

example : (({ ser := Binary.id.ser, de := Binary.readBytes 32 } : Serde Hash256).Back (Sample.h 7)) ∧ ¬ Binary.id.Back (Sample.h 7) :=
  ⟨(C63_repaired (Sample.h 7) Sample.colonKey).1, Binary.not_back_id _⟩

end Verif
