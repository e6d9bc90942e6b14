import Verif.Lemmas.Back
import Verif.Model.Binary

/-!
# Exactly which values of the types survive JSON, and a format that is not human-readable
-/

namespace Verif.Serde

variable {E : Env}

theorem back_id (h : Hash256) : id.Back h := (gives_id h).back
theorem back_address (a : Address) : (address E).Back a := (gives_address a).back
theorem back_key (k : PublicKey) : key.Back k := (gives_key k).back
theorem back_signature (x : Signature) : signature.Back x := (gives_signature x).back
theorem back_leaf (x : Leaf) : leaf.Back x := (gives_leaf x).back
theorem back_base64 (x : List UInt8) : base64.Back x := (gives_base64 x).back
theorem back_currency (x : Currency) : (currency E).Back x := (gives_currency x).back
theorem back_work (x : Work) : work.Back x := (gives_work x).back
theorem back_u64 (x : U64) : u64.Back x := (gives_u64 x).back
theorem back_u8 (x : UInt8) : u8.Back x := (gives_u8 x).back
theorem back_bool (x : Bool) : bool.Back x := (gives_bool x).back
theorem back_string (x : String) : string.Back x := (gives_string x).back
theorem back_siacoinOutput (x : SiacoinOutput) : (siacoinOutput E).Back x := (gives_siacoinOutput x).back
theorem back_siafundOutput (x : SiafundOutput) : (siafundOutput E).Back x := (gives_siafundOutput x).back
theorem back_chainIndex (x : ChainIndex) : chainIndex.Back x := (gives_chainIndex x).back
theorem back_stateElement (x : StateElement) : stateElement.Back x := (gives_stateElement x).back
theorem back_coveredFields (x : V1.CoveredFields) : coveredFields.Back x := (gives_coveredFields x).back
theorem back_attestation (x : V2.Attestation) : attestation.Back x := (gives_attestation x).back
theorem back_v1FileContract (x : V1.FileContract) : (v1FileContract E).Back x := (gives_v1FileContract x).back
theorem back_v1StorageProof (x : V1.StorageProof) : v1StorageProof.Back x := (gives_v1StorageProof x).back
theorem back_transactionSignature (x : V1.TransactionSignature) : transactionSignature.Back x := (gives_transactionSignature x).back
theorem back_v2FileContract (x : V2.FileContract) : (v2FileContract E).Back x := (gives_v2FileContract x).back
theorem back_siacoinElement (x : V2.SiacoinElement) : (siacoinElement E).Back x := (gives_siacoinElement x).back
theorem back_siafundElement (x : V2.SiafundElement) : (siafundElement E).Back x := (gives_siafundElement x).back
theorem back_v2FileContractRevision (x : V2.FileContractRevision) : (v2FileContractRevision E).Back x := (gives_v2FileContractRevision x).back
theorem back_resolution (x : V2.FileContractResolution) : (resolution E).Back x := (gives_resolution x).back

theorem back_optAddress (o : Option Address) : (option (address E)).Back o :=
  (gives_option (fun a _ => gives_address a) fun a _ => by simp [address, text]).back

attribute [local simp] JField.back_req back_vec back_list back_id back_address back_key back_signature back_leaf back_base64 back_currency back_work back_u64
  back_u8 back_bool back_string back_siacoinOutput back_siafundOutput back_chainIndex back_stateElement back_coveredFields back_attestation
  back_v1FileContract back_v1StorageProof back_transactionSignature back_v2FileContract back_siacoinElement back_siafundElement
  back_v2FileContractRevision back_resolution back_optAddress

theorem back_unlockKey (k : UnlockKey) : unlockKey.Back k ↔ k.Textual := by
  refine ⟨?_, fun h => (gives_unlockKey h).back⟩
  rintro ⟨j, h1, h2⟩
  refine trip_unlockKey ⟨j, h1, ?_⟩
  obtain ⟨s, -, h⟩ := bind_ok_iff.mp h1
  cases h
  exact h2

theorem back_unlockConditions (uc : UnlockConditions) : unlockConditions.Back uc ↔ uc.Textual := by
  rw [unlockConditions, back_record (by simp [Shape.names, JField.req]) (fun _ => rfl) (fun _ => rfl)]
  simp [Shape.Back, Struct.fields, back_unlockKey, UnlockConditions.Textual]

theorem back_v1SiacoinInput (x : V1.SiacoinInput) : v1SiacoinInput.Back x ↔ x.unlockConditions.Textual := by
  rw [v1SiacoinInput, back_record (by simp [Shape.names, JField.req]) (fun _ => rfl) (fun _ => rfl)]
  simp [Shape.Back, Struct.fields, back_unlockConditions]

theorem back_v1SiafundInput (x : V1.SiafundInput) : (v1SiafundInput E).Back x ↔ x.unlockConditions.Textual := by
  rw [v1SiafundInput, back_record (by simp [Shape.names, JField.req]) (fun _ => rfl) (fun _ => rfl)]
  simp [Shape.Back, Struct.fields, back_unlockConditions]

theorem back_v1FileContractRevision (x : V1.FileContractRevision) : (v1FileContractRevision E).Back x ↔ x.unlockConditions.Textual := by
  rw [v1FileContractRevision, back_record (by simp [Shape.names, JField.req]) (fun _ => rfl) (fun _ => rfl)]
  simp [Shape.Back, Struct.fields, back_unlockConditions]

theorem back_v1Transaction (t : V1.Transaction) : (v1Transaction E).Back t ↔ t.JsonFits := by
  rw [v1Transaction, back_record (by simp [Shape.names, JField.vec]) (fun _ => rfl) (fun _ => rfl)]
  simp [Shape.Back, Struct.fields, back_v1SiacoinInput, back_v1SiafundInput, back_v1FileContractRevision, V1.Transaction.JsonFits]
  grind

theorem back_time (t : DateTime) : (time E).Back t ↔ E.Keeps t := by
  rw [time, back_text, Env.Keeps]
  constructor <;> rintro ⟨s, h1, h2⟩ <;> refine ⟨s, ?_, ?_⟩ <;>
    first
    | (cases h : E.timeText t <;> simp_all [ofOption, Res.fail]; done)
    | (cases h : E.timeRead s <;> simp_all [ofOption, Res.fail]; done)

theorem back_block (b : Block) : (block E).Back b ↔ b.JsonFits E := by
  rw [block, back_record (by simp [Shape.names, JField.req]) (fun _ => rfl) (fun _ => rfl)]
  simp [Shape.Back, Struct.fields, back_v1Transaction, back_time, Block.JsonFits]

theorem back_policy (p : SpendPolicy) : (policy E).Back p ↔ p.JsonFits E.stack := by
  refine ⟨?_, fun h => (gives_policy h).back⟩
  rintro ⟨j, h1, h2⟩
  exact trip_policyAt _ _ ⟨j, h1, (dePolicy_norm h1).trans h2⟩

theorem back_satisfiedPolicy (x : SatisfiedPolicy) : (satisfiedPolicy E).Back x ↔ x.policy.JsonFits E.stack := by
  rw [satisfiedPolicy, back_record (by simp [Shape.names, JField.req, JField.vec]) (fun _ => rfl) (fun _ => rfl)]
  simp [Shape.Back, Struct.fields, back_policy]

theorem back_v2SiacoinInput (x : V2.SiacoinInput) : (v2SiacoinInput E).Back x ↔ x.satisfiedPolicy.policy.JsonFits E.stack := by
  rw [v2SiacoinInput, back_record (by simp [Shape.names, JField.req]) (fun _ => rfl) (fun _ => rfl)]
  simp [Shape.Back, Struct.fields, back_satisfiedPolicy]

theorem back_v2SiafundInput (x : V2.SiafundInput) : (v2SiafundInput E).Back x ↔ x.satisfiedPolicy.policy.JsonFits E.stack := by
  rw [v2SiafundInput, back_record (by simp [Shape.names, JField.req]) (fun _ => rfl) (fun _ => rfl)]
  simp [Shape.Back, Struct.fields, back_satisfiedPolicy]

theorem back_v2Transaction (t : V2.Transaction) : (v2Transaction E).Back t ↔ t.JsonFits E := by
  rw [v2Transaction, back_record (by simp [Shape.names, JField.req, JField.vec, JField.opt?]) (fun _ => rfl) (fun _ => rfl)]
  simp [Shape.Back, JField.back_opt, JField.back_vec, back_v2SiacoinInput, back_v2SiafundInput, V2.Transaction.JsonFits]
  grind

theorem back_duration (d : Duration) : duration.Back d ↔ d.JsonFits := by
  refine ⟨?_, fun h => (gives_duration h).back⟩
  rintro ⟨j, h1, h2⟩
  cases h1
  have := congrArg Duration.ns (Res.ok.inj h2)
  simp only at this
  have h := BitVec.toInt_lt (x := BitVec.ofInt 64 d.ns)
  have h' := BitVec.le_toInt (x := BitVec.ofInt 64 d.ns)
  rw [this] at h h'
  exact ⟨by simpa using h', by simpa using h⟩

theorem readTimes_iff (l : List Json) : ∀ done ts : List DateTime, done.length ≤ 11 → (readTimes E done l = .ok ts ↔ done.length + l.length ≤ 11 ∧
    ∃ ts', each (time E).de l = .ok ts' ∧ ts = done ++ ts' ++ List.replicate (11 - (done.length + l.length)) DateTime.epoch) := by
  induction l with
  | nil =>
    intro done ts hd
    simp only [readTimes, each, List.length_nil, Nat.add_zero, Res.ok.injEq]
    constructor
    · rintro rfl
      exact ⟨hd, [], rfl, by simp⟩
    · rintro ⟨-, ts', rfl, rfl⟩
      simp
  | cons j l ih =>
    intro done ts hd
    have hne : (∀ s, j ≠ .str s) → (readTimes E done (j :: l) = .ok ts ↔ done.length + (j :: l).length ≤ 11 ∧
        ∃ ts', each (time E).de (j :: l) = .ok ts' ∧ ts = done ++ ts' ++ List.replicate (11 - (done.length + (j :: l).length)) DateTime.epoch) := by
      intro hj
      have h1 : readTimes E done (j :: l) = .fail := by
        cases j <;> first | rfl | exact absurd rfl (hj _)
      have h2 : (time E).de j = .fail := by
        cases j <;> first | rfl | exact absurd rfl (hj _)
      rw [h1, each, h2]
      simp [Res.fail]
    cases j with
    | str s =>
      simp only [readTimes, each, List.length_cons]
      by_cases hfull : 11 ≤ done.length
      · rw [if_pos hfull]
        exact ⟨fun h => (by cases h), fun h => absurd h.1 (by omega)⟩
      · rw [if_neg hfull]
        cases ht : E.timeRead s with
        | none => simp [time, text, ht, ofOption, Res.fail]
        | some t =>
          simp only
          rw [ih (done ++ [t]) ts (by simp; omega)]
          have hs : (time E).de (.str s) = .ok t := by simp [time, text, ht, ofOption]
          rw [hs]
          simp only [Res.ok_bind, List.length_append, List.length_cons, List.length_nil]
          constructor
          · rintro ⟨h1, ts', h2, rfl⟩
            refine ⟨by omega, t :: ts', by simp [h2], ?_⟩
            simp [Nat.add_assoc, Nat.add_comm 1]
          · rintro ⟨h1, ts', h2, rfl⟩
            obtain ⟨ts'', h3, h⟩ := bind_ok_iff.mp h2
            cases h
            refine ⟨by omega, ts'', h3, ?_⟩
            simp [Nat.add_assoc, Nat.add_comm 1]
    | _ => exact hne (by intro s h; cases h)

theorem each_length {α β : Type} {f : α → Res β} {l : List α} {r : List β} (h : each f l = .ok r) : r.length = l.length := (each_ok h).1.symm

/-- What `timestamp_array` reads: up to eleven timestamps, the rest are the epoch. -/
theorem times_iff (j : Json) (v : Vec DateTime 11) : (times E).de j = .ok v ↔
    ∃ l ts, j = .arr l ∧ l.length ≤ 11 ∧ each (time E).de l = .ok ts ∧ v.1 = ts ++ List.replicate (11 - l.length) DateTime.epoch := by
  cases j with
  | arr l =>
    show (readTimes E [] l >>= _) = _ ↔ _
    rw [bind_ok_iff]
    constructor
    · rintro ⟨ts, h1, h2⟩
      obtain ⟨h3, ts', h4, rfl⟩ := (readTimes_iff l [] ts (by simp)).mp h1
      simp only [List.length_nil, Nat.zero_add] at h3 h2
      split at h2
      · cases h2
        exact ⟨l, ts', rfl, h3, h4, by simp⟩
      · cases h2
    · rintro ⟨l', ts, e, h1, h2, h3⟩
      cases e
      refine ⟨v.1, (readTimes_iff l [] _ (by simp)).mpr ⟨by simpa using h1, ts, h2, by simpa using h3⟩, ?_⟩
      rw [dif_pos v.2]
      rfl
  | _ =>
    simp only [times, Res.fail]
    exact ⟨fun h => (by cases h), fun ⟨l, ts, e, _⟩ => by cases e⟩

theorem each_time (l : List Json) : ∀ ts : List DateTime, each (time E).de l = .ok ts ↔ ∃ texts : List String, l = texts.map .str ∧
    ts.length = texts.length ∧ ∀ p ∈ texts.zip ts, E.timeRead p.1 = some p.2 := by
  induction l with
  | nil =>
    intro ts
    constructor
    · intro h
      cases h
      exact ⟨[], rfl, rfl, by simp⟩
    · rintro ⟨texts, h1, h2, -⟩
      have : texts = [] := by simpa using h1.symm
      subst this
      have : ts = [] := by simpa using h2
      subst this
      rfl
  | cons j l ih =>
    intro ts
    rw [each]
    constructor
    · intro h
      obtain ⟨t, h1, h⟩ := bind_ok_iff.mp h
      obtain ⟨ts', h2, h⟩ := bind_ok_iff.mp h
      cases h
      obtain ⟨texts, rfl, h4, h5⟩ := (ih ts').mp h2
      cases j with
      | str s =>
        refine ⟨s :: texts, rfl, by simp [h4], ?_⟩
        simp only [List.zip_cons_cons, List.mem_cons, forall_eq_or_imp]
        refine ⟨?_, h5⟩
        have h1 : ofOption (E.timeRead s) = .ok t := h1
        cases hr : E.timeRead s with
        | none => rw [hr] at h1; cases h1
        | some t' => rw [hr] at h1; cases h1; rfl
      | _ => cases h1
    · rintro ⟨texts, h1, h2, h3⟩
      cases texts with
      | nil => cases h1
      | cons s texts =>
        cases ts with
        | nil => cases h2
        | cons t ts =>
          simp only [List.map_cons, List.cons.injEq] at h1
          obtain ⟨rfl, rfl⟩ := h1
          simp only [List.zip_cons_cons, List.mem_cons, forall_eq_or_imp] at h3
          have h4 := (ih ts).mpr ⟨texts, rfl, by simpa using h2, h3.2⟩
          have h5 : (time E).de (.str s) = .ok t := by simp [time, text, h3.1, ofOption]
          rw [h5, h4]
          rfl

theorem back_times (v : Vec DateTime 11) : (times E).Back v ↔ ∀ t ∈ v.1, E.Keeps t := by
  refine ⟨?_, fun h => (gives_times h).back⟩
  rintro ⟨j, h1, h2⟩
  obtain ⟨js, h3, h⟩ := bind_ok_iff.mp h1
  cases h
  obtain ⟨l, ts, e, h4, h5, h6⟩ := (times_iff _ _).mp h2
  cases e
  have := each_length h3
  rw [this, v.2, Nat.sub_self, List.replicate_zero, List.append_nil] at h6
  rw [← h6] at h5
  intro t ht
  exact (back_time t).mp ((back_each (time E) v.1).mp ⟨js, h3, h5⟩ t ht)

theorem back_accumulator (a : ElementAccumulator) : accumulator.Back a ↔ a.Normal := by
  refine ⟨?_, fun h => (gives_accumulator h).back⟩
  rintro ⟨j, -, h2⟩
  exact ((accumulator_de j a).mp h2).2

theorem back_state (s : State) : (state E).Back s ↔ s.JsonFits E := by
  rw [state, back_record (by simp [Shape.names, JField.req]) (fun _ => rfl) (fun _ => rfl)]
  simp [Shape.Back, back_times, back_duration, back_accumulator, State.JsonFits]

theorem back_hardforkHeight (x : U64) : hardforkHeight.Back x := (gives_hardforkHeight x).back

theorem back_network (n : Network) : (network E).Back n ↔ n.JsonFits E := by
  rw [network, back_record (by simp [Shape.names, JField.req]) (fun _ => rfl) (fun _ => rfl)]
  simp only [Shape.Back, JField.back_req, back_string, back_currency, back_id, back_duration, back_u64, back_hardforkHeight, true_and, hardforkDevAddr,
    hardforkOak, hardforkASIC, hardforkFoundation, hardforkV2]
  rw [back_record (by simp [Shape.names, JField.req]) (fun _ => rfl) (fun _ => rfl), back_record (by simp [Shape.names, JField.req]) (fun _ => rfl) (fun _ => rfl),
    back_record (by simp [Shape.names, JField.req]) (fun _ => rfl) (fun _ => rfl), back_record (by simp [Shape.names, JField.req]) (fun _ => rfl) (fun _ => rfl),
    back_record (by simp [Shape.names, JField.req]) (fun _ => rfl) (fun _ => rfl)]
  simp [Shape.Back, back_time, back_duration, Network.JsonFits]

theorem back_chainState (c : ChainState) : (chainState E).Back c ↔ c.network.JsonFits E ∧ c.state.JsonFits E := by
  rw [chainState, back_record (by simp [Shape.names, JField.req]) (fun _ => rfl) (fun _ => rfl)]
  simp [Shape.Back, back_network, back_state]

end Verif.Serde

namespace Verif.Binary

open Serde

variable {E : Env}

theorem not_back_id (h : Hash256) : ¬ id.Back h := by
  rintro ⟨j, h1, h2⟩
  obtain ⟨js, -, e⟩ := bind_ok_iff.mp h1
  cases e
  cases h2

theorem not_back_unlockKey (k : UnlockKey) : ¬ unlockKey.Back k := by
  rintro ⟨j, h1, h2⟩
  obtain ⟨s, -, e⟩ := bind_ok_iff.mp h1
  cases e
  cases h2

theorem none_of {α : Type} {s : Serde α} (h : ∀ a, ¬ s.Back a) (l : List α) : (∀ a ∈ l, s.Back a) ↔ l = [] := by
  cases l with
  | nil => simp
  | cons a l => exact ⟨fun h' => absurd (h' a (by simp)) (h a), fun h' => by cases h'⟩

theorem no_ids {l : List Hash256} : (∀ a ∈ l, id.Back a) ↔ l = [] := none_of not_back_id l

attribute [local simp] JField.back_req back_vec back_list back_address back_key back_signature back_leaf back_base64 back_currency back_work back_u64
  back_u8 back_bool back_string back_siacoinOutput back_siafundOutput back_coveredFields back_attestation back_optAddress not_back_id not_back_unlockKey

theorem not_back_chainIndex (x : ChainIndex) : ¬ chainIndex.Back x := by
  rw [chainIndex, back_record (by simp [Shape.names, JField.req]) (fun _ => rfl) (fun _ => rfl)]
  simp [Shape.Back]

theorem back_stateElement (x : StateElement) : stateElement.Back x ↔ x.merkleProof = [] := by
  rw [stateElement, back_record (by simp [Shape.names, JField.req]) (fun _ => rfl) (fun _ => rfl)]
  simp only [Shape.Back, JField.back_req, back_u64, back_list, no_ids, Struct.fields, true_and]

theorem back_unlockConditions (x : UnlockConditions) : unlockConditions.Back x ↔ x.publicKeys = [] := by
  rw [unlockConditions, back_record (by simp [Shape.names, JField.req]) (fun _ => rfl) (fun _ => rfl)]
  simp only [Shape.Back, JField.back_req, back_u64, back_list, none_of not_back_unlockKey, Struct.fields, true_and, and_true]

theorem not_back_v1SiacoinInput (x : V1.SiacoinInput) : ¬ v1SiacoinInput.Back x := by
  rw [v1SiacoinInput, back_record (by simp [Shape.names, JField.req]) (fun _ => rfl) (fun _ => rfl)]
  simp [Shape.Back, Struct.fields]

theorem not_back_v1SiafundInput (x : V1.SiafundInput) : ¬ (v1SiafundInput E).Back x := by
  rw [v1SiafundInput, back_record (by simp [Shape.names, JField.req]) (fun _ => rfl) (fun _ => rfl)]
  simp [Shape.Back, Struct.fields]

theorem not_back_v1FileContract (x : V1.FileContract) : ¬ (v1FileContract E).Back x := by
  rw [v1FileContract, back_record (by simp [Shape.names, JField.req]) (fun _ => rfl) (fun _ => rfl)]
  simp [Shape.Back, Struct.fields]

theorem not_back_v1FileContractRevision (x : V1.FileContractRevision) : ¬ (v1FileContractRevision E).Back x := by
  rw [v1FileContractRevision, back_record (by simp [Shape.names, JField.req]) (fun _ => rfl) (fun _ => rfl)]
  simp [Shape.Back, Struct.fields]

theorem not_back_v1StorageProof (x : V1.StorageProof) : ¬ v1StorageProof.Back x := by
  rw [v1StorageProof, back_record (by simp [Shape.names, JField.req]) (fun _ => rfl) (fun _ => rfl)]
  simp [Shape.Back, Struct.fields]

theorem not_back_transactionSignature (x : V1.TransactionSignature) : ¬ transactionSignature.Back x := by
  rw [transactionSignature, back_record (by simp [Shape.names, JField.req]) (fun _ => rfl) (fun _ => rfl)]
  simp [Shape.Back, Struct.fields]

theorem back_v1Transaction (t : V1.Transaction) : (v1Transaction E).Back t ↔ t.siacoinInputs = [] ∧ t.fileContracts = [] ∧
    t.fileContractRevisions = [] ∧ t.storageProofs = [] ∧ t.siafundInputs = [] ∧ t.signatures = [] := by
  rw [v1Transaction, back_record (by simp [Shape.names, JField.vec]) (fun _ => rfl) (fun _ => rfl)]
  simp only [Shape.Back, back_vec, none_of not_back_v1SiacoinInput, none_of not_back_v1FileContract, none_of not_back_v1FileContractRevision,
    none_of not_back_v1StorageProof, none_of not_back_v1SiafundInput, none_of not_back_transactionSignature, Struct.fields]
  simp

theorem not_back_block (x : Block) : ¬ (block E).Back x := by
  rw [block, back_record (by simp [Shape.names, JField.req]) (fun _ => rfl) (fun _ => rfl)]
  simp [Shape.Back, Struct.fields]

theorem not_back_v2FileContract (x : V2.FileContract) : ¬ (v2FileContract E).Back x := by
  rw [v2FileContract, back_record (by simp [Shape.names, JField.req]) (fun _ => rfl) (fun _ => rfl)]
  simp [Shape.Back, Struct.fields]

theorem not_back_siacoinElement (x : V2.SiacoinElement) : ¬ (siacoinElement E).Back x := by
  rw [siacoinElement, back_record (by simp [Shape.names, JField.req]) (fun _ => rfl) (fun _ => rfl)]
  simp [Shape.Back, Struct.fields]

theorem not_back_siafundElement (x : V2.SiafundElement) : ¬ (siafundElement E).Back x := by
  rw [siafundElement, back_record (by simp [Shape.names, JField.req]) (fun _ => rfl) (fun _ => rfl)]
  simp [Shape.Back, Struct.fields]

theorem not_back_fileContractElement (x : V2.FileContractElement) : ¬ (fileContractElement E).Back x := by
  rw [fileContractElement, back_record (by simp [Shape.names, JField.req]) (fun _ => rfl) (fun _ => rfl)]
  simp [Shape.Back, Struct.fields]

theorem not_back_chainIndexElement (x : V2.ChainIndexElement) : ¬ chainIndexElement.Back x := by
  rw [chainIndexElement, back_record (by simp [Shape.names, JField.req]) (fun _ => rfl) (fun _ => rfl)]
  simp [Shape.Back, Struct.fields]

theorem not_back_v2SiacoinInput (x : V2.SiacoinInput) : ¬ (v2SiacoinInput E).Back x := by
  rw [v2SiacoinInput, back_record (by simp [Shape.names, JField.req]) (fun _ => rfl) (fun _ => rfl)]
  simp [Shape.Back, Struct.fields, not_back_siacoinElement]

theorem not_back_v2SiafundInput (x : V2.SiafundInput) : ¬ (v2SiafundInput E).Back x := by
  rw [v2SiafundInput, back_record (by simp [Shape.names, JField.req]) (fun _ => rfl) (fun _ => rfl)]
  simp [Shape.Back, Struct.fields, not_back_siafundElement]

theorem not_back_v2FileContractRevision (x : V2.FileContractRevision) : ¬ (v2FileContractRevision E).Back x := by
  rw [v2FileContractRevision, back_record (by simp [Shape.names, JField.req]) (fun _ => rfl) (fun _ => rfl)]
  simp [Shape.Back, Struct.fields, not_back_fileContractElement]

theorem not_back_renewal (x : V2.FileContractRenewal) : ¬ (renewal E).Back x := by
  rw [renewal, back_record (by simp [Shape.names, JField.req]) (fun _ => rfl) (fun _ => rfl)]
  simp [Shape.Back, Struct.fields, not_back_v2FileContract]

theorem not_back_v2StorageProof (x : V2.StorageProof) : ¬ v2StorageProof.Back x := by
  rw [v2StorageProof, back_record (by simp [Shape.names, JField.req]) (fun _ => rfl) (fun _ => rfl)]
  simp [Shape.Back, Struct.fields, not_back_chainIndexElement]

theorem not_back_network (x : Network) : ¬ (network E).Back x := by
  rw [network, back_record (by simp [Shape.names, JField.req]) (fun _ => rfl) (fun _ => rfl)]
  simp [Shape.Back]

theorem not_back_state (x : State) : ¬ (state E).Back x := by
  rw [state, back_record (by simp [Shape.names, JField.req]) (fun _ => rfl) (fun _ => rfl)]
  simp [Shape.Back]

theorem not_back_chainState (x : ChainState) : ¬ (chainState E).Back x := by
  rw [chainState, back_record (by simp [Shape.names, JField.req]) (fun _ => rfl) (fun _ => rfl)]
  simp [Shape.Back, not_back_network]

theorem serPolicy_eq (p : SpendPolicy) (h : ∀ x, p ≠ .hash x) : serPolicy E p = Verif.serPolicy E p := by
  cases p with
  | hash x => exact absurd rfl (h x)
  | unlockConditions uc => rw [serPolicy, Verif.serPolicy]; rfl
  | _ => rfl

theorem back_policy (p : SpendPolicy) : (policy E).Back p ↔ p.JsonFits E.stack ∧ ∀ x, p ≠ .hash x := by
  by_cases h : ∃ x, p = .hash x
  · obtain ⟨x, rfl⟩ := h
    constructor
    · rintro ⟨j, h1, h2⟩
      obtain ⟨v, h3, e⟩ := bind_ok_iff.mp (show (id.ser x >>= _) = _ from h1)
      obtain ⟨js, -, e'⟩ := bind_ok_iff.mp (show (each u8.ser x.1 >>= _) = _ from h3)
      cases e
      cases e'
      have h2 : dePolicy E E.stack (.obj [("type", .str "h"), ("policy", .arr js)]) = .ok (.hash x) := h2
      cases hn : E.stack with
      | zero => rw [hn] at h2; cases h2
      | succ n =>
        rw [hn] at h2
        simp [dePolicy, policyMembers, string, text, Serde.id, Json.norm, Res.fail] at h2
    · rintro ⟨-, h⟩
      exact absurd rfl (h x)
  · have h' : ∀ x, p ≠ .hash x := fun x e => h ⟨x, e⟩
    have : (policy E).Back p ↔ (Serde.policy E).Back p := by
      show (∃ j, serPolicy E p = .ok j ∧ _) ↔ _
      rw [serPolicy_eq p h']
      rfl
    rw [this, Serde.back_policy]
    exact ⟨fun h => ⟨h, h'⟩, fun h => h.1⟩

theorem back_satisfiedPolicy (x : SatisfiedPolicy) : (satisfiedPolicy E).Back x ↔
    x.policy.JsonFits E.stack ∧ (∀ h, x.policy ≠ .hash h) ∧ x.preimages = [] := by
  rw [satisfiedPolicy, back_record (by simp [Shape.names, JField.req, JField.vec]) (fun _ => rfl) (fun _ => rfl)]
  simp only [Shape.Back, Struct.fields, JField.back_req, back_vec, back_policy, no_ids, back_signature]
  simp [and_assoc]

theorem not_back_resolution (x : V2.FileContractResolution) : ¬ (resolution E).Back x := by
  rintro ⟨j, h1, h2⟩
  obtain ⟨p, hp, h1⟩ := bind_ok_iff.mp h1
  obtain ⟨⟨t, r⟩, -, h1⟩ := bind_ok_iff.mp h1
  cases h1
  obtain ⟨⟨p', t', r'⟩, h3, h4⟩ := bind_ok_iff.mp (show (resolutionMembers E _ _ >>= _) = _ from h2)
  have : ∃ q, (fileContractElement E).de p = .ok q ∧ p' = some q := by
    rw [resolutionMembers, if_pos rfl] at h3
    obtain ⟨q, h5, h6⟩ := bind_ok_iff.mp h3
    simp [resolutionMembers, string, text] at h6
    exact ⟨q, h5, h6.1.symm⟩
  obtain ⟨q, h5, rfl⟩ := this
  have : q = x.parent := by
    cases t' with
    | none => cases h4
    | some t' =>
      cases r' with
      | none => cases h4
      | some r' =>
        simp only [resolutionOf] at h4
        repeat' split at h4
        · obtain ⟨y, -, h4⟩ := bind_ok_iff.mp h4
          cases h4; rfl
        · obtain ⟨y, -, h4⟩ := bind_ok_iff.mp h4
          cases h4; rfl
        · cases h4; rfl
        · cases h4
  subst this
  exact not_back_fileContractElement _ ⟨p, hp, h5⟩

theorem back_v2Transaction (t : V2.Transaction) : (v2Transaction E).Back t ↔ t.siacoinInputs = [] ∧ t.siafundInputs = [] ∧ t.fileContracts = [] ∧
    t.fileContractRevisions = [] ∧ t.fileContractResolutions = [] := by
  rw [v2Transaction, back_record (by simp [Shape.names, JField.req, JField.vec, JField.opt?]) (fun _ => rfl) (fun _ => rfl)]
  simp only [Shape.Back, JField.back_vec, back_list, JField.back_opt, none_of not_back_v2SiacoinInput, none_of not_back_v2SiafundInput,
    none_of not_back_v2FileContract, none_of not_back_v2FileContractRevision, none_of not_back_resolution]
  simp

theorem back_accumulator (a : ElementAccumulator) : accumulator.Back a ↔ a.numLeaves = 0 ∧ ∀ h ∈ a.trees.1, h = Arr.zero 32 := by
  have hde : ∀ j, accumulator.de j = .ok a ↔ (Shape.cons (.req "numLeaves" u64) (.one (.req "trees" (list id)))).de j = .ok (a.numLeaves, a.roots) ∧ a.Normal :=
    fun j => by
      have hs : ∀ j b, (Shape.cons (.req "numLeaves" u64) (.one (.req "trees" (list id)))).de j = .ok b ↔
          (Shape.cons (.req "numLeaves" u64) (.one (.req "trees" (list Serde.id)))).de j = .ok b := by
        intro j b
        cases j with
        | obj m =>
          rw [Shape.de_obj _ (by simp [Shape.names, JField.req]), Shape.de_obj _ (by simp [Shape.names, JField.req])]
          exact Iff.rfl
        | arr l =>
          rw [Shape.de_arr, Shape.de_arr]
          exact Iff.rfl
        | _ => exact Iff.rfl
      rw [hs, ← accumulator_de]
      show (_ >>= _) = _ ↔ (_ >>= _) = _
      rw [bind_ok_iff, bind_ok_iff]
      constructor
      · rintro ⟨b, h1, h2⟩
        exact ⟨b, (hs j b).mp h1, h2⟩
      · rintro ⟨b, h1, h2⟩
        exact ⟨b, (hs j b).mpr h1, h2⟩
  constructor
  · rintro ⟨j, h1, h2⟩
    obtain ⟨h3, h4⟩ := (hde j).mp h2
    obtain ⟨t, h5, h6⟩ := bind_ok_iff.mp (show ((list id).ser (keepTrees (hasTreeAtHeight a.numLeaves) 0 a.trees.1) >>= _) = _ from h1)
    cases h6
    rw [keepTrees_roots] at h5
    obtain ⟨-, h7⟩ := (Shape.de_obj _ (by simp [Shape.names, JField.req]) _ _).mp h3
    simp [Shape.Reads, JField.Reads, JField.req, Json.valuesOf_cons, Json.valuesOf_nil (m := [])] at h7
    have hr : a.roots = [] := no_ids.mp ((back_list id a.roots).mp ⟨t, h5, h7⟩)
    have hz : a.numLeaves = 0 := by
      apply BitVec.eq_of_getLsbD_eq
      intro i hi
      rw [ElementAccumulator.roots, List.map_eq_nil_iff, List.filter_eq_nil_iff] at hr
      have := hr i (List.mem_range.mpr hi)
      simpa [BitVec.getLsbD] using this
    refine ⟨hz, fun h hh => ?_⟩
    obtain ⟨i, hi, rfl⟩ := List.getElem_of_mem hh
    exact h4 i hi (by simp [hz])
  · rintro ⟨h1, h2⟩
    have hr : a.roots = [] := by simp [ElementAccumulator.roots, h1]
    have hn : a.Normal := fun i hi _ => h2 _ (List.getElem_mem hi)
    refine ⟨.obj [("numLeaves", .nat 0), ("trees", .arr [])], ?_, (hde _).mpr ⟨?_, hn⟩⟩
    · show ((list id).ser (keepTrees (hasTreeAtHeight a.numLeaves) 0 a.trees.1) >>= _) = _
      rw [keepTrees_roots, hr, h1]
      rfl
    · rw [hr, h1]
      rfl

end Verif.Binary
