import Verif.Lemmas.Accept
import Verif.Lemmas.Resolution
import Verif.Props.Rfc3339
import Verif.Props.Stream

/-!
# Exactly which JSON documents and texts a value is read from: C67
-/

namespace Verif

open Serde Json.Grammar

/-! ## Values -/

/-- C67.  Identifiers, addresses, keys, signatures, leaves and unlock keys: which strings. -/
theorem C67_texts (E : Env) (j : Json) :
    (∀ x, id.de j = .ok x ↔ Says.id j x) ∧ (∀ x, (address E).de j = .ok x ↔ Says.address E j x) ∧ (∀ x, key.de j = .ok x ↔ Says.key j x) ∧
    (∀ x, signature.de j = .ok x ↔ Says.signature j x) ∧ (∀ x, leaf.de j = .ok x ↔ Says.leaf j x) ∧ (∀ x, unlockKey.de j = .ok x ↔ Says.unlockKey j x) :=
  ⟨exact_id j, exact_address E j, exact_key j, exact_signature j, exact_leaf j, exact_unlockKey j⟩

/-- C67.  Amounts: a number that is not negative, or a text of any length. -/
theorem C67_currency (E : Env) (j : Json) (c : Currency) : (currency E).de j = .ok c ↔ Says.currency E j c := exact_currency E j c

/-- C67.  Work, bytes, durations and lists of timestamps. -/
theorem C67_numbers (E : Env) (j : Json) :
    (∀ x, work.de j = .ok x ↔ Says.work j x) ∧ (∀ x, base64.de j = .ok x ↔ Says.bytes j x) ∧ (∀ x, duration.de j = .ok x ↔ Says.duration j x) ∧
    (∀ x, (times E).de j = .ok x ↔ Says.times E j x) := ⟨exact_work j, exact_base64 j, exact_duration j, exact_times E j⟩

/-- C67.  Timestamps, with the texts of the `time` crate: a string that means the time by RFC 3339. -/
theorem C67_time (m : Mode) (stack : Nat) (j : Json) (t : DateTime) : (time (Env.real m stack)).de j = .ok t ↔ ∃ s, j = .str s ∧ Rfc3339.Means s.toList t := by
  rw [show (time (Env.real m stack)).de j = .ok t ↔ _ from exact_time (Env.real m stack) j t]
  simp only [Says.time]
  refine exists_congr fun s => and_congr Iff.rfl ?_
  exact C60_parse_exact s.toList t

/-- A number, a unit, and what is refused: a negative number, a fraction, null. -/
example : Says.currency Sample.env (.nat 5) ⟨5⟩ ∧ Says.currency Sample.env (.str "1.5 SC") ⟨1500000000000000000000000⟩ ∧
    (∀ k c, ¬ Says.currency Sample.env (.neg k) c) ∧ ∀ c, ¬ Says.currency Sample.env .float c := by
  refine ⟨.inl ⟨5, rfl, rfl⟩, (C67_currency Sample.env _ _).mp (by decide +kernel), fun k c h => ?_, fun c h => ?_⟩ <;>
    rcases h with ⟨n, h, -⟩ | ⟨s, h, -⟩ <;> cases h

/-- One time and ten times the epoch; twelve times are too many. -/
example : (∃ ts, Says.times Sample.env (.arr [.str "2015-06-06T14:13:20Z"]) ts ∧ ts.1 = ⟨1433600000, 0⟩ :: List.replicate 10 DateTime.epoch) ∧
    ∀ ts, ¬ Says.times Sample.env (.arr (List.replicate 12 (.str "2015-06-06T14:13:20Z"))) ts := by
  refine ⟨⟨⟨⟨1433600000, 0⟩ :: List.replicate 10 DateTime.epoch, by decide⟩, ⟨_, [⟨1433600000, 0⟩], rfl, ⟨⟨_, rfl, rfl⟩, trivial⟩, by decide, rfl⟩, rfl⟩, ?_⟩
  rintro ts ⟨js, l, e, h1, h2, -⟩
  cases e
  have : ∀ (js : List Json) (l : List DateTime), Says.each (Says.time Sample.env) js l → l.length = js.length := by
    intro js
    induction js with
    | nil => intro l h; cases l with | nil => rfl | cons => exact h.elim
    | cons j js ih => intro l h; cases l with | nil => exact h.elim | cons t l => simp [ih l h.2]
  rw [this _ _ h1] at h2
  simp at h2

/-! ## v1 -/

/-- C67.  The parts of v1 transactions. -/
theorem C67_v1_parts (E : Env) (j : Json) :
    (∀ x, chainIndex.de j = .ok x ↔ Says.chainIndex j x) ∧ (∀ x, (siacoinOutput E).de j = .ok x ↔ Says.siacoinOutput E j x) ∧
    (∀ x, (siafundOutput E).de j = .ok x ↔ Says.siafundOutput E j x) ∧ (∀ x, unlockConditions.de j = .ok x ↔ Says.unlockConditions j x) ∧
    (∀ x, v1SiacoinInput.de j = .ok x ↔ Says.v1SiacoinInput j x) ∧ (∀ x, (v1SiafundInput E).de j = .ok x ↔ Says.v1SiafundInput E j x) ∧
    (∀ x, (v1FileContract E).de j = .ok x ↔ Says.v1FileContract E j x) ∧
    (∀ x, (v1FileContractRevision E).de j = .ok x ↔ Says.v1FileContractRevision E j x) ∧ (∀ x, v1StorageProof.de j = .ok x ↔ Says.v1StorageProof j x) ∧
    (∀ x, coveredFields.de j = .ok x ↔ Says.coveredFields j x) ∧ (∀ x, transactionSignature.de j = .ok x ↔ Says.transactionSignature j x) :=
  ⟨exact_chainIndex j, exact_siacoinOutput E j, exact_siafundOutput E j, exact_unlockConditions j, exact_v1SiacoinInput j, exact_v1SiafundInput E j,
    exact_v1FileContract E j, exact_v1FileContractRevision E j, exact_v1StorageProof j, exact_coveredFields j, exact_transactionSignature j⟩

/-- C67.  Exactly the documents that say a v1 transaction are read as that transaction. -/
theorem C67_v1_transaction (E : Env) (j : Json) (t : V1.Transaction) : (v1Transaction E).de j = .ok t ↔ Says.v1Transaction E j t := exact_v1Transaction E j t

/-- C67.  Blocks. -/
theorem C67_block (E : Env) (j : Json) (b : Block) : (block E).de j = .ok b ↔ Says.block E j b := exact_block E j b

/-- The document written for a sample transaction says it. -/
example : ∃ j, (v1Transaction Sample.env).ser Sample.v1txn = .ok j ∧ Says.v1Transaction Sample.env j Sample.v1txn := by
  obtain ⟨j, h1, h2⟩ := C50_v1_transaction Sample.env _ Sample.jsonFits_v1txn
  exact ⟨j, h1, (C67_v1_transaction _ _ _).mp (h2 j (.refl j))⟩

/-- The empty object, the empty array and an object with an unknown member say the empty transaction; a member that is null or given twice says nothing. -/
example (E : Env) (v : Json) : let none : V1.Transaction := ⟨[], [], [], [], [], [], [], [], [], []⟩
    Says.v1Transaction E (.obj []) none ∧ Says.v1Transaction E (.arr []) none ∧ Says.v1Transaction E (.obj [("SiacoinInputs", v)]) none ∧
    (∀ t, ¬ Says.v1Transaction E (.obj [("minerFees", .null)]) t) ∧ ∀ t, ¬ Says.v1Transaction E (.obj [("minerFees", .arr []), ("minerFees", .arr [])]) t := by
  refine ⟨?_, ?_, ?_, fun t h => ?_, fun t h => ?_⟩
  · simp [Says.v1Transaction, Says.struct, Says.orEmpty, valuesOf]
  · simp [Says.v1Transaction, Says.struct, Says.orEmpty, Says.positions]
  · simp [Says.v1Transaction, Says.struct, Says.orEmpty, valuesOf]
  · have := h (Says.orEmpty "minerFees" (·.minerFees) (Says.list (Says.currency E))) (by simp)
    simp [Says.orEmpty, valuesOf, Says.list] at this
  · have := h (Says.orEmpty "minerFees" (·.minerFees) (Says.list (Says.currency E))) (by simp)
    simp [Says.orEmpty, valuesOf] at this

/-! ## v2 -/

/-- C67.  Policies, on a stack with room for `d` nested calls. -/
theorem C67_policy (E : Env) (d : Nat) (j : Json) (p : SpendPolicy) : dePolicy E d j = .ok p ↔ Says.policy E d j p := exact_policyAt E d j p

/-- C67.  The parts of v2 transactions. -/
theorem C67_v2_parts (E : Env) (j : Json) :
    (∀ x, stateElement.de j = .ok x ↔ Says.stateElement j x) ∧ (∀ x, (satisfiedPolicy E).de j = .ok x ↔ Says.satisfiedPolicy E j x) ∧
    (∀ x, attestation.de j = .ok x ↔ Says.attestation j x) ∧ (∀ x, (v2FileContract E).de j = .ok x ↔ Says.v2FileContract E j x) ∧
    (∀ x, (siacoinElement E).de j = .ok x ↔ Says.siacoinElement E j x) ∧ (∀ x, (siafundElement E).de j = .ok x ↔ Says.siafundElement E j x) ∧
    (∀ x, (fileContractElement E).de j = .ok x ↔ Says.fileContractElement E j x) ∧ (∀ x, chainIndexElement.de j = .ok x ↔ Says.chainIndexElement j x) ∧
    (∀ x, (v2SiacoinInput E).de j = .ok x ↔ Says.v2SiacoinInput E j x) ∧ (∀ x, (v2SiafundInput E).de j = .ok x ↔ Says.v2SiafundInput E j x) ∧
    (∀ x, (v2FileContractRevision E).de j = .ok x ↔ Says.v2FileContractRevision E j x) ∧ (∀ x, (renewal E).de j = .ok x ↔ Says.renewal E j x) ∧
    (∀ x, v2StorageProof.de j = .ok x ↔ Says.v2StorageProof j x) :=
  ⟨exact_stateElement j, exact_satisfiedPolicy E j, exact_attestation j, exact_v2FileContract E j, exact_siacoinElement E j, exact_siafundElement E j,
    exact_fileContractElement E j, exact_chainIndexElement j, exact_v2SiacoinInput E j, exact_v2SiafundInput E j, exact_v2FileContractRevision E j,
    exact_renewal E j, exact_v2StorageProof j⟩

/-- C67.  Resolutions, within a transaction and on their own. -/
theorem C67_resolution (E : Env) (j : Json) : (∀ r, (resolution E).de j = .ok r ↔ Says.resolution E j r) ∧
    ∀ r, (contractResolution E).de j = .ok r ↔ Says.contractResolution E j r := ⟨exact_resolution E j, exact_contractResolution E j⟩

/-- C67.  v2 transactions. -/
theorem C67_v2_transaction (E : Env) (j : Json) (t : V2.Transaction) : (v2Transaction E).de j = .ok t ↔ Says.v2Transaction E j t := exact_v2Transaction E j t

example : ∃ j, (v2Transaction Sample.env).ser Sample.v2txn = .ok j ∧ Says.v2Transaction Sample.env j Sample.v2txn := by
  obtain ⟨j, h1, h2⟩ := C50_v2_transaction Sample.env _ Sample.jsonFits_v2txn
  exact ⟨j, h1, (C67_v2_transaction _ _ _).mp (h2 j (.refl j))⟩

/-- Every resolution is read back from the document written for it on its own; every one has a document. -/
theorem C67_resolution_round_trip (E : Env) (r : V2.ContractResolution) :
    ∃ j, (contractResolution E).ser r = .ok j ∧ (contractResolution E).de j = .ok r := by
  cases r with
  | renewal r =>
    obtain ⟨j, h1, h2⟩ := (gives_renewal (E := E) r).reordered
    have h3 : (renewal E).de j = .ok r := h2 j (.refl j)
    exact ⟨_, by simp only [contractResolution, h1]; rfl, by simp [contractResolution, h3]⟩
  | storageProof s =>
    obtain ⟨j, h1, h2⟩ := (gives_v2StorageProof s).reordered
    have h3 : v2StorageProof.de j = .ok s := h2 j (.refl j)
    exact ⟨_, by simp only [contractResolution, h1]; rfl, by simp [contractResolution, h3]⟩
  | expiration => exact ⟨_, rfl, by simp [contractResolution]⟩

/-- A resolution on its own is read from a text exactly if the text is one of JSON, except that values of some members may be anything that can be skipped,
nested less than 128 deep apart from these, and the document says the resolution whatever is put in for these values. -/
theorem C66_contract_resolution (E : Env) (finite : List Char → Bool) (t : List Char) (r : V2.ContractResolution) :
    (contractResolution E).ofText finite t = .ok r ↔
      ∃ J, BlankDocument finite t J ∧ (J .null).depth < 128 ∧ ∀ x, Says.contractResolution E (J x) r := by
  simp only [contractResolution_ofText, (C67_resolution E _).2]

/-- Every resolution has a text on its own, and is read back from it. -/
theorem C67_resolution_text (E : Env) (finite : List Char → Bool) (r : V2.ContractResolution) :
    ∃ t, (contractResolution E).toText r = .ok t ∧ (contractResolution E).ofText finite t = .ok r := by
  obtain ⟨j, h1, h2⟩ := C67_resolution_round_trip E r
  have hf : j.Flat 127 := Flat.flat (s := contractResolution E) _ _ h1
  refine ⟨j.print, by simp [Serde.toText, h1], (contractResolution_ofText _ _ _).mpr ⟨fun _ => j, ?_, Nat.lt_succ_of_le hf.2, fun _ => h2⟩⟩
  obtain ⟨w, u, w', h3, h4, h5, h6⟩ := Json.document_print finite hf.1
  exact ⟨w, u, w', h3, h4, .value h5, h6⟩

/-- A resolution on its own is the one type whose reader may panic on a text although the document is refused: it reads the content before it looks for
another member, and a document with another member is refused at once. -/
theorem C66_contract_resolution_not_documents : ∃ E t j, Document (fun _ => false) t j ∧ j.depth < 128 ∧
    (contractResolution E).ofText (fun _ => false) t = .panic ∧ (contractResolution E).de j = .fail := by
  have panics : ∀ (x : Res V2.ContractResolution), (match x with | .panic => true | _ => false) = true → x = .panic := fun x h => by
    cases x <;> first | rfl | cases h
  refine ⟨⟨Sample.env.hash, .checked, 100, fun _ => none, fun _ => none⟩, _, .obj [("renewal", .obj [("renterRollover", .str "341 TS")]), ("x", .nat 1)],
    Json.document_print _ (.obj ?_), by decide, panics _ (by decide +kernel), rfl⟩
  simp only [List.mem_cons, List.not_mem_nil, or_false, forall_eq_or_imp, forall_eq]
  exact ⟨.obj (by simpa using .str _), .nat _⟩

example : ((contractResolution Sample.env).ofText (fun _ => false) " { \"expiration\" : [ ] } ".toList = .ok .expiration) ∧
    (contractResolution Sample.env).ofText (fun _ => false) "{\"expiration\":[],\"x\":1}".toList = .fail ∧
    (contractResolution Sample.env).ofText (fun _ => false) "{\"expiration\":[1]}".toList = .fail ∧
    (contractResolution Sample.env).ofText (fun _ => false) "\"expiration\"".toList = .fail := by
  refine ⟨?_, ?_, ?_, ?_⟩ <;> rfl

/-- Within a transaction anything stands for an expiration, on its own only the empty array; the two forms exclude each other. -/
example (E : Env) : Says.contractResolution E (.obj [("expiration", .arr [])]) .expiration ∧
    (∀ r, ¬ Says.contractResolution E (.obj [("expiration", .null)]) r) ∧ (∀ r, ¬ Says.contractResolution E (.str "expiration") r) ∧
    ∀ v, Says.outcome E "expiration" v .expiration := by
  refine ⟨rfl, fun r h => ?_, fun r h => ?_, fun _ => rfl⟩ <;> cases r <;> simp [Says.contractResolution] at h

/-! ## Consensus -/

/-- C67.  Accumulators. -/
theorem C67_accumulator (j : Json) (a : ElementAccumulator) : accumulator.de j = .ok a ↔ Says.accumulator j a := exact_accumulator j a

/-- C67.  Chain states. -/
theorem C67_state (E : Env) (j : Json) (s : State) : (state E).de j = .ok s ↔ Says.state E j s := exact_state E j s

/-- C67.  Networks. -/
theorem C67_network (E : Env) (j : Json) (n : Network) : (network E).de j = .ok n ↔ Says.network E j n := exact_network E j n

/-- C67.  Networks with their states. -/
theorem C67_chain_state (E : Env) (j : Json) (c : ChainState) : (chainState E).de j = .ok c ↔ Says.chainState E j c := exact_chainState E j c

example : ∃ j, (state Sample.env2).ser Sample.state = .ok j ∧ Says.state Sample.env2 j Sample.state := by
  obtain ⟨j, h1, h2⟩ := C50_state Sample.env2 _ Sample.jsonFits_state
  exact ⟨j, h1, (C67_state _ _ _).mp (h2 j (.refl j))⟩

/-! ## Texts -/

/-- C67.  From the text to the value: v1 transactions, blocks, states, networks.  The text is one of JSON except for values that are skipped, nested less than
128 deep apart from these, and says the value whatever these are. -/
theorem C67_of_text (E : Env) (finite : List Char → Bool) (t : List Char) :
    (∀ a, (v1Transaction E).ofText finite t = .ok a ↔ ∃ J, BlankDocument finite t J ∧ (J .null).depth < 128 ∧ ∀ x, Says.v1Transaction E (J x) a) ∧
    (∀ a, (block E).ofText finite t = .ok a ↔ ∃ J, BlankDocument finite t J ∧ (J .null).depth < 128 ∧ ∀ x, Says.block E (J x) a) ∧
    (∀ a, (state E).ofText finite t = .ok a ↔ ∃ J, BlankDocument finite t J ∧ (J .null).depth < 128 ∧ ∀ x, Says.state E (J x) a) ∧
    (∀ a, (network E).ofText finite t = .ok a ↔ ∃ J, BlankDocument finite t J ∧ (J .null).depth < 128 ∧ ∀ x, Says.network E (J x) a) ∧
    (∀ a, (chainState E).ofText finite t = .ok a ↔ ∃ J, BlankDocument finite t J ∧ (J .null).depth < 128 ∧ ∀ x, Says.chainState E (J x) a) ∧
    ∀ a, (policy E).ofText finite t = .ok a ↔ ∃ j, Document finite t j ∧ j.depth < 128 ∧ Says.policy E E.stack j a := by
  simp only [C66_v1_transaction, C66_block, C66_state, C66_network, C66_chain_state, C66_policy, C67_v1_transaction, C67_block, C67_state, C67_network,
    C67_chain_state]
  refine ⟨fun _ => trivial, fun _ => trivial, fun _ => trivial, fun _ => trivial, fun _ => trivial, fun a => ?_⟩
  exact exists_congr fun j => and_congr Iff.rfl (and_congr Iff.rfl (exact_policy E j a))

/-- C67.  A text that is JSON nested less than 128 deep is read as a v2 transaction exactly if it says it. -/
theorem C67_v2_of_document (E : Env) (finite : List Char → Bool) (t : List Char) (j : Json) (ht : Document finite t j) (hd : j.depth < 128) (a : V2.Transaction) :
    (v2Transaction E).ofText finite t = .ok a ↔ Says.v2Transaction E j a := by
  rw [(C66_documents E finite t j ht hd).2.2.1, C67_v2_transaction]

end Verif
