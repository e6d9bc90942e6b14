import Verif.Lemmas.Document
import Verif.Props.Serde

/-!
# The JSON documents: C55
-/

namespace Verif

open Serde

/-- v1 transactions and blocks are written as their documents. -/
theorem C55_v1 (E : Env) : (v1Transaction E).HasDocument (Document.v1Transaction E) ∧ (block E).HasDocument (Document.block E) :=
  ⟨(docs_v1Transaction E).hasDocument, (docs_block E).hasDocument⟩

/-- The parts of v1 transactions. -/
theorem C55_v1_parts (E : Env) :
    v1SiacoinInput.HasDocument Document.v1SiacoinInput ∧ (v1SiafundInput E).HasDocument (Document.v1SiafundInput E) ∧
    (v1FileContract E).HasDocument (Document.v1FileContract E) ∧ (v1FileContractRevision E).HasDocument (Document.v1FileContractRevision E) ∧
    v1StorageProof.HasDocument Document.v1StorageProof ∧ coveredFields.HasDocument Document.coveredFields ∧
    transactionSignature.HasDocument Document.transactionSignature ∧ unlockConditions.HasDocument Document.unlockConditions ∧
    unlockKey.HasDocument Document.unlockKey :=
  ⟨docs_v1SiacoinInput.hasDocument, (docs_v1SiafundInput E).hasDocument, (docs_v1FileContract E).hasDocument, (docs_v1FileContractRevision E).hasDocument,
    docs_v1StorageProof.hasDocument, docs_coveredFields.hasDocument, docs_transactionSignature.hasDocument, docs_unlockConditions.hasDocument,
    docs_unlockKey.hasDocument⟩

/-- Identifiers, addresses, keys, signatures, leaves, amounts, bytes, times and durations. -/
theorem C55_values (E : Env) : Serde.id.HasDocument Document.hash ∧ (address E).HasDocument (Document.address E) ∧ key.HasDocument Document.key ∧
    signature.HasDocument Document.hash ∧ leaf.HasDocument Document.hash ∧ (currency E).HasDocument (fun c => Document.amount c.val.toNat) ∧
    work.HasDocument (fun w => Document.amount w.val.toNat) ∧ base64.HasDocument Document.bytes ∧ (time E).HasDocument (Document.time E) ∧
    duration.HasDocument Document.duration ∧ chainIndex.HasDocument Document.chainIndex ∧ (siacoinOutput E).HasDocument (Document.siacoinOutput E) ∧
    (siafundOutput E).HasDocument (Document.siafundOutput E) ∧ stateElement.HasDocument Document.stateElement :=
  ⟨docs_id.hasDocument, (docs_address E).hasDocument, docs_key.hasDocument, docs_signature.hasDocument, docs_leaf.hasDocument, (docs_currency E).hasDocument,
    docs_work.hasDocument, docs_base64.hasDocument, (docs_time E).hasDocument, docs_duration.hasDocument, docs_chainIndex.hasDocument,
    (docs_siacoinOutput E).hasDocument, (docs_siafundOutput E).hasDocument, docs_stateElement.hasDocument⟩

/-- Policies. -/
theorem C55_policy (E : Env) : (policy E).HasDocument (Document.policy E) ∧ (satisfiedPolicy E).HasDocument (Document.satisfiedPolicy E) :=
  ⟨(docs_policy E).hasDocument, (docs_satisfiedPolicy E).hasDocument⟩

/-- v2 transactions. -/
theorem C55_v2 (E : Env) : (v2Transaction E).HasDocument (Document.v2Transaction E) := (docs_v2Transaction E).hasDocument

/-- The parts of v2 transactions. -/
theorem C55_v2_parts (E : Env) :
    attestation.HasDocument Document.attestation ∧ (v2FileContract E).HasDocument (Document.v2FileContract E) ∧
    (siacoinElement E).HasDocument (Document.siacoinElement E) ∧ (siafundElement E).HasDocument (Document.siafundElement E) ∧
    (fileContractElement E).HasDocument (Document.fileContractElement E) ∧ chainIndexElement.HasDocument Document.chainIndexElement ∧
    (v2SiacoinInput E).HasDocument (Document.v2SiacoinInput E) ∧ (v2SiafundInput E).HasDocument (Document.v2SiafundInput E) ∧
    (v2FileContractRevision E).HasDocument (Document.v2FileContractRevision E) ∧ (renewal E).HasDocument (Document.renewal E) ∧
    v2StorageProof.HasDocument Document.v2StorageProof ∧ (resolution E).HasDocument (Document.resolution E) :=
  ⟨docs_attestation.hasDocument, (docs_v2FileContract E).hasDocument, (docs_siacoinElement E).hasDocument, (docs_siafundElement E).hasDocument,
    (docs_fileContractElement E).hasDocument, docs_chainIndexElement.hasDocument, (docs_v2SiacoinInput E).hasDocument, (docs_v2SiafundInput E).hasDocument,
    (docs_v2FileContractRevision E).hasDocument, (docs_renewal E).hasDocument, docs_v2StorageProof.hasDocument, (docs_resolution E).hasDocument⟩

/-- Accumulators, chain states and networks. -/
theorem C55_consensus (E : Env) : accumulator.HasDocument Document.accumulator ∧ (state E).HasDocument (Document.state E) ∧
    (network E).HasDocument (Document.network E) ∧ (chainState E).HasDocument (Document.chainState E) :=
  ⟨docs_accumulator.hasDocument, (docs_state E).hasDocument, (docs_network E).hasDocument, (docs_chainState E).hasDocument⟩

theorem Serde.Gives.document {α : Type} {s : Serde α} {f : α → Option Json} {a : α} (h : s.Gives a) (hd : s.Docs f) :
    ∃ d, f a = some d ∧ ∀ d', d.Reordered d' → s.de d' = .ok a := by
  obtain ⟨j, h1, h2⟩ := h.reordered
  rcases hd a with ⟨j', d, g1, g2, g3, _⟩ | ⟨g1, _⟩
  · rw [h1] at g1
    cases g1
    exact ⟨d, g2, fun d' hr => h2 d' (g3.symm.trans hr)⟩
  · exact absurd h1 (g1 j)

/-- Whoever writes the documents of transactions and blocks, in whatever order of members, is understood. -/
theorem C55_read_transactions (E : Env) :
    (∀ t : V1.Transaction, t.JsonFits → ∃ d, Document.v1Transaction E t = some d ∧ ∀ d', d.Reordered d' → (v1Transaction E).de d' = .ok t) ∧
    (∀ b : Block, b.JsonFits E → ∃ d, Document.block E b = some d ∧ ∀ d', d.Reordered d' → (block E).de d' = .ok b) ∧
    (∀ t : V2.Transaction, t.JsonFits E → ∃ d, Document.v2Transaction E t = some d ∧ ∀ d', d.Reordered d' → (v2Transaction E).de d' = .ok t) :=
  ⟨fun _ h => (gives_v1Transaction h).document (docs_v1Transaction E), fun _ h => (gives_block h).document (docs_block E),
    fun _ h => (gives_v2Transaction h).document (docs_v2Transaction E)⟩

/-- Policies, states and networks. -/
theorem C55_read_others (E : Env) :
    (∀ p : SpendPolicy, p.JsonFits E.stack → ∃ d, Document.policy E p = some d ∧ ∀ d', d.Reordered d' → (policy E).de d' = .ok p) ∧
    (∀ s : State, s.JsonFits E → ∃ d, Document.state E s = some d ∧ ∀ d', d.Reordered d' → (state E).de d' = .ok s) ∧
    (∀ n : Network, n.JsonFits E → ∃ d, Document.network E n = some d ∧ ∀ d', d.Reordered d' → (network E).de d' = .ok n) :=
  ⟨fun _ h => (gives_policy h).document (docs_policy E), fun _ h => (gives_state h).document (docs_state E),
    fun _ h => (gives_network h).document (docs_network E)⟩

/-! ## Concrete documents -/

example : ∃ d, Document.v1Transaction Sample.env Sample.v1txn = some d ∧ ∃ j, (v1Transaction Sample.env).ser Sample.v1txn = .ok j ∧ d.Reordered j := by
  obtain ⟨d, h, _⟩ := (C55_read_transactions Sample.env).1 _ Sample.jsonFits_v1txn
  exact ⟨d, h, ((C55_v1 _).1 _).1 d h⟩

example : Document.siafundOutput { Sample.env with hash := fun _ => Sample.h 7 } ⟨25, ⟨List.replicate 32 0xab, by simp⟩⟩ = some (.obj
    [("value", .nat 25), ("address", .str "abababababababababababababababababababababababababababababababab070707070707")]) := by
  have : Document.hex (List.replicate 32 0xab ++ (Sample.h 7).1.take 6) = "abababababababababababababababababababababababababababababababab070707070707" := by decide +kernel
  simp only [Document.siafundOutput, Document.object, Document.members, Document.number, Document.address, Document.string, this]
  rfl

/-- Empty lists are left out, the fee is not. -/
example : Document.v2Transaction Sample.env ⟨[], [], [], [], [], [], [], [], [255, 239], none, ⟨1250⟩⟩ =
    some (.obj [("arbitraryData", .str "/+8="), ("minerFee", .str "1250")]) := by
  have h1 : Document.base64 [255, 239] = "/+8=" := by decide +kernel
  have h2 : String.ofList (Nat.toDigits 10 1250) = "1250" := by decide +kernel
  simp [Document.v2Transaction, Document.unlessEmpty, Document.unlessNone, Document.object, Document.members, Document.bytes, Document.string, Document.amount, h1, h2]

example : Document.policy Sample.env (.threshold 2 [.above 5, .after ⟨-1, 0⟩]) = some (.obj [("type", .str "thresh"), ("policy", .obj [("n", .nat 2), ("of", .arr
    [.obj [("type", .str "above"), ("policy", .nat 5)], .obj [("type", .str "after"), ("policy", .nat 18446744073709551615)]])])]) := by
  simp [Document.policy, Document.policies, Document.tagged, Document.object, Document.members, Document.string, Document.number]

/-- There is no document with an algorithm that is not UTF-8. -/
example : Document.policy Sample.env (.unlockConditions ⟨0, [Sample.rawKey], 1⟩) = none := by
  have : Document.name Sample.rawKey.algorithm.1 = none := by decide +kernel
  simp [Document.policy, Document.tagged, Document.object, Document.members, Document.string, Document.unlockConditions, Document.array, Document.every, Document.unlockKey, this,
    Document.number]

end Verif
