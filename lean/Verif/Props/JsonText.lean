import Verif.Lemmas.Bound
import Verif.Props.Serde

/-!
# JSON as text: C64
-/

namespace Verif

open Serde Json.Grammar

/-! ## Texts and documents -/

/-- The parser reads a document from a text exactly if the grammar of JSON says so and the document is nested less than 128 deep.  `finite` says which
numbers with a fraction or exponent, or too many digits, `f64` can represent. -/
theorem C64_parse (finite : List Char → Bool) (s : List Char) (j : Json) : Json.parse finite s = some j ↔ Document finite s j ∧ j.depth < 128 := by
  rw [Json.parse, Json.parseWithin_iff]
  exact and_congr_right fun _ => Nat.lt_succ_iff.symm

/-- A text denotes at most one document. -/
theorem C64_unambiguous (finite : List Char → Bool) (s : List Char) (i j : Json) (hi : Document finite s i) (hj : Document finite s j) : i = j :=
  Json.document_unique hi hj

/-- The text written for a document denotes it. -/
theorem C64_print (finite : List Char → Bool) (j : Json) (h : j.Whole) : Document finite j.print j := Json.document_print finite h

/-- So two documents with the same text are equal. -/
theorem C64_print_injective (i j : Json) (hi : i.Whole) (hj : j.Whole) (h : i.print = j.print) : i = j :=
  C64_unambiguous (fun _ => false) i.print i j (C64_print _ i hi) (h ▸ C64_print _ j hj)

/-- White space, escapes, a surrogate pair and negative numbers; 2^64, -2^63 - 1 and -0 are not integers (and shown as 0.5); and not JSON are: a zero in
front, a comma at the end, a lone surrogate, a control character, something after the document, and the like. -/
example : (Json.parse (fun _ => false) " {\"a\\u0062\" : [ 10,-2 , \"\\ud83d\\uDE00\\n\"],\n\"\":true}".toList).map Json.print =
      some "{\"ab\":[10,-2,\"😀\\n\"],\"\":true}".toList ∧
    (Json.parse (fun _ => true) "[18446744073709551615,18446744073709551616,-9223372036854775808,-9223372036854775809,-0,1e5]".toList).map Json.print =
      some "[18446744073709551615,0.5,-9223372036854775808,0.5,0.5,0.5]".toList ∧
    ∀ s ∈ ["01", "[1,]", "\"\\ud83d\"", "\"\t\"", "1 1", "+1", ".5", "1.", "{\"a\":1,}", "nul", "", "-", "'a'", "{a:1}"],
      (Json.parse (fun _ => true) s.toList).map Json.print = none := by
  decide +kernel

/-! ## Values and texts -/

/-- A v1 transaction is read back from the text written for it exactly if its unlock keys are textual. -/
theorem C64_v1_transaction (E : Env) (finite : List Char → Bool) (t : V1.Transaction) :
    (∃ s, (v1Transaction E).toText t = .ok s ∧ (v1Transaction E).ofText finite s = .ok t) ↔ t.JsonFits := by
  rw [text_back (Flat.within 127) (bounds_all _ _), back_v1Transaction]; simp

/-- A block, exactly if in addition the text of its time is read back. -/
theorem C64_block (E : Env) (finite : List Char → Bool) (b : Block) :
    (∃ s, (block E).toText b = .ok s ∧ (block E).ofText finite s = .ok b) ↔ b.JsonFits E := by
  rw [text_back (Flat.within 127) (bounds_all _ _), back_block]; simp

/-- A chain state. -/
theorem C64_state (E : Env) (finite : List Char → Bool) (x : State) :
    (∃ s, (state E).toText x = .ok s ∧ (state E).ofText finite s = .ok x) ↔ x.JsonFits E := by
  rw [text_back (Flat.within 127) (bounds_all _ _), back_state]; simp

/-- A network. -/
theorem C64_network (E : Env) (finite : List Char → Bool) (x : Network) :
    (∃ s, (network E).toText x = .ok s ∧ (network E).ofText finite s = .ok x) ↔ x.JsonFits E := by
  rw [text_back (Flat.within 127) (bounds_all _ _), back_network]; simp

/-- A network with its state. -/
theorem C64_chain_state (E : Env) (finite : List Char → Bool) (x : ChainState) :
    (∃ s, (chainState E).toText x = .ok s ∧ (chainState E).ofText finite s = .ok x) ↔ x.network.JsonFits E ∧ x.state.JsonFits E := by
  rw [text_back (Flat.within 127) (bounds_all _ _), back_chainState]; simp

/-- A policy, exactly if it fits and its document is nested less than 128 deep. -/
theorem C64_policy (E : Env) (finite : List Char → Bool) (p : SpendPolicy) :
    (∃ s, (policy E).toText p = .ok s ∧ (policy E).ofText finite s = .ok p) ↔ p.JsonFits E.stack ∧ p.jsonDepth < 128 := by
  rw [text_back (within_policy 127) (bounds_policy 127), back_policy]
  exact and_congr_right fun _ => Nat.lt_succ_iff.symm

/-- A v2 transaction, exactly if its policies fit and are nested less than 124 deep: four levels are around them. -/
theorem C64_v2_transaction (E : Env) (finite : List Char → Bool) (t : V2.Transaction) :
    (∃ s, (v2Transaction E).toText t = .ok s ∧ (v2Transaction E).ofText finite s = .ok t) ↔ t.JsonFits E ∧
      (∀ i ∈ t.siacoinInputs, i.satisfiedPolicy.policy.jsonDepth + 4 < 128) ∧ ∀ i ∈ t.siafundInputs, i.satisfiedPolicy.policy.jsonDepth + 4 < 128 := by
  rw [text_back (within_v2Transaction 120) (bounds_v2Transaction 123), back_v2Transaction]
  refine and_congr_right fun _ => and_congr ?_ ?_ <;> exact forall_congr' fun i => imp_congr_right fun _ => by omega

/-- The sample transactions and the policies with 42 and 43 nested thresholds. -/
example (finite : List Char → Bool) :
    (∃ s, (v1Transaction Sample.env).toText Sample.v1txn = .ok s ∧ (v1Transaction Sample.env).ofText finite s = .ok Sample.v1txn) ∧
    (∃ s, (v2Transaction Sample.env).toText Sample.v2txn = .ok s ∧ (v2Transaction Sample.env).ofText finite s = .ok Sample.v2txn) ∧
    (∃ s, (block Sample.env).toText Sample.block = .ok s ∧ (block Sample.env).ofText finite s = .ok Sample.block) ∧
    (∃ s, (state Sample.env2).toText Sample.state = .ok s ∧ (state Sample.env2).ofText finite s = .ok Sample.state) ∧
    (∃ s, (policy Sample.env).toText (Sample.nested 42) = .ok s ∧ (policy Sample.env).ofText finite s = .ok (Sample.nested 42)) ∧
    ¬ ∃ s, (policy { Sample.env with stack := 1000 }).toText (Sample.nested 43) = .ok s ∧
      (policy { Sample.env with stack := 1000 }).ofText finite s = .ok (Sample.nested 43) := by
  refine ⟨(C64_v1_transaction _ _ _).mpr Sample.jsonFits_v1txn, (C64_v2_transaction _ _ _).mpr ⟨Sample.jsonFits_v2txn, ?_⟩,
    (C64_block _ _ _).mpr ⟨Sample.keeps_time, by simp [Sample.block, Sample.jsonFits_v1txn]⟩, (C64_state _ _ _).mpr Sample.jsonFits_state,
    (C64_policy _ _ _).mpr ⟨?_, ?_⟩, fun h => ?_⟩
  · simp [Sample.v2txn, Sample.sp, SpendPolicy.jsonDepth, SpendPolicy.jsonDepth.deepest, Sample.policy]
  · simp [Sample.env, Sample.nested, SpendPolicy.JsonFits]
  · simp [Sample.nested, SpendPolicy.jsonDepth, SpendPolicy.jsonDepth.deepest]
  · have := ((C64_policy _ _ _).mp h).2
    simp [Sample.nested, SpendPolicy.jsonDepth, SpendPolicy.jsonDepth.deepest] at this

/-- A transaction has room for 40 nested thresholds, not for 41, although the policy on its own has. -/
theorem C64_not_nested (E : Env) (finite : List Char → Bool) (t : V2.Transaction) (i : V2.SiacoinInput) (hi : i ∈ t.siacoinInputs)
    (hp : i.satisfiedPolicy.policy = Sample.nested 41) :
    ¬ ∃ s, (v2Transaction E).toText t = .ok s ∧ (v2Transaction E).ofText finite s = .ok t := by
  intro h
  have := ((C64_v2_transaction _ _ _).mp h).2.1 i hi
  rw [hp] at this
  simp [Sample.nested, SpendPolicy.jsonDepth, SpendPolicy.jsonDepth.deepest] at this

/-! ## Other texts for the same value -/

/-- Whatever the spacing, the escapes and the order of members: every text for the same content is read as the same v1 transaction. -/
theorem C64_any_v1_transaction (E : Env) (t : V1.Transaction) (h : t.JsonFits) :
    ∃ j, (v1Transaction E).ser t = .ok j ∧ ∀ j', j.Reordered j' → ∀ finite s, Document finite s j' → (v1Transaction E).ofText finite s = .ok t :=
  text_any (Flat.within 127) trivial (C50_v1_transaction E t h)

/-- Blocks. -/
theorem C64_any_block (E : Env) (b : Block) (h : b.JsonFits E) :
    ∃ j, (block E).ser b = .ok j ∧ ∀ j', j.Reordered j' → ∀ finite s, Document finite s j' → (block E).ofText finite s = .ok b :=
  text_any (Flat.within 127) trivial (C50_block E b h)

/-- v2 transactions. -/
theorem C64_any_v2_transaction (E : Env) (t : V2.Transaction) (h : t.JsonFits E) (h1 : ∀ i ∈ t.siacoinInputs, i.satisfiedPolicy.policy.jsonDepth + 4 < 128)
    (h2 : ∀ i ∈ t.siafundInputs, i.satisfiedPolicy.policy.jsonDepth + 4 < 128) :
    ∃ j, (v2Transaction E).ser t = .ok j ∧ ∀ j', j.Reordered j' → ∀ finite s, Document finite s j' → (v2Transaction E).ofText finite s = .ok t :=
  text_any (within_v2Transaction 120) ⟨fun i hi => by have := h1 i hi; omega, fun i hi => by have := h2 i hi; omega⟩ (C50_v2_transaction E t h)

/-- Chain states. -/
theorem C64_any_state (E : Env) (x : State) (h : x.JsonFits E) :
    ∃ j, (state E).ser x = .ok j ∧ ∀ j', j.Reordered j' → ∀ finite s, Document finite s j' → (state E).ofText finite s = .ok x :=
  text_any (Flat.within 127) trivial (C50_state E x h)

/-- Networks. -/
theorem C64_any_network (E : Env) (x : Network) (h : x.JsonFits E) :
    ∃ j, (network E).ser x = .ok j ∧ ∀ j', j.Reordered j' → ∀ finite s, Document finite s j' → (network E).ofText finite s = .ok x :=
  text_any (Flat.within 127) trivial (C50_network E x h)

example : ∃ j, (v1Transaction Sample.env).ser Sample.v1txn = .ok j ∧ ∀ j', j.Reordered j' → ∀ finite s, Document finite s j' →
    (v1Transaction Sample.env).ofText finite s = .ok Sample.v1txn := C64_any_v1_transaction _ _ Sample.jsonFits_v1txn

/-- An output with its members the other way round, spaces and an escape. -/
example : ∀ t ∈ ["{\"value\":\"7\",\"address\":\"0000000000000000000000000000000000000000000000000000000000000000000000000000\"}",
      " { \"address\" : \"0000000000000000000000000000000000000000000000000000000000000000000000000000\" ,\n\"val\\u0075e\":\"\\u0037\" } "],
    (siacoinOutput Sample.env).ofText (fun _ => false) t.toList = .ok ⟨⟨7⟩, Sample.h 0⟩ := by
  intro t ht
  simp only [List.mem_cons, List.not_mem_nil, or_false] at ht
  rcases ht with rfl | rfl <;> decide +kernel

/-! ## Panics -/

/-- No text makes the parser of policies overflow a stack with room for 43 nested calls. -/
theorem C64_policy_calm (E : Env) (finite : List Char → Bool) (h : 43 ≤ E.stack) (s : List Char) : (policy E).ofText finite s ≠ .panic :=
  text_calm (fun j hj => C52_policy E j (by omega)) finite s

/-- Without overflow checks, no text makes any reader panic. -/
theorem C64_calm (E : Env) (finite : List Char → Bool) (h : 43 ≤ E.stack) (hm : E.mode = .unchecked) (s : List Char) :
    (v1Transaction E).ofText finite s ≠ .panic ∧ (block E).ofText finite s ≠ .panic ∧ (state E).ofText finite s ≠ .panic ∧
    (network E).ofText finite s ≠ .panic ∧ (chainState E).ofText finite s ≠ .panic ∧ (v2Transaction E).ofText finite s ≠ .panic :=
  ⟨text_calm (fun j _ => (C52_others E hm j).1) finite s, text_calm (fun j _ => (C52_others E hm j).2.1) finite s,
    text_calm (fun j _ => (C52_others E hm j).2.2.1) finite s, text_calm (fun j _ => (C52_others E hm j).2.2.2.1) finite s,
    text_calm (fun j _ => (C52_others E hm j).2.2.2.2.1) finite s, text_calm (fun j hj => (C52_others E hm j).2.2.2.2.2 (by omega)) finite s⟩

example (s : List Char) : (policy Sample.env).ofText (fun _ => true) s ≠ .panic := C64_policy_calm _ _ (by decide) s

end Verif
