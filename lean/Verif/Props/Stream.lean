import Verif.Lemmas.Bound
import Verif.Lemmas.Complete
import Verif.Props.JsonText

/-!
# Reading values from texts in one pass: C66
-/

namespace Verif

open Serde Json.Grammar

/-! ## On the text of a document -/

/-- On a text of JSON nested less than 128 deep, the readers do what the readers of documents do: they give the same value, fail and panic on the same. -/
theorem C66_documents (E : Env) (finite : List Char → Bool) (t : List Char) (j : Json) (ht : Document finite t j) (hd : j.depth < 128) :
    (v1Transaction E).ofText finite t = (v1Transaction E).de j ∧ (block E).ofText finite t = (block E).de j ∧
    (v2Transaction E).ofText finite t = (v2Transaction E).de j ∧ (policy E).ofText finite t = (policy E).de j ∧
    (state E).ofText finite t = (state E).de j ∧ (network E).ofText finite t = (network E).de j ∧ (chainState E).ofText finite t = (chainState E).de j :=
  ⟨ofText_eq ht hd, ofText_eq ht hd, ofText_eq ht hd, ofText_eq ht hd, ofText_eq ht hd, ofText_eq ht hd, ofText_eq ht hd⟩

/-- A policy whose members are given twice, a chain index as an array, and a value that is not one. -/
example : (match (policy Sample.env).ofText (fun _ => false) "{\"policy\":[],\"type\":\"h\",\"policy\":1,\"type\":\"above\"}".toList with
      | .ok (.above n) => n == 1
      | _ => false) = true ∧
    chainIndex.ofText (fun _ => false) "[7,\"0000000000000000000000000000000000000000000000000000000000000000\"]".toList = .ok ⟨7, Sample.h 0⟩ ∧
    chainIndex.ofText (fun _ => false) "[7,\"0000000000000000000000000000000000000000000000000000000000000000\",1]".toList = .fail ∧
    chainIndex.ofText (fun _ => false) "[7]".toList = .fail := by decide +kernel

/-! ## On any text -/

/-- A v1 transaction is read from a text exactly if the text is one of JSON, except that values of some members may be anything that can be skipped, nested less
than 128 deep apart from these, and the document says the transaction whatever is put in for these values. -/
theorem C66_v1_transaction (E : Env) (finite : List Char → Bool) (t : List Char) (a : V1.Transaction) : (v1Transaction E).ofText finite t = .ok a ↔
    ∃ J, BlankDocument finite t J ∧ (J .null).depth < 128 ∧ ∀ x, (v1Transaction E).de (J x) = .ok a := ofText_iff finite t a

/-- Blocks. -/
theorem C66_block (E : Env) (finite : List Char → Bool) (t : List Char) (a : Block) : (block E).ofText finite t = .ok a ↔
    ∃ J, BlankDocument finite t J ∧ (J .null).depth < 128 ∧ ∀ x, (block E).de (J x) = .ok a := ofText_iff finite t a

/-- Chain states. -/
theorem C66_state (E : Env) (finite : List Char → Bool) (t : List Char) (a : State) : (state E).ofText finite t = .ok a ↔
    ∃ J, BlankDocument finite t J ∧ (J .null).depth < 128 ∧ ∀ x, (state E).de (J x) = .ok a := ofText_iff finite t a

/-- Networks. -/
theorem C66_network (E : Env) (finite : List Char → Bool) (t : List Char) (a : Network) : (network E).ofText finite t = .ok a ↔
    ∃ J, BlankDocument finite t J ∧ (J .null).depth < 128 ∧ ∀ x, (network E).de (J x) = .ok a := ofText_iff finite t a

/-- Networks with their states. -/
theorem C66_chain_state (E : Env) (finite : List Char → Bool) (t : List Char) (a : ChainState) : (chainState E).ofText finite t = .ok a ↔
    ∃ J, BlankDocument finite t J ∧ (J .null).depth < 128 ∧ ∀ x, (chainState E).de (J x) = .ok a := ofText_iff finite t a

/-- For v2 transactions this is necessary; it is sufficient if no value is skipped (`C66_documents`). -/
theorem C66_v2_transaction (E : Env) (finite : List Char → Bool) (t : List Char) (a : V2.Transaction) (h : (v2Transaction E).ofText finite t = .ok a) :
    ∃ J, BlankDocument finite t J ∧ (J .null).depth < 128 ∧ ∀ x, (v2Transaction E).de (J x) = .ok a := ofText_ok h

/-- Policies have no unknown members, so nothing is skipped: a policy is read from a text exactly if the text is JSON nested less than 128 deep and the document
says the policy. -/
theorem C66_policy (E : Env) (finite : List Char → Bool) (t : List Char) (a : SpendPolicy) : (policy E).ofText finite t = .ok a ↔
    ∃ j, Document finite t j ∧ j.depth < 128 ∧ (policy E).de j = .ok a := policy_ofText finite t a

/-! ## What is skipped -/

/-- A member that is not a field may have any value that can be skipped, at any depth: these texts are all read as the empty transaction. -/
theorem C66_unknown (E : Env) (finite : List Char → Bool) (k u : List Char) (name : String) (hk : Text k name) (hu : AnyValue u)
    (hn : name ∉ ["siacoinInputs", "siacoinOutputs", "fileContracts", "fileContractRevisions", "storageProofs", "siafundInputs", "siafundOutputs", "minerFees",
      "arbitraryData", "signatures"]) :
    (v1Transaction E).ofText finite ('{' :: (k ++ ':' :: (u ++ ['}']))) = .ok ⟨[], [], [], [], [], [], [], [], [], []⟩ := by
  rw [C66_v1_transaction]
  refine ⟨fun x => .obj [(name, x)], ⟨[], '{' :: (k ++ ':' :: (u ++ ['}'])), [], by simp, by simp [Space], ?_, by simp [Space]⟩, by simp [Json.depth, Json.depthMembers], fun x => ?_⟩
  · have := Json.Grammar.Blank.members (finite := finite) (.blankOne (w := []) (k := k) (w1 := []) (w2 := []) (s := u) (w' := []) (x := name) (by simp [Space]) hk (by simp [Space])
      (by simp [Space]) hu (by simp [Space]))
    simpa using this
  · simp only [List.mem_cons, List.not_mem_nil, or_false, not_or] at hn
    obtain ⟨h1, h2, h3, h4, h5, h6, h7, h8, h9, h10⟩ := hn
    have none : ∀ k : String, ¬ name = k → valuesOf k [(name, x)] = [] := fun k hk => by simp [valuesOf, hk]
    simp only [v1Transaction, record]
    rw [(Shape.de_obj _ (by simp [Shape.names, JField.vec]) [(name, x)] ([], [], [], [], [], [], [], [], [], [])).mpr]
    · rfl
    · exact ⟨.inr ⟨none _ h1, _, rfl⟩, .inr ⟨none _ h2, _, rfl⟩, .inr ⟨none _ h3, _, rfl⟩, .inr ⟨none _ h4, _, rfl⟩, .inr ⟨none _ h5, _, rfl⟩, .inr ⟨none _ h6, _, rfl⟩,
        .inr ⟨none _ h7, _, rfl⟩, .inr ⟨none _ h8, _, rfl⟩, .inr ⟨none _ h9, _, rfl⟩, .inr ⟨none _ h10, _, rfl⟩⟩

/-- Some nested arrays. -/
def Sample.arrays : Nat → List Char
  | 0 => ['[', ']']
  | n + 1 => '[' :: (Sample.arrays n ++ [']'])

theorem Sample.any_arrays : ∀ n, AnyValue (Sample.arrays n)
  | 0 => .noElements (w := []) (by simp [Space])
  | n + 1 => by
    have := AnyValue.elements (.one (w := []) (w' := []) (by simp [Space]) (Sample.any_arrays n) (by simp [Space]))
    simpa [Sample.arrays] using this

theorem Sample.value_arrays (finite : List Char → Bool) : ∀ n, ∃ j, Value finite (Sample.arrays n) j ∧ j.depth = n + 1
  | 0 => ⟨.arr [], .noElements (w := []) (by simp [Space]), by simp [Json.depth, Json.depthList]⟩
  | n + 1 => by
    obtain ⟨j, h1, h2⟩ := Sample.value_arrays finite n
    have := Value.elements (.one (w := []) (w' := []) (by simp [Space]) h1 (by simp [Space]))
    exact ⟨.arr [j], by simpa [Sample.arrays] using this, by simp [Json.depth, Json.depthList, h2]⟩

theorem Sample.text_x : Text ['"', 'x', '"'] "x" := ⟨['x'], rfl, .cons (.plain 'x' (by decide) (by decide) (by decide)) .nil⟩

/-- So a text that is read need not be JSON, nor be nested less than 128 deep, nor have numbers in range: `Value` refuses all of these. -/
theorem C66_not_json_only (E : Env) :
    (∀ finite, (v1Transaction E).ofText finite "{\"x\":\"\\ud800\"}".toList = .ok ⟨[], [], [], [], [], [], [], [], [], []⟩) ∧
    Json.parse (fun _ => true) "{\"x\":\"\\ud800\"}".toList = none ∧
    (∀ finite n, (v1Transaction E).ofText finite ("{\"x\":".toList ++ (Sample.arrays n ++ ['}'])) = .ok ⟨[], [], [], [], [], [], [], [], [], []⟩) ∧
    (∀ finite n, 127 ≤ n → Json.parse finite ("{\"x\":".toList ++ (Sample.arrays n ++ ['}'])) = none) ∧
    (v1Transaction E).ofText (fun _ => false) "{\"x\":1e999}".toList = .ok ⟨[], [], [], [], [], [], [], [], [], []⟩ ∧
    Json.parse (fun _ => false) "{\"x\":1e999}".toList = none := by
  have read : ∀ finite u, AnyValue u → (v1Transaction E).ofText finite ("{\"x\":".toList ++ (u ++ ['}'])) = .ok ⟨[], [], [], [], [], [], [], [], [], []⟩ :=
    fun finite u hu => C66_unknown E finite _ u "x" Sample.text_x hu (by decide)
  have none : ∀ finite t, (Json.parse finite t).isNone = true → Json.parse finite t = none := fun finite t h => by simpa using h
  refine ⟨fun finite => read finite "\"\\ud800\"".toList (.text ⟨"\\ud800".toList, by decide, ?_⟩), none _ _ (by decide +kernel), fun finite n => read finite _ (Sample.any_arrays n), fun finite n hn => ?_,
    read _ "1e999".toList (.number ⟨[], ['1'], [], "e999".toList, by decide, by simp, ?_, ?_, ?_⟩), none _ _ (by decide +kernel)⟩
  · exact .cons (.unicode 0xd800 ⟨'d', '8', '0', '0', 13, 8, 0, 0, rfl, by decide, by decide, by decide, by decide, rfl⟩) .nil
  · cases hp : Json.parse finite ("{\"x\":".toList ++ (Sample.arrays n ++ ['}'])) with
    | none => rfl
    | some j =>
      obtain ⟨h1, h2⟩ := (C64_parse _ _ _).mp hp
      obtain ⟨i, h3, h4⟩ := Sample.value_arrays finite n
      have h5 : Document finite ("{\"x\":".toList ++ (Sample.arrays n ++ ['}'])) (.obj [("x", i)]) := by
        have := Value.members (.one (w := []) (w1 := []) (w2 := []) (w' := []) (by simp [Space]) Sample.text_x (by simp [Space]) (by simp [Space]) h3 (by simp [Space]))
        exact ⟨[], "{\"x\":".toList ++ (Sample.arrays n ++ ['}']), [], by simp, by simp [Space], by simpa using this, by simp [Space]⟩
      rw [C64_unambiguous finite _ _ _ h1 h5] at h2
      simp only [Json.depth, Json.depthMembers, h4] at h2
      omega
  · exact ⟨by simp [Digits, digitChars], by decide⟩
  · exact .inl rfl
  · exact .inr ⟨'e', [], "999".toList, rfl, by decide, by decide, by simp [Digits, digitChars]⟩

end Verif
