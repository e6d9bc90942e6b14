import Verif.Lemmas.Reads
import Verif.Props.Consensus

/-!
# JSON: C42, C45, C50, C51, C52, C53
-/

namespace Verif

open Serde

namespace Sample

/-- A toy hash, a stack for 43 nested policies, and one time that has a text. -/
def env : Env where
  hash := fun bs => h (bs.foldl (· + ·) 0)
  mode := .checked
  stack := 43
  timeText := fun t => if t = ⟨1433600000, 0⟩ then some "2015-06-06T14:13:20Z" else none
  timeRead := fun s => if s = "2015-06-06T14:13:20Z" then some ⟨1433600000, 0⟩ else none

theorem textual_uc : uc.Textual := by
  have : ∀ key, UnlockKey.Textual ⟨ed25519, key⟩ := fun key =>
    ⟨ascii "ed25519", isText_ascii (by decide +kernel), ⟨by decide +kernel, show ed25519.1 = _ by decide +kernel⟩, by decide +kernel⟩
  simp [UnlockConditions.Textual, uc, this]

theorem keeps_time : env.Keeps ⟨1433600000, 0⟩ := ⟨"2015-06-06T14:13:20Z", rfl, rfl⟩

theorem jsonFits_policy : policy.JsonFits 43 := by simp [policy, SpendPolicy.JsonFits]

/-- An algorithm with a colon. -/
def colonKey : UnlockKey := ⟨⟨ascii "a:b" ++ List.replicate 13 0, by decide +kernel⟩, [1]⟩

/-- An algorithm that is not UTF-8. -/
def rawKey : UnlockKey := ⟨⟨255 :: List.replicate 15 0, by decide +kernel⟩, [1]⟩

/-- Thresholds within thresholds. -/
def nested : Nat → SpendPolicy
  | 0 => .above 0
  | n + 1 => .threshold 1 [nested n]

end Sample

/-! ## C42 -/

/-- The JSON of a policy is read back as the policy, in whatever order the members of its objects are.
Missing: policies with an unlock key whose algorithm has a colon or is not UTF-8 (see `C42_exactly`). -/
theorem C42_round_trip_partial (E : Env) (p : SpendPolicy) (h : p.JsonFits E.stack) :
    ∃ j, (policy E).ser p = .ok j ∧ ∀ j', j.Reordered j' → (policy E).de j' = .ok p := (gives_policy h).reordered

example : ∃ j, (policy Sample.env).ser Sample.policy = .ok j ∧ ∀ j', j.Reordered j' → (policy Sample.env).de j' = .ok Sample.policy :=
  C42_round_trip_partial _ _ Sample.jsonFits_policy

/-- The policies that survive JSON are exactly those. -/
theorem C42_exactly (E : Env) (p : SpendPolicy) : (∃ j, (policy E).ser p = .ok j ∧ (policy E).de j = .ok p) ↔ p.JsonFits E.stack := by
  constructor
  · rintro ⟨j, h1, h2⟩
    exact trip_policyAt _ _ ⟨j, h1, (dePolicy_norm h1).trans h2⟩
  · intro h
    obtain ⟨j, h1, h2⟩ := C42_round_trip_partial E p h
    exact ⟨j, h1, h2 j (.refl j)⟩

/-- C42: what is written for a policy is an object of its type, with the name of `type_str`, and its contents. -/
theorem C42_type (E : Env) (p : SpendPolicy) (j : Json) (h : (policy E).ser p = .ok j) : ∃ v, j = .obj [("type", .str p.typeStr), ("policy", v)] := by
  change serPolicy E p = .ok j at h
  cases p with
  | threshold n of =>
    rw [serPolicy] at h
    obtain ⟨x, -, h⟩ := bind_ok_iff.mp h
    obtain ⟨js, -, h⟩ := bind_ok_iff.mp h
    cases h
    exact ⟨_, rfl⟩
  | _ =>
    rw [serPolicy] at h
    obtain ⟨x, -, h⟩ := bind_ok_iff.mp h
    cases h
    exact ⟨_, rfl⟩

/-- The names of the seven types. -/
example (a : Address) (k : PublicKey) (h : Hash256) (uc : UnlockConditions) :
    [SpendPolicy.above 1, .after ⟨1, 0⟩, .publicKey k, .hash h, .threshold 1 [], .opaqueAddr a, .unlockConditions uc].map SpendPolicy.typeStr =
      ["above", "after", "pk", "h", "thresh", "opaque", "uc"] := rfl

/-- No policy with an algorithm that has a colon or is not UTF-8 survives. -/
theorem C42_not_textual (E : Env) (uc : UnlockConditions) (h : ¬ uc.Textual) :
    ¬ ∃ j, (policy E).ser (.unlockConditions uc) = .ok j ∧ (policy E).de j = .ok (.unlockConditions uc) := by
  rw [C42_exactly]
  cases E.stack with
  | zero => simp [SpendPolicy.JsonFits]
  | succ n => simpa [SpendPolicy.JsonFits] using h

/-- If it is not UTF-8, writing the policy panics. -/
theorem C42_not_utf8 (E : Env) (uc : UnlockConditions) (k : UnlockKey) (hk : k ∈ uc.publicKeys) (t : List UInt8) (hn : Names t k.algorithm) (ht : ¬ IsText t) :
    (policy E).ser (.unlockConditions uc) = .panic := by
  obtain ⟨a, ks, b⟩ := uc
  have hs : showUnlockKey k = none := by
    have := (C21_display_fails k.algorithm).mpr ⟨t, hn, ht⟩
    simp [showUnlockKey, this]
  have he : each unlockKey.ser ks = .panic := by
    simp only at hk
    induction ks with
    | nil => cases hk
    | cons x ks ih =>
      rw [each]
      by_cases hx : x = k
      · subst hx
        simp [unlockKey, text, hs]
      · have ih := ih ((List.mem_cons.mp hk).resolve_left (Ne.symm hx))
        cases hy : showUnlockKey x with
        | none => simp [unlockKey, text, hy]
        | some s => simp only [ih]; simp [unlockKey, text, hy]
  show serPolicy E _ = _
  rw [serPolicy]
  simp [unlockConditions, record, Shape.ser, JField.ser, JField.req, list, u64, he, Struct.fields]

/-- The algorithms "a:b" and 0xff. -/
example : (¬ ∃ j, (policy Sample.env).ser (.unlockConditions ⟨0, [Sample.colonKey], 1⟩) = .ok j ∧
      (policy Sample.env).de j = .ok (.unlockConditions ⟨0, [Sample.colonKey], 1⟩)) ∧
    (policy Sample.env).ser (.unlockConditions ⟨0, [Sample.rawKey], 1⟩) = .panic := by
  constructor
  · refine C42_not_textual _ _ fun h => ?_
    obtain ⟨t, h1, h2, h3⟩ := h Sample.colonKey (by simp)
    have : Names (ascii "a:b") Sample.colonKey.algorithm := ⟨by decide +kernel, by decide +kernel⟩
    have e := names_unique h2 this
    subst e
    exact h3 (by decide +kernel)
  · refine C42_not_utf8 _ _ Sample.rawKey (by simp) [255] ⟨by decide +kernel, by decide +kernel⟩ ?_
    intro h
    have := (C21_display_fails Sample.rawKey.algorithm).mp (by decide +kernel)
    obtain ⟨t, h1, h2⟩ := this
    have e := names_unique h1 (t' := [255]) ⟨by decide +kernel, by decide +kernel⟩
    exact h2 (e ▸ h)

/-- The parser's limit: the text of a policy is read back if its JSON is nested less than 128 deep, and refused otherwise.  Every threshold adds three
levels. -/
theorem C42_text (E : Env) (p : SpendPolicy) (h : p.JsonFits E.stack) :
    ∃ j, (policy E).ser p = .ok j ∧ (policy E).fromStr j = if p.jsonDepth < 128 then .ok p else .err .custom := by
  obtain ⟨j, h1, h2⟩ := C42_round_trip_partial E p h
  refine ⟨j, h1, ?_⟩
  rw [Serde.fromStr, (depth_policy p j h1).1, h2 j (.refl j)]

/-- 42 nested thresholds are readable, 43 are not. -/
example : (Sample.nested 42).jsonDepth = 127 ∧ (Sample.nested 43).jsonDepth = 130 := by
  simp [Sample.nested, SpendPolicy.jsonDepth, SpendPolicy.jsonDepth.deepest]

/-! ## C45 -/

/-- The JSON of an accumulator in normal form is read back, in whatever order its members are. -/
theorem C45_round_trip (a : ElementAccumulator) (h : a.Normal) :
    ∃ j, accumulator.ser a = .ok j ∧ ∀ j', j.Reordered j' → accumulator.de j' = .ok a := (gives_accumulator h).reordered

example : ∃ j, accumulator.ser Sample.accumulator = .ok j ∧ ∀ j', j.Reordered j' → accumulator.de j' = .ok Sample.accumulator :=
  C45_round_trip _ Sample.fits_accumulator

/-- What is written: the leaf count and the trees at its one bits, lowest first. -/
theorem C45_writes (a : ElementAccumulator) : ∃ t, (list id).ser a.roots = .ok t ∧
    accumulator.ser a = .ok (.obj [("numLeaves", .nat a.numLeaves), ("trees", t)]) := by
  obtain ⟨t, h, -⟩ := gives_ids a.roots
  refine ⟨t, h, ?_⟩
  simp only [accumulator, keepTrees_roots, h]
  rfl

/-- An object is read exactly if it has one leaf count and one list of trees, and these are the trees at the one bits of the leaf count; the other trees
of the result are zero. -/
theorem C45_object (m : List (String × Json)) (a : ElementAccumulator) : accumulator.de (.obj m) = .ok a ↔
    valuesOf "numLeaves" m = [.nat a.numLeaves] ∧ (∃ t, valuesOf "trees" m = [t] ∧ (list id).de t = .ok a.roots) ∧ a.Normal := by
  rw [accumulator_de, Shape.de_obj _ (by decide)]
  simp only [Shape.Reads, JField.Reads, JField.req, u64_de]
  constructor
  · rintro ⟨⟨⟨x, h1, rfl⟩ | ⟨-, skip, h⟩, ⟨y, h3, h4⟩ | ⟨-, skip, h'⟩⟩, hn⟩
    · exact ⟨h1, ⟨y, h3, h4⟩, hn⟩
    · cases h'
    · cases h
    · cases h
  · rintro ⟨h1, ⟨y, h3, h4⟩, hn⟩
    exact ⟨⟨.inl ⟨_, h1, rfl⟩, .inl ⟨y, h3, h4⟩⟩, hn⟩

/-- `serde` also reads the two in an array. -/
theorem C45_array (l : List Json) (a : ElementAccumulator) : accumulator.de (.arr l) = .ok a ↔
    (∃ t, l = [.nat a.numLeaves, t] ∧ (list id).de t = .ok a.roots) ∧ a.Normal := by
  rw [accumulator_de, Shape.de_arr]
  simp only [Shape.ReadsSeq]
  refine and_congr_left fun _ => ?_
  constructor
  · rintro ⟨h1, h2, h3⟩
    rcases l with _ | ⟨x, _ | ⟨y, l⟩⟩
    · obtain ⟨skip, h⟩ := h1; cases h
    · obtain ⟨skip, h⟩ := h3; cases h
    · simp only [List.tail_cons, List.length_cons] at h2
      rw [List.eq_nil_of_length_eq_zero (l := l) (by omega), (u64_de x _).mp h1]
      exact ⟨y, rfl, h3⟩
  · rintro ⟨t, rfl, h⟩
    exact ⟨rfl, by simp, h⟩

/-- A number of trees other than the number of one bits is an error. -/
theorem C45_count (m : List (String × Json)) (n : U64) (t : Json) (l : List Hash256) (hn : valuesOf "numLeaves" m = [.nat n])
    (ht : valuesOf "trees" m = [t]) (hl : (list id).de t = .ok l) :
    (∃ a, accumulator.de (.obj m) = .ok a) ↔ l.length = ((List.range 64).filter fun i => n.toNat.testBit i).length := by
  have hx : (Shape.cons (.req "numLeaves" u64) (.one (.req "trees" (list id)))).de (.obj m) = .ok (n, l) :=
    (Shape.de_obj _ (by decide) _ _).mpr ⟨.inl ⟨_, hn, rfl⟩, .inl ⟨t, ht, hl⟩⟩
  have hc : countOnes n = ((List.range 64).filter fun i => n.toNat.testBit i).length := by
    rw [countOnes, List.countP_eq_length_filter]; rfl
  constructor
  · rintro ⟨a, ha⟩
    have := ((accumulator_de _ _).mp ha).1
    rw [hx] at this
    cases this
    rw [← countOnes_roots, hc]
  · intro hlen
    simp only [accumulator, hx, Res.ok_bind, accumulatorOf]
    rw [if_neg (by simp [hlen, hc])]
    obtain ⟨r, hr⟩ := placeTrees_some (hasTreeAtHeight n) 64 0 l (by
      rw [hlen]
      have : hasTreeAtHeight n = fun i => n.toNat.testBit i := by funext i; exact hasTreeAtHeight_eq _ _
      rw [this, List.range_eq_range']
      exact Nat.le_refl _)
    rw [hr]
    exact ⟨_, rfl⟩

/-- Five leaves have two trees. -/
example : ((List.range 64).filter fun i => Sample.accumulator.numLeaves.toNat.testBit i).length = 2 ∧ Sample.accumulator.roots = [Sample.h 1, Sample.h 3] := by
  decide +kernel

/-- What survives is the normal form: reading back what was written sets the other trees to zero. -/
theorem C45_normalises (a : ElementAccumulator) : ∃ j b, accumulator.ser a = .ok j ∧ accumulator.de j = .ok b ∧ b.numLeaves = a.numLeaves ∧
    ∀ i < 64, b.trees.1[i]? = if a.numLeaves.toNat.testBit i then a.trees.1[i]? else some (Arr.zero 32) := by
  let l := (List.range 64).map fun i => if a.numLeaves.toNat.testBit i then a.trees.1.getD i (Arr.zero 32) else Arr.zero 32
  have hl : l.length = 64 := by simp [l]
  let b : ElementAccumulator := ⟨a.numLeaves, ⟨l, hl⟩⟩
  have hget : ∀ i < 64, l[i]? = some (if a.numLeaves.toNat.testBit i then a.trees.1.getD i (Arr.zero 32) else Arr.zero 32) := by
    intro i hi
    simp [l, List.getElem?_map, List.getElem?_range hi]
  have hr : b.roots = a.roots := by
    refine List.map_congr_left fun i hi => ?_
    obtain ⟨h1, h2⟩ := List.mem_filter.mp hi
    show l.getD i (Arr.zero 32) = _
    rw [List.getD_eq_getElem?_getD, hget i (List.mem_range.mp h1), if_pos h2]
    rfl
  have hn : b.Normal := by
    intro i hi hb
    have := hget i (by rw [← hl]; exact hi)
    rw [if_neg (by simpa using hb)] at this
    exact (List.getElem?_eq_some_iff.mp this).2
  obtain ⟨t, h1, h2⟩ := C45_writes a
  obtain ⟨t', h3, h4⟩ := C45_writes b
  obtain ⟨j, h5, h6⟩ := C45_round_trip b hn
  rw [hr, h1] at h3
  cases h3
  refine ⟨j, b, ?_, h6 j (.refl j), rfl, fun i hi => ?_⟩
  · rw [← h5, h2, h4]
  · rw [show b.trees.1 = l from rfl, hget i hi]
    by_cases hb : a.numLeaves.toNat.testBit i = true
    · rw [if_pos hb, if_pos hb, List.getD_eq_getElem?_getD, List.getElem?_eq_getElem (by rw [a.trees.2]; exact hi)]
      rfl
    · rw [if_neg hb, if_neg hb]

/-! ## C50 -/

/-- v1 transactions survive JSON. -/
theorem C50_v1_transaction (E : Env) (t : V1.Transaction) (h : t.JsonFits) :
    ∃ j, (v1Transaction E).ser t = .ok j ∧ ∀ j', j.Reordered j' → (v1Transaction E).de j' = .ok t := (gives_v1Transaction h).reordered

/-- Blocks. -/
theorem C50_block (E : Env) (b : Block) (h : b.JsonFits E) :
    ∃ j, (block E).ser b = .ok j ∧ ∀ j', j.Reordered j' → (block E).de j' = .ok b := (gives_block h).reordered

/-- v2 transactions. -/
theorem C50_v2_transaction (E : Env) (t : V2.Transaction) (h : t.JsonFits E) :
    ∃ j, (v2Transaction E).ser t = .ok j ∧ ∀ j', j.Reordered j' → (v2Transaction E).de j' = .ok t := (gives_v2Transaction h).reordered

/-- Chain states. -/
theorem C50_state (E : Env) (s : State) (h : s.JsonFits E) :
    ∃ j, (state E).ser s = .ok j ∧ ∀ j', j.Reordered j' → (state E).de j' = .ok s := (gives_state h).reordered

/-- Networks. -/
theorem C50_network (E : Env) (n : Network) (h : n.JsonFits E) :
    ∃ j, (network E).ser n = .ok j ∧ ∀ j', j.Reordered j' → (network E).de j' = .ok n := (gives_network h).reordered

/-- A network with its state. -/
theorem C50_chain_state (E : Env) (c : ChainState) (hn : c.network.JsonFits E) (hs : c.state.JsonFits E) :
    ∃ j, (chainState E).ser c = .ok j ∧ ∀ j', j.Reordered j' → (chainState E).de j' = .ok c := (gives_chainState hn hs).reordered

namespace Sample

theorem jsonFits_v1txn : v1txn.JsonFits := by
  have := textual_uc
  simp [V1.Transaction.JsonFits, v1txn, v1fcr, this]

theorem jsonFits_v2txn : v2txn.JsonFits env := by
  have h1 := textual_uc
  have h2 := jsonFits_policy
  simp [V2.Transaction.JsonFits, v2txn, sp, env, SpendPolicy.JsonFits, h1, h2]

/-- An environment with one more time. -/
def env2 : Env := { env with
  timeText := fun t => if t = ⟨1433600000, 0⟩ then some "a" else if t = ⟨1433600600, 0⟩ then some "b" else if t = ⟨1433601200, 0⟩ then some "c" else some "d"
  timeRead := fun s => if s = "a" then some ⟨1433600000, 0⟩ else if s = "b" then some ⟨1433600600, 0⟩ else if s = "c" then some ⟨1433601200, 0⟩ else some ⟨0, 0⟩ }

theorem jsonFits_state : state.JsonFits env2 := by
  refine ⟨?_, by simp [Duration.JsonFits, state], fits_accumulator⟩
  simp [state]
  exact ⟨⟨"a", rfl, rfl⟩, ⟨"b", rfl, rfl⟩, ⟨"c", rfl, rfl⟩, ⟨"d", rfl, rfl⟩⟩

end Sample

example : ∃ j, (v1Transaction Sample.env).ser Sample.v1txn = .ok j ∧ ∀ j', j.Reordered j' → (v1Transaction Sample.env).de j' = .ok Sample.v1txn :=
  C50_v1_transaction _ _ Sample.jsonFits_v1txn

example : ∃ j, (block Sample.env).ser Sample.block = .ok j ∧ ∀ j', j.Reordered j' → (block Sample.env).de j' = .ok Sample.block :=
  C50_block _ _ ⟨Sample.keeps_time, by simp [Sample.block, Sample.jsonFits_v1txn]⟩

example : ∃ j, (v2Transaction Sample.env).ser Sample.v2txn = .ok j ∧ ∀ j', j.Reordered j' → (v2Transaction Sample.env).de j' = .ok Sample.v2txn :=
  C50_v2_transaction _ _ Sample.jsonFits_v2txn

example : ∃ j, (state Sample.env2).ser Sample.state = .ok j ∧ ∀ j', j.Reordered j' → (state Sample.env2).de j' = .ok Sample.state :=
  C50_state _ _ Sample.jsonFits_state

/-- Not everything that is read can be written: an algorithm of more than 16 bytes is cut, possibly inside a character. -/
theorem C50_not_rewritten : ∃ k, unlockKey.de (.str "aaaaaaaaaaaaaaa\u00e9:00") = .ok k ∧ unlockKey.ser k = .panic := by
  have h1 : parseUnlockKey (strBytes "aaaaaaaaaaaaaaa\u00e9:00") = .ok ⟨⟨List.replicate 15 97 ++ [195], by decide +kernel⟩, [0]⟩ := by decide +kernel
  have h2 : showUnlockKey ⟨⟨List.replicate 15 97 ++ [195], by decide +kernel⟩, [0]⟩ = none := by decide +kernel
  exact ⟨_, by simp only [unlockKey, text, h1]; rfl, by simp only [unlockKey, text, h2]; rfl⟩

/-! ## C51 -/

/-- A derived struct is read from an object exactly if every field is read on its own: its name occurs once and the value is read, or it does not occur
and has a default.  The order of the members does not matter, and neither do members with other names. -/
theorem C51_object {β : Type} (s : Shape β) (hn : s.names.Nodup) (m : List (String × Json)) (b : β) : s.de (.obj m) = .ok b ↔ s.Reads m b :=
  Shape.de_obj s hn m b

/-- From an array exactly if the fields are read by position and there are no further elements. -/
theorem C51_array {β : Type} (s : Shape β) (l : List Json) (b : β) : s.de (.arr l) = .ok b ↔ s.ReadsSeq l b := Shape.de_arr s l b

/-- From nothing else. -/
theorem C51_other {β : Type} (s : Shape β) (j : Json) (hm : ∀ m, j ≠ .obj m) (hl : ∀ l, j ≠ .arr l) : s.de j = .err .custom := by
  cases j with
  | obj m => exact absurd rfl (hm m)
  | arr l => exact absurd rfl (hl l)
  | _ => rfl

/-- For example, an output: one member "value" and one member "address". -/
theorem C51_output (E : Env) (m : List (String × Json)) (o : SiacoinOutput) : (siacoinOutput E).de (.obj m) = .ok o ↔
    (∃ v, valuesOf "value" m = [v] ∧ (currency E).de v = .ok o.value) ∧ ∃ a, valuesOf "address" m = [a] ∧ (address E).de a = .ok o.address := by
  obtain ⟨x, y⟩ := o
  have := C51_object (.cons (.req "value" (currency E)) (.one (.req "address" (address E)))) (by simp [Shape.names, JField.req]) m (x, y)
  simp only [siacoinOutput, record, bind_ok_iff]
  simp only [Shape.Reads, JField.Reads, JField.req, reduceCtorEq, exists_false, and_false, or_false] at this
  simp only [JField.req]
  rw [← this]
  constructor
  · rintro ⟨b, h1, h2⟩
    cases h2
    exact h1
  · intro h
    exact ⟨_, h, rfl⟩

/-- A policy is read exactly from an object whose members are all named "type" or "policy", all types strings; the last type names the kind and
the last policy says the rest. -/
theorem C51_policy (E : Env) (d : Nat) (j : Json) (p : SpendPolicy) : dePolicy E (d + 1) j = .ok p ↔
    ∃ m v, j = .obj m ∧ (∀ q ∈ m, q.1 = "type" ∨ q.1 = "policy") ∧ (∀ t ∈ valuesOf "type" m, ∃ s, t = .str s) ∧
      (valuesOf "type" m).getLast? = some (.str p.kind) ∧ (valuesOf "policy" m).getLast? = some v ∧
      p.SaidBy E ⟨serPolicy E, dePolicy E d, Take.whole (dePolicy E d)⟩ v.norm := by
  rw [dePolicy_iff]
  constructor
  · rintro ⟨m, v, rfl, hm, hs⟩
    obtain ⟨h1, h2, h3, h4⟩ := (policyMembers_ok m _ _).mp hm
    simp only [Option.or_none] at h3 h4
    obtain ⟨w, h5, rfl⟩ := Option.map_eq_some_iff.mp h4.symm
    obtain ⟨t, h6, h7⟩ := Option.bind_eq_some_iff.mp h3.symm
    obtain ⟨s, rfl⟩ := h2 t (List.mem_of_getLast? h6)
    cases h7
    exact ⟨m, w, rfl, h1, h2, h6, h5, hs⟩
  · rintro ⟨m, v, rfl, h1, h2, h3, h4, hs⟩
    exact ⟨m, v.norm, rfl, (policyMembers_ok m _ _).mpr ⟨h1, h2, by simp [h3, Json.str?], by simp [h4]⟩, hs⟩

/-- Repeated members: a struct is refused, a policy takes the last. -/
example : (∀ E : Env, ∀ o, (siacoinOutput E).de (.obj [("value", .nat 1), ("value", .nat 1), ("address", .null)]) ≠ .ok o) ∧
    dePolicy Sample.env 1 (.obj [("policy", .null), ("type", .str "pk"), ("policy", .nat 7), ("type", .str "above")]) = .ok (.above 7) := by
  constructor
  · intro E o h
    rw [C51_output] at h
    simp [valuesOf] at h
  · rw [C51_policy]
    exact ⟨_, .nat 7, rfl, by decide +kernel, by simp [valuesOf], by simp [valuesOf, SpendPolicy.kind], by simp [valuesOf], by
      simp [SpendPolicy.SaidBy, Json.norm]⟩

/-! ## C52 -/

/-- Reading a policy does not panic if the document is nested less than three times as deep as policies fit on the stack. -/
theorem C52_policy (E : Env) (j : Json) (h : j.depth < 3 * E.stack) : (policy E).de j ≠ .panic := calm_policy h j (Nat.le_refl _)

/-- Without overflow checks, reading anything else does not panic either. -/
theorem C52_others (E : Env) (hm : E.mode = .unchecked) (j : Json) :
    (v1Transaction E).de j ≠ .panic ∧ (block E).de j ≠ .panic ∧ (state E).de j ≠ .panic ∧ (network E).de j ≠ .panic ∧ (chainState E).de j ≠ .panic ∧
    (j.depth < 3 * E.stack → (v2Transaction E).de j ≠ .panic) :=
  ⟨calm_v1Transaction hm _ j (Nat.le_refl _), calm_block hm _ j (Nat.le_refl _), calm_state hm _ j (Nat.le_refl _), calm_network hm _ j (Nat.le_refl _),
    calm_chainState hm _ j (Nat.le_refl _), fun h => calm_v2Transaction hm h j (Nat.le_refl _)⟩

/-- With overflow checks, an amount of 341 TS panics. -/
theorem C52_not_checked (E : Env) (hm : E.mode = .checked) :
    (v1Transaction E).de (.obj [("minerFees", .arr [.str "341 TS"])]) = .panic := by
  have hc : (currency E).de (.str "341 TS") = .panic := by
    simp only [currency, hm, deserializeCurrency, C14_not_overflow.2.1, ofOut]
  simp [v1Transaction, record, Shape.de, Shape.run, Shape.step, Shape.start, JField.vec, JField.put, list, each, hc]

/-! ## C53 -/

/-- Bytes are written as base64. -/
theorem C53_writes (bs : List UInt8) : ∃ s, base64.ser bs = .ok (.str s) ∧ IsBase64 (strBytes s) bs := by
  refine ⟨textOf (b64Encode bs), rfl, ?_⟩
  rw [strBytes_textOf (isText_b64 bs)]
  exact b64Encode_base64 bs

/-- Exactly base64 is read: with padding, without line breaks, and with zeros in the bits that belong to no byte. -/
theorem C53_reads (j : Json) (bs : List UInt8) : base64.de j = .ok bs ↔ ∃ s, j = .str s ∧ IsBase64 (strBytes s) bs := by
  cases j with
  | str s =>
    simp only [base64, text, Json.str.injEq, exists_eq_left', base64_iff]
    cases hd : b64Decode (strBytes s) with
    | none =>
      simp only [ofOption, Res.fail, reduceCtorEq, false_iff]
      intro h
      rw [h, b64Decode_encode] at hd
      cases hd
    | some x =>
      simp only [ofOption, Res.ok.injEq]
      constructor
      · rintro rfl; exact b64Decode_unique _ _ hd
      · intro h
        rw [h, b64Decode_encode] at hd
        exact (Option.some.inj hd).symm
  | _ => simp [base64, text, Res.fail]

/-- Texts with one, two and no padding characters; without padding; with stray bits. -/
example : IsBase64 (ascii "aGVsbG8=") (ascii "hello") ∧ IsBase64 (ascii "AA==") [0] ∧ IsBase64 (ascii "+/+/") [251, 255, 191] ∧
    (∀ bs, base64.de (.str "AA") ≠ .ok bs) ∧ ∀ bs, base64.de (.str "AB==") ≠ .ok bs := by
  have h1 : b64Decode (strBytes "AA") = none := by decide +kernel
  have h2 : b64Decode (strBytes "AB==") = none := by decide +kernel
  refine ⟨(base64_iff _ _).mpr (by decide +kernel), (base64_iff _ _).mpr (by decide +kernel), (base64_iff _ _).mpr (by decide +kernel), ?_, ?_⟩
  · simp [base64, text, h1, ofOption, Res.fail]
  · simp [base64, text, h2, ofOption, Res.fail]

end Verif
