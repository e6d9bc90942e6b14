import Verif.Model.Formats
import Verif.Lemmas.Mended

/-!
# Every type round trips, whichever formats identifiers, unlock keys and policies have
-/

namespace Verif

/-- Every identifier, every unlock key and every policy in range is read back. -/
structure Format.Good (F : Format) (E : Env) : Prop where
  id : ∀ h, F.id.Gives h
  unlockKey : ∀ k, F.unlockKey.Gives k
  policy : ∀ p : SpendPolicy, p.Timely E.stack → F.policy.Gives p

namespace Formats

open Serde

variable {F : Format} {E : Env}

theorem gives_ids (G : F.Good E) (l : List Hash256) : (list F.id).Gives l := gives_list fun _ _ => G.id _

theorem gives_chainIndex (G : F.Good E) (x : ChainIndex) : (chainIndex F).Gives x :=
  gives_record (by simp [Shape.names, JField.req]) rfl ⟨⟨JField.ok_req _ _, gives_u64 _⟩, JField.ok_req _ _, G.id _⟩

theorem gives_stateElement (G : F.Good E) (x : StateElement) : (stateElement F).Gives x :=
  gives_record (by simp [Shape.names, JField.req]) rfl ⟨⟨JField.ok_req _ _, gives_u64 _⟩, JField.ok_req _ _, gives_ids G _⟩

theorem gives_unlockConditions (G : F.Good E) (uc : UnlockConditions) : (unlockConditions F).Gives uc :=
  gives_record (by simp [Shape.names, JField.req]) rfl ⟨⟨JField.ok_req _ _, gives_u64 _⟩, ⟨JField.ok_req _ _, gives_list fun k _ => G.unlockKey k⟩,
    JField.ok_req _ _, gives_u64 _⟩

theorem gives_v1SiacoinInput (G : F.Good E) (x : V1.SiacoinInput) : (v1SiacoinInput F).Gives x :=
  gives_record (by simp [Shape.names, JField.req]) rfl ⟨⟨JField.ok_req _ _, G.id _⟩, JField.ok_req _ _, gives_unlockConditions G _⟩

theorem gives_v1SiafundInput (G : F.Good E) (x : V1.SiafundInput) : (v1SiafundInput F E).Gives x :=
  gives_record (by simp [Shape.names, JField.req]) rfl
    ⟨⟨JField.ok_req _ _, G.id _⟩, ⟨JField.ok_req _ _, gives_unlockConditions G _⟩, JField.ok_req _ _, gives_address _⟩

theorem gives_v1FileContract (G : F.Good E) (x : V1.FileContract) : (v1FileContract F E).Gives x := by
  refine gives_record (by simp [Shape.names, JField.req]) rfl ?_
  simp only [Shape.Gives, JField.ok_req, true_and]
  exact ⟨gives_u64 _, G.id _, gives_u64 _, gives_u64 _, gives_currency _, gives_outputs _, gives_outputs _, gives_address _, gives_u64 _⟩

theorem gives_v1FileContractRevision (G : F.Good E) (x : V1.FileContractRevision) : (v1FileContractRevision F E).Gives x := by
  refine gives_record (by simp [Shape.names, JField.req]) rfl ?_
  simp only [Shape.Gives, JField.ok_req, true_and]
  exact ⟨G.id _, gives_unlockConditions G _, gives_u64 _, gives_u64 _, G.id _, gives_u64 _, gives_u64 _, gives_outputs _, gives_outputs _,
    gives_address _⟩

theorem gives_v1StorageProof (G : F.Good E) (x : V1.StorageProof) : (v1StorageProof F).Gives x :=
  gives_record (by simp [Shape.names, JField.req]) rfl ⟨⟨JField.ok_req _ _, G.id _⟩, ⟨JField.ok_req _ _, gives_leaf _⟩, JField.ok_req _ _, gives_ids G _⟩

theorem gives_transactionSignature (G : F.Good E) (x : V1.TransactionSignature) : (transactionSignature F).Gives x := by
  refine gives_record (by simp [Shape.names, JField.req]) rfl ?_
  simp only [Shape.Gives, JField.ok_req, true_and]
  exact ⟨G.id _, gives_u64 _, gives_u64 _, gives_coveredFields _, gives_base64 _⟩

theorem gives_v1Transaction (G : F.Good E) (t : V1.Transaction) : (v1Transaction F E).Gives t := by
  refine gives_record (by simp [Shape.names, JField.vec]) rfl ?_
  simp only [Shape.Gives, JField.ok_vec, true_and]
  exact ⟨gives_list fun _ _ => gives_v1SiacoinInput G _, gives_outputs _, gives_list fun _ _ => gives_v1FileContract G _,
    gives_list fun _ _ => gives_v1FileContractRevision G _, gives_list fun _ _ => gives_v1StorageProof G _,
    gives_list fun _ _ => gives_v1SiafundInput G _, gives_list fun _ _ => gives_siafundOutput _, gives_list fun _ _ => gives_currency _,
    gives_list fun _ _ => gives_base64 _, gives_list fun _ _ => gives_transactionSignature G _⟩

theorem gives_block (G : F.Good E) {b : Block} (h : E.Keeps b.timestamp) : (block F E).Gives b := by
  refine gives_record (by simp [Shape.names, JField.req]) rfl ?_
  simp only [Shape.Gives, JField.ok_req, true_and]
  exact ⟨G.id _, gives_u64 _, gives_time h, gives_outputs _, gives_list fun _ _ => gives_v1Transaction G _⟩

theorem gives_satisfiedPolicy (G : F.Good E) {x : SatisfiedPolicy} (h : x.policy.Timely E.stack) : (satisfiedPolicy F).Gives x :=
  gives_record (by simp [Shape.names, JField.req, JField.vec]) rfl
    ⟨⟨JField.ok_req _ _, G.policy _ h⟩, ⟨JField.ok_vec _ _, gives_signatures _⟩, JField.ok_vec _ _, gives_ids G _⟩

theorem gives_v2FileContract (G : F.Good E) (x : V2.FileContract) : (v2FileContract F E).Gives x := by
  refine gives_record (by simp [Shape.names, JField.req]) rfl ?_
  simp only [Shape.Gives, JField.ok_req, true_and]
  exact ⟨gives_u64 _, gives_u64 _, G.id _, gives_u64 _, gives_u64 _, gives_siacoinOutput _, gives_siacoinOutput _, gives_currency _,
    gives_currency _, gives_key _, gives_key _, gives_u64 _, gives_signature _, gives_signature _⟩

theorem gives_siacoinElement (G : F.Good E) (x : V2.SiacoinElement) : (siacoinElement F E).Gives x := by
  refine gives_record (by simp [Shape.names, JField.req]) rfl ?_
  simp only [Shape.Gives, JField.ok_req, true_and]
  exact ⟨gives_stateElement G _, G.id _, gives_siacoinOutput _, gives_u64 _⟩

theorem gives_siafundElement (G : F.Good E) (x : V2.SiafundElement) : (siafundElement F E).Gives x := by
  refine gives_record (by simp [Shape.names, JField.req]) rfl ?_
  simp only [Shape.Gives, JField.ok_req, true_and]
  exact ⟨gives_stateElement G _, G.id _, gives_siafundOutput _, gives_currency _⟩

theorem gives_fileContractElement (G : F.Good E) (x : V2.FileContractElement) : (fileContractElement F E).Gives x := by
  refine gives_record (by simp [Shape.names, JField.req]) rfl ?_
  simp only [Shape.Gives, JField.ok_req, true_and]
  exact ⟨gives_stateElement G _, G.id _, gives_v2FileContract G _⟩

theorem gives_chainIndexElement (G : F.Good E) (x : V2.ChainIndexElement) : (chainIndexElement F).Gives x := by
  refine gives_record (by simp [Shape.names, JField.req]) rfl ?_
  simp only [Shape.Gives, JField.ok_req, true_and]
  exact ⟨gives_stateElement G _, G.id _, gives_chainIndex G _⟩

theorem gives_v2SiacoinInput (G : F.Good E) {x : V2.SiacoinInput} (h : x.satisfiedPolicy.policy.Timely E.stack) : (v2SiacoinInput F E).Gives x := by
  refine gives_record (by simp [Shape.names, JField.req]) rfl ?_
  simp only [Shape.Gives, JField.ok_req, true_and]
  exact ⟨gives_siacoinElement G _, gives_satisfiedPolicy G h⟩

theorem gives_v2SiafundInput (G : F.Good E) {x : V2.SiafundInput} (h : x.satisfiedPolicy.policy.Timely E.stack) : (v2SiafundInput F E).Gives x := by
  refine gives_record (by simp [Shape.names, JField.req]) rfl ?_
  simp only [Shape.Gives, JField.ok_req, true_and]
  exact ⟨gives_siafundElement G _, gives_address _, gives_satisfiedPolicy G h⟩

theorem gives_v2FileContractRevision (G : F.Good E) (x : V2.FileContractRevision) : (v2FileContractRevision F E).Gives x := by
  refine gives_record (by simp [Shape.names, JField.req]) rfl ?_
  simp only [Shape.Gives, JField.ok_req, true_and]
  exact ⟨gives_fileContractElement G _, gives_v2FileContract G _⟩

theorem gives_renewal (G : F.Good E) (x : V2.FileContractRenewal) : (renewal F E).Gives x := by
  refine gives_record (by simp [Shape.names, JField.req]) rfl ?_
  simp only [Shape.Gives, JField.ok_req, true_and]
  exact ⟨gives_v2FileContract G _, gives_v2FileContract G _, gives_currency _, gives_currency _, gives_signature _, gives_signature _⟩

theorem gives_v2StorageProof (G : F.Good E) (x : V2.StorageProof) : (v2StorageProof F).Gives x := by
  refine gives_record (by simp [Shape.names, JField.req]) rfl ?_
  simp only [Shape.Gives, JField.ok_req, true_and]
  exact ⟨gives_chainIndexElement G _, gives_leaf _, gives_ids G _⟩

theorem resolutionMembers_ok (m : List (String × Json)) : ∀ x y, resolutionMembers F E x m = .ok y ↔
    (∀ p ∈ m, p.1 = "parent" ∨ p.1 = "type" ∨ p.1 = "resolution") ∧ (∀ v ∈ valuesOf "parent" m, ∃ p, (fileContractElement F E).de v = .ok p) ∧
    (∀ v ∈ valuesOf "type" m, ∃ s, v = .str s) ∧ y.1 = ((valuesOf "parent" m).getLast?.bind fun v => ((fileContractElement F E).de v).val?).or x.1 ∧
    y.2.1 = ((valuesOf "type" m).getLast?.bind Json.str?).or x.2.1 ∧ y.2.2 = ((valuesOf "resolution" m).getLast?.map Json.norm).or x.2.2 := by
  induction m with
  | nil =>
    intro x y
    rw [resolutionMembers]
    simp only [valuesOf, List.filterMap_nil, List.getLast?_nil, Option.bind_none, Option.map_none, Option.none_or]
    constructor
    · intro h; cases h; simp
    · rintro ⟨-, -, -, h1, h2, h3⟩; rw [Prod.ext h1 (Prod.ext h2 h3)]
  | cons p m ih =>
    intro x y
    obtain ⟨k, v⟩ := p
    rw [resolutionMembers]
    by_cases h0 : k = "parent"
    · subst h0
      rw [if_pos rfl]
      simp only [Json.valuesOf_cons, if_true, String.reduceEq, if_false, List.mem_cons, forall_eq_or_imp, true_or, true_and, getLast?_cons_or]
      cases hd : (fileContractElement F E).de v with
      | ok q =>
        simp only [Res.ok_bind, ih, Res.ok.injEq, exists_eq', true_and]
        refine and_congr Iff.rfl (and_congr_right fun hall => and_congr Iff.rfl (and_congr ?_ Iff.rfl))
        cases hl : (valuesOf "parent" m).getLast? with
        | none => simp [hd, Res.val?]
        | some w =>
          obtain ⟨t, ht⟩ := hall w (List.mem_of_getLast? hl)
          simp [ht, Res.val?]
      | err e => exact ⟨fun h => (by cases h), fun h => (by obtain ⟨s, e⟩ := h.2.1.1; cases e)⟩
      | panic => exact ⟨fun h => (by cases h), fun h => (by obtain ⟨s, e⟩ := h.2.1.1; cases e)⟩
    rw [if_neg h0]
    by_cases h1 : k = "type"
    · subst h1
      rw [if_pos rfl]
      simp only [Json.valuesOf_cons, if_true, String.reduceEq, if_false, List.mem_cons, forall_eq_or_imp, true_or, or_true, true_and, getLast?_cons_or]
      cases v with
      | str s =>
        have : string.de (.str s) = .ok s := rfl
        simp only [this, Res.ok_bind, ih, Json.str.injEq, exists_eq', true_and]
        refine and_congr Iff.rfl (and_congr Iff.rfl (and_congr_right fun hall => and_congr Iff.rfl (and_congr ?_ Iff.rfl)))
        cases hl : (valuesOf "type" m).getLast? with
        | none => simp [Json.str?]
        | some w =>
          obtain ⟨t, rfl⟩ := hall w (List.mem_of_getLast? hl)
          simp [Json.str?]
      | _ => exact ⟨fun h => (by cases h), fun h => (by obtain ⟨s, e⟩ := h.2.2.1.1; cases e)⟩
    · rw [if_neg h1]
      by_cases h2 : k = "resolution"
      · subst h2
        rw [if_pos rfl, ih]
        simp only [Json.valuesOf_cons, if_true, String.reduceEq, if_false, List.mem_cons, forall_eq_or_imp, or_true, true_and, getLast?_cons_or]
        refine and_congr Iff.rfl (and_congr Iff.rfl (and_congr Iff.rfl (and_congr Iff.rfl (and_congr Iff.rfl ?_))))
        cases (valuesOf "resolution" m).getLast? <;> simp
      · rw [if_neg h2]
        refine ⟨fun h => (by cases h), fun h => ?_⟩
        have := h.1 (k, v) (by simp)
        simp only [h0, h1, h2, or_self] at this

theorem gives_resolutionMembers {parent : V2.FileContractElement} {pj : Json} {type : String} {v : Json} {m : List (String × Json)}
    (hp : pj.Distinct) (hr : ∀ j', j'.Distinct → j'.norm = pj.norm → (fileContractElement F E).de j' = .ok parent) (hv : v.Distinct)
    (hd : Json.DistinctMembers m) (h : Json.normMembers m = Json.normMembers [("parent", pj), ("type", .str type), ("resolution", v)]) :
    resolutionMembers F E (none, none, none) m = .ok (some parent, some type, some v.norm) := by
  have hs := fun k => sameAt_norm (by simp [Json.DistinctMembers, Json.Distinct, hv, hp]) hd h k
  have h0 := (hs "parent").2
  have h1 := (hs "type").2
  have h2 := (hs "resolution").2
  simp only [Json.valuesOf_cons, if_true, String.reduceEq, if_false, Json.valuesOf_nil (m := []) (by simp), List.map_cons, List.map_nil, Json.norm] at h0 h1 h2
  have keys : ∀ p ∈ m, p.1 = "parent" ∨ p.1 = "type" ∨ p.1 = "resolution" := by
    intro p hp
    by_cases hk : p.1 = "parent" ∨ p.1 = "type" ∨ p.1 = "resolution"
    · exact hk
    · exfalso
      have h3 := (hs p.1).2
      simp only [not_or] at hk
      rw [Json.valuesOf_cons, if_neg (Ne.symm hk.1), Json.valuesOf_cons, if_neg (Ne.symm hk.2.1), Json.valuesOf_cons, if_neg (Ne.symm hk.2.2),
        Json.valuesOf_nil (m := []) (by simp)] at h3
      simp only [valuesOf, List.map_nil, List.map_eq_nil_iff, List.filterMap_eq_nil_iff] at h3
      exact absurd (h3 p hp) (by simp)
  obtain ⟨v0, e0, f0⟩ := single_value h0
  obtain ⟨v1, e1, f1⟩ := single_value h1
  obtain ⟨v2, e2, f2⟩ := single_value h2
  have hv0 := hr v0 ((hs "parent").1 v0 (by rw [e0]; simp)) f0
  rw [Json.norm_str f1] at e1
  rw [resolutionMembers_ok, e0, e1, e2]
  exact ⟨keys, by simp [hv0], by simp, by simp [hv0, Res.val?], by simp [Json.str?], by simp [f2]⟩

theorem gives_resolution (G : F.Good E) (x : V2.FileContractResolution) : (resolution F E).Gives x := by
  obtain ⟨p, r⟩ := x
  obtain ⟨pj, p1, p2, p3⟩ := gives_fileContractElement G p
  cases r with
  | renewal r =>
    obtain ⟨rj, r1, r2, r3⟩ := Serde.gives_renewal (E := E) r
    refine ⟨.obj [("parent", pj), ("type", .str "renewal"), ("resolution", rj.norm)], by simp [resolution, p1, r1],
      by simp [Json.Distinct, Json.DistinctMembers, p2, Json.distinct_norm], fun j' hd e => ?_⟩
    simp only [Json.norm] at e
    obtain ⟨m, rfl, e'⟩ := Json.norm_obj e
    have := gives_resolutionMembers (F := F) (E := E) p2 p3 (Json.distinct_norm rj) hd e'
    simp only [resolution, this, Res.ok_bind, resolutionOf]
    simp [r3 _ (Json.distinct_norm _) (by rw [Json.norm_norm, Json.norm_norm])]
  | storageProof r =>
    obtain ⟨rj, r1, r2, r3⟩ := Serde.gives_v2StorageProof r
    refine ⟨.obj [("parent", pj), ("type", .str "storageProof"), ("resolution", rj.norm)], by simp [resolution, p1, r1],
      by simp [Json.Distinct, Json.DistinctMembers, p2, Json.distinct_norm], fun j' hd e => ?_⟩
    simp only [Json.norm] at e
    obtain ⟨m, rfl, e'⟩ := Json.norm_obj e
    have := gives_resolutionMembers (F := F) (E := E) p2 p3 (Json.distinct_norm rj) hd e'
    simp only [resolution, this, Res.ok_bind, resolutionOf]
    simp [r3 _ (Json.distinct_norm _) (by rw [Json.norm_norm, Json.norm_norm])]
  | expiration =>
    refine ⟨.obj [("parent", pj), ("type", .str "expiration"), ("resolution", .obj [])], by simp [resolution, p1],
      by simp [Json.Distinct, Json.DistinctMembers, p2], fun j' hd e => ?_⟩
    simp only [Json.norm] at e
    obtain ⟨m, rfl, e'⟩ := Json.norm_obj e
    have := gives_resolutionMembers (F := F) (E := E) p2 p3 (v := .obj []) trivial hd e'
    simp only [resolution, this, Res.ok_bind, resolutionOf]
    simp

theorem gives_v2Transaction (G : F.Good E) {t : V2.Transaction} (h : (∀ i ∈ t.siacoinInputs, i.satisfiedPolicy.policy.Timely E.stack) ∧ ∀ i ∈ t.siafundInputs, i.satisfiedPolicy.policy.Timely E.stack) : (v2Transaction F E).Gives t := by
  refine gives_record (by simp [Shape.names, JField.vec, JField.opt?, JField.req]) rfl ?_
  simp only [Shape.Gives, JField.ok_vec, JField.ok_req, JField.ok_opt, true_and]
  refine ⟨gives_list fun i hi => gives_v2SiacoinInput G (h.1 i hi), gives_outputs _, gives_list fun i hi => gives_v2SiafundInput G (h.2 i hi),
    gives_list fun _ _ => gives_siafundOutput _, gives_list fun _ _ => gives_v2FileContract G _, gives_list fun _ _ => gives_v2FileContractRevision G _,
    gives_list fun _ _ => gives_resolution G _, gives_list fun _ _ => gives_attestation _, gives_base64 _,
    gives_option (fun _ _ => gives_address _) ?_, gives_currency _⟩
  intro a _ e
  simp [address, text] at e

theorem accumulator_de (j : Json) (a : ElementAccumulator) : (accumulator F).de j = .ok a ↔
    (Shape.cons (.req "numLeaves" u64) (.one (.req "trees" (list F.id)))).de j = .ok (a.numLeaves, a.roots) ∧ a.Normal := by
  simp only [accumulator, accumulatorOf]
  cases hi : (Shape.cons (.req "numLeaves" u64) (.one (.req "trees" (list F.id)))).de j with
  | err e => simp
  | panic => simp
  | ok x =>
    obtain ⟨n, l⟩ := x
    simp only [Res.ok_bind, Res.ok.injEq, Prod.mk.injEq]
    by_cases hl : l.length ≠ countOnes n
    · rw [if_pos hl]
      refine ⟨fun h => (by cases h), ?_⟩
      rintro ⟨⟨rfl, rfl⟩, -⟩
      exact absurd (countOnes_roots a).symm hl
    · rw [if_neg hl]
      simp only [ne_eq, Decidable.not_not] at hl
      cases hp : placeTrees (hasTreeAtHeight n) 0 64 l with
      | none =>
        refine ⟨fun h => (by cases h), ?_⟩
        rintro ⟨⟨rfl, rfl⟩, hn⟩
        have := (placeTrees_iff _ 64 0 a.roots a.trees).mpr ⟨⟨[], by rw [keepTrees_roots, List.append_nil]⟩, (normal_iff a).mpr hn⟩
        rw [this] at hp
        cases hp
      | some r =>
        have hr := hp
        rw [placeTrees_iff] at hp
        obtain ⟨⟨rest, h1⟩, h2⟩ := hp
        have k1 := keepTrees_roots ⟨n, r⟩
        have k2 := (normal_iff ⟨n, r⟩).mp h2
        have k3 := countOnes_roots ⟨n, r⟩
        simp only at k1 k3
        rw [k1] at h1
        have hrest : rest = [] := by
          apply List.eq_nil_of_length_eq_zero
          have := congrArg List.length h1
          rw [List.length_append] at this
          omega
        rw [hrest, List.append_nil] at h1
        constructor
        · intro h
          cases h
          exact ⟨⟨rfl, h1⟩, k2⟩
        · rintro ⟨⟨rfl, rfl⟩, hn⟩
          have := (placeTrees_iff _ 64 0 a.roots a.trees).mpr ⟨⟨[], by rw [keepTrees_roots, List.append_nil]⟩, (normal_iff a).mpr hn⟩
          rw [this] at hr
          cases hr
          rfl

theorem gives_accumulator (G : F.Good E) {a : ElementAccumulator} (h : a.Normal) : (accumulator F).Gives a := by
  have hg : (record (Shape.cons (.req "numLeaves" u64) (.one (.req "trees" (list F.id)))) (fun x : U64 × List Hash256 => x) (fun x => x)).Gives
      (a.numLeaves, a.roots) :=
    gives_record (by simp [Shape.names, JField.req]) rfl ⟨⟨JField.ok_req _ _, gives_u64 _⟩, JField.ok_req _ _, gives_ids G _⟩
  obtain ⟨tj, t1, -⟩ := gives_ids G a.roots
  obtain ⟨j, h1, h2, h3⟩ := hg
  refine ⟨j, ?_, h2, fun j' hd e => ?_⟩
  · have : (accumulator F).ser a = (record (Shape.cons (.req "numLeaves" u64) (.one (.req "trees" (list F.id)))) (fun x : U64 × List Hash256 => x) (fun x => x)).ser
        (a.numLeaves, a.roots) := by
      simp only [accumulator, keepTrees_roots, t1]
      simp [record, Shape.ser, JField.ser, JField.req, t1, u64]
    rw [this, h1]
  · rw [accumulator_de]
    refine ⟨?_, h⟩
    have := h3 j' hd e
    simp only [record] at this
    cases hd : (Shape.cons (.req "numLeaves" u64) (.one (.req "trees" (list F.id)))).de j' with
    | ok x => rw [hd] at this; exact this
    | err e => rw [hd] at this; cases this
    | panic => rw [hd] at this; cases this

theorem gives_state (G : F.Good E) {s : State} (h : s.JsonFits E) : (state F E).Gives s := by
  refine gives_record (by simp [Shape.names, JField.req]) rfl ?_
  simp only [Shape.Gives, JField.ok_req, true_and]
  exact ⟨gives_chainIndex G _, gives_times h.1, G.id _, G.id _, gives_currency _, gives_duration h.2.1, G.id _, gives_address _,
    gives_address _, gives_work _, gives_work _, gives_work _, gives_accumulator G h.2.2, gives_u64 _⟩

theorem gives_network (G : F.Good E) {n : Network} (h : n.JsonFits E) : (network F E).Gives n := by
  refine gives_record (by simp [Shape.names, JField.req]) rfl ?_
  simp only [Shape.Gives, JField.ok_req, true_and]
  refine ⟨gives_string _, gives_currency _, gives_currency _, G.id _, gives_duration h.1, gives_u64 _, ?_, gives_hardforkHeight _,
    gives_hardforkHeight _, ?_, ?_, ?_, ?_⟩
  · exact gives_record (by simp [Shape.names, JField.req]) rfl ⟨⟨JField.ok_req _ _, gives_u64 _⟩, ⟨JField.ok_req _ _, gives_address _⟩, JField.ok_req _ _, gives_address _⟩
  · exact gives_record (by simp [Shape.names, JField.req]) rfl ⟨⟨JField.ok_req _ _, gives_u64 _⟩, ⟨JField.ok_req _ _, gives_u64 _⟩, JField.ok_req _ _, gives_time h.2.1⟩
  · exact gives_record (by simp [Shape.names, JField.req]) rfl ⟨⟨JField.ok_req _ _, gives_u64 _⟩, ⟨JField.ok_req _ _, gives_duration h.2.2⟩, JField.ok_req _ _, G.id _⟩
  · exact gives_record (by simp [Shape.names, JField.req]) rfl ⟨⟨JField.ok_req _ _, gives_u64 _⟩, ⟨JField.ok_req _ _, gives_address _⟩, JField.ok_req _ _, gives_address _⟩
  · exact gives_record (by simp [Shape.names, JField.req]) rfl ⟨⟨JField.ok_req _ _, gives_u64 _⟩, JField.ok_req _ _, gives_u64 _⟩

theorem gives_chainState (G : F.Good E) {c : ChainState} (hn : c.network.JsonFits E) (hs : c.state.JsonFits E) : (chainState F E).Gives c :=
  gives_record (by simp [Shape.names, JField.req]) rfl ⟨⟨JField.ok_req _ _, gives_network G hn⟩, JField.ok_req _ _, gives_state G hs⟩

/-! ## With the formats of the code these are the records of the code -/

section Same

variable (E : Env)

theorem json_chainIndex : chainIndex (.json E) = Serde.chainIndex := rfl

theorem json_stateElement : stateElement (.json E) = Serde.stateElement := rfl

theorem json_unlockConditions : unlockConditions (.json E) = Serde.unlockConditions := rfl

theorem json_v1SiacoinInput : v1SiacoinInput (.json E) = Serde.v1SiacoinInput := rfl

theorem json_v1SiafundInput : v1SiafundInput (.json E) E = Serde.v1SiafundInput E := rfl

theorem json_v1FileContract : v1FileContract (.json E) E = Serde.v1FileContract E := rfl

theorem json_v1FileContractRevision : v1FileContractRevision (.json E) E = Serde.v1FileContractRevision E := rfl

theorem json_v1StorageProof : v1StorageProof (.json E) = Serde.v1StorageProof := rfl

theorem json_transactionSignature : transactionSignature (.json E) = Serde.transactionSignature := rfl

theorem json_v1Transaction : v1Transaction (.json E) E = Serde.v1Transaction E := rfl

theorem json_block : block (.json E) E = Serde.block E := rfl

theorem json_satisfiedPolicy : satisfiedPolicy (.json E) = Serde.satisfiedPolicy E := rfl

theorem json_v2FileContract : v2FileContract (.json E) E = Serde.v2FileContract E := rfl

theorem json_siacoinElement : siacoinElement (.json E) E = Serde.siacoinElement E := rfl

theorem json_siafundElement : siafundElement (.json E) E = Serde.siafundElement E := rfl

theorem json_fileContractElement : fileContractElement (.json E) E = Serde.fileContractElement E := rfl

theorem json_chainIndexElement : chainIndexElement (.json E) = Serde.chainIndexElement := rfl

theorem json_v2SiacoinInput : v2SiacoinInput (.json E) E = Serde.v2SiacoinInput E := rfl

theorem json_v2SiafundInput : v2SiafundInput (.json E) E = Serde.v2SiafundInput E := rfl

theorem json_v2FileContractRevision : v2FileContractRevision (.json E) E = Serde.v2FileContractRevision E := rfl

theorem json_renewal : renewal (.json E) E = Serde.renewal E := rfl

theorem json_v2StorageProof : v2StorageProof (.json E) = Serde.v2StorageProof := rfl

theorem json_hardforkASIC : hardforkASIC (.json E) = Serde.hardforkASIC := rfl

theorem json_network : network (.json E) E = Serde.network E := rfl

theorem binary_chainIndex : chainIndex (.binary E) = Binary.chainIndex := rfl

theorem binary_stateElement : stateElement (.binary E) = Binary.stateElement := rfl

theorem binary_unlockConditions : unlockConditions (.binary E) = Binary.unlockConditions := rfl

theorem binary_v1SiacoinInput : v1SiacoinInput (.binary E) = Binary.v1SiacoinInput := rfl

theorem binary_v1SiafundInput : v1SiafundInput (.binary E) E = Binary.v1SiafundInput E := rfl

theorem binary_v1FileContract : v1FileContract (.binary E) E = Binary.v1FileContract E := rfl

theorem binary_v1FileContractRevision : v1FileContractRevision (.binary E) E = Binary.v1FileContractRevision E := rfl

theorem binary_v1StorageProof : v1StorageProof (.binary E) = Binary.v1StorageProof := rfl

theorem binary_transactionSignature : transactionSignature (.binary E) = Binary.transactionSignature := rfl

theorem binary_v1Transaction : v1Transaction (.binary E) E = Binary.v1Transaction E := rfl

theorem binary_block : block (.binary E) E = Binary.block E := rfl

theorem binary_satisfiedPolicy : satisfiedPolicy (.binary E) = Binary.satisfiedPolicy E := rfl

theorem binary_v2FileContract : v2FileContract (.binary E) E = Binary.v2FileContract E := rfl

theorem binary_siacoinElement : siacoinElement (.binary E) E = Binary.siacoinElement E := rfl

theorem binary_siafundElement : siafundElement (.binary E) E = Binary.siafundElement E := rfl

theorem binary_fileContractElement : fileContractElement (.binary E) E = Binary.fileContractElement E := rfl

theorem binary_chainIndexElement : chainIndexElement (.binary E) = Binary.chainIndexElement := rfl

theorem binary_v2SiacoinInput : v2SiacoinInput (.binary E) E = Binary.v2SiacoinInput E := rfl

theorem binary_v2SiafundInput : v2SiafundInput (.binary E) E = Binary.v2SiafundInput E := rfl

theorem binary_v2FileContractRevision : v2FileContractRevision (.binary E) E = Binary.v2FileContractRevision E := rfl

theorem binary_renewal : renewal (.binary E) E = Binary.renewal E := rfl

theorem binary_v2StorageProof : v2StorageProof (.binary E) = Binary.v2StorageProof := rfl

theorem binary_resolutionMembers (x : Option V2.FileContractElement × Option String × Option Json) (m : List (String × Json)) :
    resolutionMembers (.binary E) E x m = Binary.resolutionMembers E x m := by
  induction m generalizing x with
  | nil => rfl
  | cons p m ih => simp only [resolutionMembers, Binary.resolutionMembers, ih]; rfl

theorem binary_resolution : resolution (.binary E) E = Binary.resolution E := by
  have : resolutionMembers (.binary E) E = Binary.resolutionMembers E := by funext x m; exact binary_resolutionMembers E x m
  unfold resolution Binary.resolution
  rw [this]
  rfl

theorem binary_v2Transaction : v2Transaction (.binary E) E = Binary.v2Transaction E := by
  rw [v2Transaction, Binary.v2Transaction, binary_resolution, binary_v2FileContract, binary_v2SiacoinInput, binary_v2SiafundInput, binary_v2FileContractRevision]

theorem binary_accumulator : accumulator (.binary E) = Binary.accumulator := rfl

theorem binary_state : state (.binary E) E = Binary.state E := rfl

theorem binary_hardforkASIC : hardforkASIC (.binary E) = Binary.hardforkASIC := rfl

theorem binary_network : network (.binary E) E = Binary.network E := rfl

theorem binary_chainState : chainState (.binary E) E = Binary.chainState E := rfl

theorem json_v2Transaction : (v2Transaction (.json E) E).ser = (Serde.v2Transaction E).ser := by
  rw [v2Transaction, Serde.v2Transaction, json_v2FileContract, json_v2SiacoinInput, json_v2SiafundInput, json_v2FileContractRevision]
  have h1 : (list (resolution (.json E) E)).ser = (list (Serde.resolution E)).ser := rfl
  revert h1
  generalize Serde.list (resolution (.json E) E) = r
  generalize Serde.list (Serde.resolution E) = r'
  obtain ⟨s, d, t⟩ := r
  obtain ⟨s', d', t'⟩ := r'
  rintro h1
  simp only at h1
  subst h1
  rfl

end Same

/-! ## The repaired formats are good -/

theorem good_jsonFully (E : Env) : (Format.jsonFully E).Good E := ⟨gives_id, gives_unlockKeyFully, fun p h => gives_policyFullyAt _ p h⟩

theorem gives_u8s (l : List UInt8) : (list u8).Gives l := gives_list fun _ _ => gives_u8 _

theorem good_packed (E : Env) : (Format.packed E).Good E where
  id h := by
    obtain ⟨j, h1, h2, h3⟩ := gives_u8s h.1
    exact ⟨j, h1, h2, fun j' hd e => by simp [Format.packed, Binary.readBytes, h3 j' hd e, h.2]⟩
  unlockKey k := by
    obtain ⟨a, a1, a2, a3⟩ := gives_u8s k.algorithm.1
    obtain ⟨b, b1, b2, b3⟩ := gives_u8s k.key
    refine ⟨.arr [a, b], by simp [Format.packed, a1, b1], (Json.distinctList_iff _).mpr (by simp [a2, b2]), fun j' hd e => ?_⟩
    simp only [Json.norm, Json.normList_eq] at e
    obtain ⟨l', rfl, e'⟩ := Json.norm_arr e
    have hd' := (Json.distinctList_iff _).mp hd
    match l', e', hd' with
    | [x, y], e', hd' =>
      simp only [List.map_cons, List.map_nil, List.cons.injEq, and_true] at e'
      have h1 := a3 x (hd' x (by simp)) e'.1
      have h2 := b3 y (hd' y (by simp)) e'.2
      simp [Format.packed, Binary.unlockKey, Binary.readBytes, h1, h2, k.algorithm.2]
    | [], e', _ => cases e'
    | [_], e', _ => simp at e'
    | _ :: _ :: _ :: _, e', _ => simp at e'
  policy p h := gives_policyFullyAt _ p h

end Formats

end Verif
