import Verif.Spec.Serde
import Verif.Lemmas.Json
import Verif.Lemmas.Base64
import Verif.Props.Text
import Verif.Props.Number

/-!
# Every type round trips through JSON
-/

namespace Verif.Serde

variable {E : Env}

theorem gives_bytes {α : Type} {f : α → List UInt8} {g : String → Res α} {a : α} (ht : IsText (f a)) (h : ∀ s, strBytes s = f a → g s = .ok a) :
    (text (fun x => .ok (textOf (f x))) g).Gives a := gives_text rfl (h _ (strBytes_textOf ht))

theorem gives_id (h : Hash256) : id.Gives h :=
  gives_bytes (isText_hex _) fun s e => by rw [e, C17_round_trip]; rfl

theorem gives_address (a : Address) : (address E).Gives a :=
  gives_bytes (isText_hex _) fun s e => by rw [e, C18_round_trip]; rfl

theorem gives_key (k : PublicKey) : key.Gives k :=
  gives_bytes ((isText_ascii (by decide +kernel)).append (isText_hex _)) fun s e => by rw [e, C19_key_round_trip]; rfl

theorem gives_signature (x : Signature) : signature.Gives x :=
  gives_bytes (isText_hex _) fun s e => by rw [e, (C19_signature_round_trip x).2]; rfl

theorem gives_leaf (x : Leaf) : leaf.Gives x :=
  gives_bytes (isText_hex _) fun s e => by rw [e, (C19_leaf_round_trip x).2]; rfl

theorem gives_base64 (b : List UInt8) : base64.Gives b :=
  gives_bytes (isText_b64 _) fun s e => by rw [e, b64Decode_encode]; rfl

theorem gives_currency (c : Currency) : (currency E).Gives c := by
  refine ⟨_, rfl, trivial, fun j' _ e => ?_⟩
  rw [Json.norm_str e]
  simp only [currency, String.toList_ofList, C15_round_trip]
  rfl

theorem gives_work (w : Work) : work.Gives w :=
  gives_text (t := String.ofList (showWork w)) rfl (by rw [String.toList_ofList, C46_text_round_trip]; rfl)

theorem gives_time {t : DateTime} (h : E.Keeps t) : (time E).Gives t := by
  obtain ⟨s, h1, h2⟩ := h
  exact gives_text (t := s) (by rw [h1]; rfl) (by rw [h2]; rfl)

theorem gives_unlockKey {k : UnlockKey} (h : k.Textual) : unlockKey.Gives k := by
  obtain ⟨t, h1, h2, h3⟩ := h
  have hs : showUnlockKey k = some (t ++ [58] ++ hexEncode k.key) := by
    rw [showUnlockKey, (showSpecifier_some k.algorithm t).mpr ⟨h1, h2⟩]
  have hc : (58 : UInt8) ∉ k.algorithm.1 := by rw [h2.2]; simp [h3]
  refine gives_text (t := textOf (t ++ [58] ++ hexEncode k.key)) (by rw [hs]) ?_
  rw [strBytes_textOf ((h1.append (isText_ascii (by decide))).append (isText_hex _)), (C20_round_trip k _ hs).1 hc]
  rfl

theorem gives_duration {d : Duration} (h : d.JsonFits) : duration.Gives d := by
  obtain ⟨h1, h2⟩ := h
  refine ⟨_, rfl, trivial, fun j' _ e => ?_⟩
  rw [Json.norm_nat e]
  simp only [duration, BitVec.toInt_ofInt]
  congr 1
  obtain ⟨n⟩ := d
  simp only at h1 h2 ⊢
  congr 1
  rw [Int.bmod_def]
  omega

/-- The list of timestamps. -/
theorem readTimes_texts {ts : List DateTime} : ∀ (done : List DateTime) (js : List Json), each (time E).ser ts = .ok js → (∀ t ∈ ts, E.Keeps t) →
    done.length + ts.length ≤ 11 → readTimes E done js = .ok (done ++ ts ++ List.replicate (11 - (done.length + ts.length)) DateTime.epoch) := by
  induction ts with
  | nil => intro done js h _ _; cases h; simp [readTimes]
  | cons t ts ih =>
    intro done js h hk hl
    obtain ⟨s, h1, h2⟩ := hk t (by simp)
    have ht : (time E).ser t = .ok (.str s) := by simp [time, text, h1, ofOption]
    rw [each, ht] at h
    cases hr : each (time E).ser ts with
    | ok r =>
      rw [hr] at h
      cases h
      simp only [List.length_cons] at hl
      simp only [readTimes]
      rw [if_neg (by omega), h2]
      simp only
      rw [ih (done ++ [t]) r hr (fun u hu => hk u (by simp [hu])) (by simp; omega)]
      simp [Nat.add_assoc, Nat.add_comm 1]
    | err e => rw [hr] at h; cases h
    | panic => rw [hr] at h; cases h

theorem gives_times {l : Vec DateTime 11} (h : ∀ t ∈ l.1, E.Keeps t) : (times E).Gives l := by
  obtain ⟨js, h1, h2, -⟩ := gives_each (s := time E) fun t ht => gives_time (h t ht)
  refine ⟨.arr js, by simp [times, h1], (Json.distinctList_iff js).mpr h2, fun j' _ e => ?_⟩
  simp only [Json.norm, Json.normList_eq] at e
  obtain ⟨l', rfl, e'⟩ := Json.norm_arr e
  have hstr : ∀ (ts : List DateTime) (js l' : List Json), each (time E).ser ts = .ok js → l'.map Json.norm = js.map Json.norm → l' = js := by
    intro ts
    induction ts with
    | nil => intro js l' h e; cases h; simpa using e
    | cons t ts ih =>
      intro js l' h e
      rw [each] at h
      cases ht : (time E).ser t with
      | ok j =>
        cases hr : each (time E).ser ts with
        | ok r =>
          rw [ht, hr] at h
          cases h
          cases l' with
          | nil => cases e
          | cons x l' =>
            simp only [List.map_cons, List.cons.injEq] at e
            rw [ih r l' hr e.2]
            simp only [time, text] at ht
            cases hs : ofOption (E.timeText t) with
            | ok s => rw [hs] at ht; cases ht; rw [Json.norm_str e.1]
            | err e => rw [hs] at ht; cases ht
            | panic => rw [hs] at ht; cases ht
        | err e => rw [ht, hr] at h; cases h
        | panic => rw [ht, hr] at h; cases h
      | err e => rw [ht] at h; cases h
      | panic => rw [ht] at h; cases h
  rw [hstr _ _ _ h1 e']
  have := readTimes_texts [] js h1 h (by simp [l.2])
  simp only [times, this]
  simp [l.2]

theorem gives_ids (l : List Hash256) : (list id).Gives l := gives_list fun _ _ => gives_id _
theorem gives_u64s (l : List U64) : (list u64).Gives l := gives_list fun _ _ => gives_u64 _
theorem gives_signatures (l : List Signature) : (list signature).Gives l := gives_list fun _ _ => gives_signature _

theorem gives_chainIndex (x : ChainIndex) : chainIndex.Gives x :=
  gives_record (by decide) rfl ⟨⟨JField.ok_req _ _, gives_u64 _⟩, JField.ok_req _ _, gives_id _⟩

theorem gives_siacoinOutput (x : SiacoinOutput) : (siacoinOutput E).Gives x :=
  gives_record (by simp [Shape.names, JField.req]) rfl ⟨⟨JField.ok_req _ _, gives_currency _⟩, JField.ok_req _ _, gives_address _⟩

theorem gives_siafundOutput (x : SiafundOutput) : (siafundOutput E).Gives x :=
  gives_record (by simp [Shape.names, JField.req]) rfl ⟨⟨JField.ok_req _ _, gives_u64 _⟩, JField.ok_req _ _, gives_address _⟩

theorem gives_outputs (l : List SiacoinOutput) : (list (siacoinOutput E)).Gives l := gives_list fun _ _ => gives_siacoinOutput _

theorem gives_stateElement (x : StateElement) : stateElement.Gives x :=
  gives_record (by decide) rfl ⟨⟨JField.ok_req _ _, gives_u64 _⟩, JField.ok_req _ _, gives_ids _⟩

theorem gives_unlockConditions {uc : UnlockConditions} (h : uc.Textual) : unlockConditions.Gives uc :=
  gives_record (by decide) rfl ⟨⟨JField.ok_req _ _, gives_u64 _⟩, ⟨JField.ok_req _ _, gives_list fun k hk => gives_unlockKey (h k hk)⟩,
    JField.ok_req _ _, gives_u64 _⟩

theorem gives_v1SiacoinInput {x : V1.SiacoinInput} (h : x.unlockConditions.Textual) : v1SiacoinInput.Gives x :=
  gives_record (by decide) rfl ⟨⟨JField.ok_req _ _, gives_id _⟩, JField.ok_req _ _, gives_unlockConditions h⟩

theorem gives_v1SiafundInput {x : V1.SiafundInput} (h : x.unlockConditions.Textual) : (v1SiafundInput E).Gives x :=
  gives_record (by simp [Shape.names, JField.req]) rfl
    ⟨⟨JField.ok_req _ _, gives_id _⟩, ⟨JField.ok_req _ _, gives_unlockConditions h⟩, JField.ok_req _ _, gives_address _⟩

theorem gives_v1FileContract (x : V1.FileContract) : (v1FileContract E).Gives x := by
  refine gives_record (by simp [Shape.names, JField.req]) rfl ?_
  simp only [Shape.Gives, JField.ok_req, true_and]
  exact ⟨gives_u64 _, gives_id _, gives_u64 _, gives_u64 _, gives_currency _, gives_outputs _, gives_outputs _, gives_address _, gives_u64 _⟩

theorem gives_v1FileContractRevision {x : V1.FileContractRevision} (h : x.unlockConditions.Textual) : (v1FileContractRevision E).Gives x := by
  refine gives_record (by simp [Shape.names, JField.req]) rfl ?_
  simp only [Shape.Gives, JField.ok_req, true_and]
  exact ⟨gives_id _, gives_unlockConditions h, gives_u64 _, gives_u64 _, gives_id _, gives_u64 _, gives_u64 _, gives_outputs _, gives_outputs _,
    gives_address _⟩

theorem gives_v1StorageProof (x : V1.StorageProof) : v1StorageProof.Gives x :=
  gives_record (by decide) rfl ⟨⟨JField.ok_req _ _, gives_id _⟩, ⟨JField.ok_req _ _, gives_leaf _⟩, JField.ok_req _ _, gives_ids _⟩

theorem gives_coveredFields (x : V1.CoveredFields) : coveredFields.Gives x := by
  refine gives_record (by simp [Shape.names, JField.req, JField.vec]) rfl ?_
  simp only [Shape.Gives, JField.ok_req, JField.ok_vec, true_and]
  exact ⟨gives_bool _, gives_u64s _, gives_u64s _, gives_u64s _, gives_u64s _, gives_u64s _, gives_u64s _, gives_u64s _, gives_u64s _, gives_u64s _,
    gives_u64s _⟩

theorem gives_transactionSignature (x : V1.TransactionSignature) : transactionSignature.Gives x := by
  refine gives_record (by simp [Shape.names, JField.req]) rfl ?_
  simp only [Shape.Gives, JField.ok_req, true_and]
  exact ⟨gives_id _, gives_u64 _, gives_u64 _, gives_coveredFields _, gives_base64 _⟩

theorem gives_v1Transaction {t : V1.Transaction} (h : t.JsonFits) : (v1Transaction E).Gives t := by
  refine gives_record (by simp [Shape.names, JField.vec]) rfl ?_
  simp only [Shape.Gives, JField.ok_vec, true_and]
  exact ⟨gives_list fun i hi => gives_v1SiacoinInput (h.1 i hi), gives_outputs _, gives_list fun _ _ => gives_v1FileContract _,
    gives_list fun r hr => gives_v1FileContractRevision (h.2.2 r hr), gives_list fun _ _ => gives_v1StorageProof _,
    gives_list fun i hi => gives_v1SiafundInput (h.2.1 i hi), gives_list fun _ _ => gives_siafundOutput _, gives_list fun _ _ => gives_currency _,
    gives_list fun _ _ => gives_base64 _, gives_list fun _ _ => gives_transactionSignature _⟩

theorem gives_block {b : Block} (h : b.JsonFits E) : (block E).Gives b := by
  refine gives_record (by simp [Shape.names, JField.req]) rfl ?_
  simp only [Shape.Gives, JField.ok_req, true_and]
  exact ⟨gives_id _, gives_u64 _, gives_time h.1, gives_outputs _, gives_list fun t ht => gives_v1Transaction (h.2 t ht)⟩

/-! ## Policies -/

/-- The string of a JSON string. -/
def _root_.Verif.Json.str? : Json → Option String
  | .str s => some s
  | _ => none

theorem getLast?_cons_or {α : Type} (a : α) (l : List α) : (a :: l).getLast? = l.getLast?.or (some a) := by
  rw [List.getLast?_cons]
  cases l.getLast? <;> rfl

theorem policyMembers_ok (m : List (String × Json)) : ∀ x y, policyMembers x m = .ok y ↔ (∀ p ∈ m, p.1 = "type" ∨ p.1 = "policy") ∧
    (∀ v ∈ valuesOf "type" m, ∃ s, v = .str s) ∧ y.1 = ((valuesOf "type" m).getLast?.bind Json.str?).or x.1 ∧
    y.2 = ((valuesOf "policy" m).getLast?.map Json.norm).or x.2 := by
  induction m with
  | nil =>
    intro x y
    rw [policyMembers]
    simp only [valuesOf, List.filterMap_nil, List.getLast?_nil, Option.bind_none, Option.map_none, Option.none_or]
    constructor
    · intro h; cases h; simp
    · rintro ⟨-, -, h1, h2⟩; rw [Prod.ext h1 h2]
  | cons p m ih =>
    intro x y
    obtain ⟨k, v⟩ := p
    rw [policyMembers]
    by_cases h1 : k = "type"
    · subst h1
      rw [if_pos rfl]
      simp only [Json.valuesOf_cons, if_true, String.reduceEq, if_false, List.mem_cons, forall_eq_or_imp, true_or, true_and, getLast?_cons_or]
      cases v with
      | str s =>
        have : string.de (.str s) = .ok s := rfl
        simp only [this, Res.ok_bind, ih, Json.str.injEq, exists_eq', true_and]
        refine and_congr Iff.rfl (and_congr_right fun hall => and_congr ?_ Iff.rfl)
        cases hl : (valuesOf "type" m).getLast? with
        | none => simp [Json.str?]
        | some w =>
          obtain ⟨t, rfl⟩ := hall w (List.mem_of_getLast? hl)
          simp [Json.str?]
      | _ => exact ⟨fun h => (by cases h), fun h => (by obtain ⟨s, e⟩ := h.2.1.1; cases e)⟩
    · rw [if_neg h1]
      by_cases h2 : k = "policy"
      · subst h2
        rw [if_pos rfl, ih]
        simp only [Json.valuesOf_cons, if_true, String.reduceEq, if_false, List.mem_cons, forall_eq_or_imp, or_true, true_and, getLast?_cons_or]
        refine and_congr Iff.rfl (and_congr Iff.rfl (and_congr Iff.rfl ?_))
        cases (valuesOf "policy" m).getLast? <;> simp
      · rw [if_neg h2]
        refine ⟨fun h => (by cases h), fun h => ?_⟩
        have := h.1 (k, v) (by simp)
        simp only [h1, h2, or_self] at this

theorem gives_members {type : String} {v : Json} {m : List (String × Json)} (hv : v.Distinct) (hd : Json.DistinctMembers m)
    (h : Json.normMembers m = Json.normMembers [("type", .str type), ("policy", v)]) :
    policyMembers (none, none) m = .ok (some type, some v.norm) := by
  have hs := fun k => (sameAt_norm (by simp [Json.DistinctMembers, Json.Distinct, hv]) hd h k).2
  have h1 := hs "type"
  have h2 := hs "policy"
  simp only [Json.valuesOf_cons, if_true, String.reduceEq, if_false, Json.valuesOf_nil (m := []) (by simp), List.map_cons, List.map_nil, Json.norm] at h1 h2
  have keys : ∀ p ∈ m, p.1 = "type" ∨ p.1 = "policy" := by
    intro p hp
    by_cases hk : p.1 = "type" ∨ p.1 = "policy"
    · exact hk
    · exfalso
      have h3 := hs p.1
      simp only [not_or] at hk
      rw [Json.valuesOf_cons, if_neg (Ne.symm hk.1), Json.valuesOf_cons, if_neg (Ne.symm hk.2), Json.valuesOf_nil (m := []) (by simp)] at h3
      simp only [valuesOf, List.map_nil, List.map_eq_nil_iff, List.filterMap_eq_nil_iff] at h3
      exact absurd (h3 p hp) (by simp)
  obtain ⟨v1, e1, f1⟩ : ∃ v1, valuesOf "type" m = [v1] ∧ v1.norm = .str type := by
    cases hm : valuesOf "type" m with
    | nil => rw [hm] at h1; cases h1
    | cons a l => rw [hm] at h1; simp at h1; exact ⟨a, by rw [h1.2], h1.1⟩
  obtain ⟨v2, e2, f2⟩ : ∃ v2, valuesOf "policy" m = [v2] ∧ v2.norm = v.norm := by
    cases hm : valuesOf "policy" m with
    | nil => rw [hm] at h2; cases h2
    | cons a l => rw [hm] at h2; simp at h2; exact ⟨a, by rw [h2.2], h2.1⟩
  rw [Json.norm_str f1] at e1
  rw [policyMembers_ok, e1, e2]
  exact ⟨keys, by simp, by simp [Json.str?], by simp [f2]⟩

/-- A policy that is not a threshold. -/
theorem gives_leafPolicy {α : Type} {d : Nat} {p : SpendPolicy} {type : String} {s : Serde α} {a : α} (h : s.Gives a)
    (hs : serPolicy E p = (do let j ← s.ser a; pure (.obj [("type", .str type), ("policy", j)])))
    (hr : ∀ m v, policyMembers (none, none) m = .ok (some type, some v) → s.de v = .ok a → dePolicy E (d + 1) (.obj m) = .ok p) :
    Serde.Gives ⟨serPolicy E, dePolicy E (d + 1), Take.whole (dePolicy E (d + 1))⟩ p := by
  obtain ⟨j, h1, h2, h3⟩ := h
  refine ⟨.obj [("type", .str type), ("policy", j)], by simp [hs, h1], by simp [Json.Distinct, Json.DistinctMembers, h2], fun j' hd e => ?_⟩
  simp only [Json.norm] at e
  obtain ⟨m, rfl, e'⟩ := Json.norm_obj e
  exact hr m j.norm (gives_members h2 hd e') (h3 _ (Json.distinct_norm j) (Json.norm_norm j))

theorem serPolicies_eq (of : List SpendPolicy) : serPolicies E of = each (serPolicy E) of := by
  induction of with
  | nil => rw [serPolicies, each]
  | cons p ps ih => rw [serPolicies, each, ih]

theorem gives_policyAt : ∀ (d : Nat) (p : SpendPolicy), p.JsonFits d → Serde.Gives ⟨serPolicy E, dePolicy E d, Take.whole (dePolicy E d)⟩ p
  | 0, _, h => by simp [SpendPolicy.JsonFits] at h
  | d + 1, .above x, _ => by
    refine gives_leafPolicy (gives_u64 x) (by rw [serPolicy]) fun m v h h' => ?_
    simp [dePolicy, h, h']
  | d + 1, .after t, hf => by
    rw [SpendPolicy.JsonFits] at hf
    obtain ⟨f1, f2, f3⟩ := hf
    refine gives_leafPolicy (gives_u64 (BitVec.ofInt 64 t.secs)) (by rw [serPolicy]) fun m v h h' => ?_
    have : (BitVec.ofInt 64 t.secs).toInt = t.secs := by
      rw [BitVec.toInt_ofInt, Int.bmod_def]; omega
    have hu : DateTime.fromUnix t.secs = some t := by
      rw [DateTime.fromUnix, if_pos ⟨f2, f3⟩, ← f1]
    simp [dePolicy, h, h', this, hu]
  | d + 1, .publicKey x, _ => by
    refine gives_leafPolicy (gives_key x) (by rw [serPolicy]) fun m v h h' => ?_
    simp [dePolicy, h, h']
  | d + 1, .hash x, _ => by
    refine gives_leafPolicy (gives_id x) (by rw [serPolicy]) fun m v h h' => ?_
    simp [dePolicy, h, h']
  | d + 1, .opaqueAddr x, _ => by
    refine gives_leafPolicy (gives_address (E := E) x) (by rw [serPolicy]) fun m v h h' => ?_
    simp [dePolicy, h, h']
  | d + 1, .unlockConditions uc, hf => by
    rw [SpendPolicy.JsonFits] at hf
    refine gives_leafPolicy (gives_unlockConditions hf) (by rw [serPolicy]) fun m v h h' => ?_
    simp [dePolicy, h, h']
  | d + 1, .threshold n of, hf => by
    rw [SpendPolicy.JsonFits] at hf
    have hof : (list ⟨serPolicy E, dePolicy E d, Take.whole (dePolicy E d)⟩).Gives of := gives_list fun p hp => gives_policyAt d p (hf p hp)
    let s : Serde (UInt8 × List SpendPolicy) :=
      record (Shape.cons (.req "n" u8) (.one (.req "of" (list ⟨serPolicy E, dePolicy E d, Take.whole (dePolicy E d)⟩)))) (fun x => x) (fun x => x)
    have hs : s.Gives (n, of) := gives_record (by simp [Shape.names, JField.req]) rfl
      ⟨⟨JField.ok_req _ _, gives_u8 n⟩, JField.ok_req _ _, hof⟩
    have hs' : Serde.Gives { ser := fun x => (do let j ← s.ser x; pure j.norm), de := s.de } (n, of) := by
      obtain ⟨j, h1, h2, h3⟩ := hs
      exact ⟨j.norm, by simp [h1], Json.distinct_norm j, fun j' hd e => h3 j' hd (by rw [e, Json.norm_norm])⟩
    refine gives_leafPolicy (type := "thresh") hs' ?_ fun m v h h' => ?_
    · obtain ⟨js, h1, -⟩ := gives_each (s := ⟨serPolicy E, dePolicy E d, Take.whole (dePolicy E d)⟩) fun p hp => gives_policyAt d p (hf p hp)
      simp only at h1
      simp [serPolicy, serPolicies_eq, h1, unwrap, u8, s, record, Shape.ser, JField.ser, JField.req, list]
    · simp only [s, record] at h'
      cases hx : (Shape.cons (JField.req "n" u8) (Shape.one (JField.req "of" (list ⟨serPolicy E, dePolicy E d, Take.whole (dePolicy E d)⟩)))).de v with
      | ok b => rw [hx] at h'; cases h'; simp [dePolicy, h, hx]
      | err e => rw [hx] at h'; cases h'
      | panic => rw [hx] at h'; cases h'

theorem gives_policy {p : SpendPolicy} (h : p.JsonFits E.stack) : (policy E).Gives p := gives_policyAt _ _ h

theorem gives_satisfiedPolicy {x : SatisfiedPolicy} (h : x.policy.JsonFits E.stack) : (satisfiedPolicy E).Gives x :=
  gives_record (by simp [Shape.names, JField.req, JField.vec]) rfl
    ⟨⟨JField.ok_req _ _, gives_policy h⟩, ⟨JField.ok_vec _ _, gives_signatures _⟩, JField.ok_vec _ _, gives_ids _⟩

/-! ## v2 -/

theorem gives_attestation (x : V2.Attestation) : attestation.Gives x :=
  gives_record (by decide) rfl ⟨⟨JField.ok_req _ _, gives_key _⟩, ⟨JField.ok_req _ _, gives_string _⟩, ⟨JField.ok_req _ _, gives_base64 _⟩,
    JField.ok_req _ _, gives_signature _⟩

theorem gives_v2FileContract (x : V2.FileContract) : (v2FileContract E).Gives x := by
  refine gives_record (by simp [Shape.names, JField.req]) rfl ?_
  simp only [Shape.Gives, JField.ok_req, true_and]
  exact ⟨gives_u64 _, gives_u64 _, gives_id _, gives_u64 _, gives_u64 _, gives_siacoinOutput _, gives_siacoinOutput _, gives_currency _,
    gives_currency _, gives_key _, gives_key _, gives_u64 _, gives_signature _, gives_signature _⟩

theorem gives_siacoinElement (x : V2.SiacoinElement) : (siacoinElement E).Gives x := by
  refine gives_record (by simp [Shape.names, JField.req]) rfl ?_
  simp only [Shape.Gives, JField.ok_req, true_and]
  exact ⟨gives_stateElement _, gives_id _, gives_siacoinOutput _, gives_u64 _⟩

theorem gives_siafundElement (x : V2.SiafundElement) : (siafundElement E).Gives x := by
  refine gives_record (by simp [Shape.names, JField.req]) rfl ?_
  simp only [Shape.Gives, JField.ok_req, true_and]
  exact ⟨gives_stateElement _, gives_id _, gives_siafundOutput _, gives_currency _⟩

theorem gives_fileContractElement (x : V2.FileContractElement) : (fileContractElement E).Gives x := by
  refine gives_record (by simp [Shape.names, JField.req]) rfl ?_
  simp only [Shape.Gives, JField.ok_req, true_and]
  exact ⟨gives_stateElement _, gives_id _, gives_v2FileContract _⟩

theorem gives_chainIndexElement (x : V2.ChainIndexElement) : chainIndexElement.Gives x := by
  refine gives_record (by simp [Shape.names, JField.req]) rfl ?_
  simp only [Shape.Gives, JField.ok_req, true_and]
  exact ⟨gives_stateElement _, gives_id _, gives_chainIndex _⟩

theorem gives_v2SiacoinInput {x : V2.SiacoinInput} (h : x.satisfiedPolicy.policy.JsonFits E.stack) : (v2SiacoinInput E).Gives x := by
  refine gives_record (by simp [Shape.names, JField.req]) rfl ?_
  simp only [Shape.Gives, JField.ok_req, true_and]
  exact ⟨gives_siacoinElement _, gives_satisfiedPolicy h⟩

theorem gives_v2SiafundInput {x : V2.SiafundInput} (h : x.satisfiedPolicy.policy.JsonFits E.stack) : (v2SiafundInput E).Gives x := by
  refine gives_record (by simp [Shape.names, JField.req]) rfl ?_
  simp only [Shape.Gives, JField.ok_req, true_and]
  exact ⟨gives_siafundElement _, gives_address _, gives_satisfiedPolicy h⟩

theorem gives_v2FileContractRevision (x : V2.FileContractRevision) : (v2FileContractRevision E).Gives x := by
  refine gives_record (by simp [Shape.names, JField.req]) rfl ?_
  simp only [Shape.Gives, JField.ok_req, true_and]
  exact ⟨gives_fileContractElement _, gives_v2FileContract _⟩

theorem gives_renewal (x : V2.FileContractRenewal) : (renewal E).Gives x := by
  refine gives_record (by simp [Shape.names, JField.req]) rfl ?_
  simp only [Shape.Gives, JField.ok_req, true_and]
  exact ⟨gives_v2FileContract _, gives_v2FileContract _, gives_currency _, gives_currency _, gives_signature _, gives_signature _⟩

theorem gives_v2StorageProof (x : V2.StorageProof) : v2StorageProof.Gives x := by
  refine gives_record (by simp [Shape.names, JField.req]) rfl ?_
  simp only [Shape.Gives, JField.ok_req, true_and]
  exact ⟨gives_chainIndexElement _, gives_leaf _, gives_ids _⟩

/-- The value of a success. -/
def _root_.Verif.Res.val? {α : Type} : Res α → Option α
  | .ok a => some a
  | _ => none

theorem resolutionMembers_ok (m : List (String × Json)) : ∀ x y, resolutionMembers E x m = .ok y ↔
    (∀ p ∈ m, p.1 = "parent" ∨ p.1 = "type" ∨ p.1 = "resolution") ∧ (∀ v ∈ valuesOf "parent" m, ∃ p, (fileContractElement E).de v = .ok p) ∧
    (∀ v ∈ valuesOf "type" m, ∃ s, v = .str s) ∧ y.1 = ((valuesOf "parent" m).getLast?.bind fun v => ((fileContractElement E).de v).val?).or x.1 ∧
    y.2.1 = ((valuesOf "type" m).getLast?.bind Json.str?).or x.2.1 ∧ y.2.2 = ((valuesOf "resolution" m).getLast?.map Json.norm).or x.2.2 := by
  induction m with
  | nil =>
    intro x y
    rw [resolutionMembers]
    simp only [valuesOf, List.filterMap_nil, List.getLast?_nil, Option.bind_none, Option.map_none, Option.none_or]
    constructor
    · intro h; cases h; simp
    · rintro ⟨-, -, -, h1, h2, h3⟩; rw [Prod.ext h1 (Prod.ext h2 h3)]
  | cons p m ih =>
    intro x y
    obtain ⟨k, v⟩ := p
    rw [resolutionMembers]
    by_cases h0 : k = "parent"
    · subst h0
      rw [if_pos rfl]
      simp only [Json.valuesOf_cons, if_true, String.reduceEq, if_false, List.mem_cons, forall_eq_or_imp, true_or, true_and, getLast?_cons_or]
      cases hd : (fileContractElement E).de v with
      | ok q =>
        simp only [Res.ok_bind, ih, Res.ok.injEq, exists_eq', true_and]
        refine and_congr Iff.rfl (and_congr_right fun hall => and_congr Iff.rfl (and_congr ?_ Iff.rfl))
        cases hl : (valuesOf "parent" m).getLast? with
        | none => simp [hd, Res.val?]
        | some w =>
          obtain ⟨t, ht⟩ := hall w (List.mem_of_getLast? hl)
          simp [ht, Res.val?]
      | err e => exact ⟨fun h => (by cases h), fun h => (by obtain ⟨s, e⟩ := h.2.1.1; cases e)⟩
      | panic => exact ⟨fun h => (by cases h), fun h => (by obtain ⟨s, e⟩ := h.2.1.1; cases e)⟩
    rw [if_neg h0]
    by_cases h1 : k = "type"
    · subst h1
      rw [if_pos rfl]
      simp only [Json.valuesOf_cons, if_true, String.reduceEq, if_false, List.mem_cons, forall_eq_or_imp, true_or, or_true, true_and, getLast?_cons_or]
      cases v with
      | str s =>
        have : string.de (.str s) = .ok s := rfl
        simp only [this, Res.ok_bind, ih, Json.str.injEq, exists_eq', true_and]
        refine and_congr Iff.rfl (and_congr Iff.rfl (and_congr_right fun hall => and_congr Iff.rfl (and_congr ?_ Iff.rfl)))
        cases hl : (valuesOf "type" m).getLast? with
        | none => simp [Json.str?]
        | some w =>
          obtain ⟨t, rfl⟩ := hall w (List.mem_of_getLast? hl)
          simp [Json.str?]
      | _ => exact ⟨fun h => (by cases h), fun h => (by obtain ⟨s, e⟩ := h.2.2.1.1; cases e)⟩
    · rw [if_neg h1]
      by_cases h2 : k = "resolution"
      · subst h2
        rw [if_pos rfl, ih]
        simp only [Json.valuesOf_cons, if_true, String.reduceEq, if_false, List.mem_cons, forall_eq_or_imp, or_true, true_and, getLast?_cons_or]
        refine and_congr Iff.rfl (and_congr Iff.rfl (and_congr Iff.rfl (and_congr Iff.rfl (and_congr Iff.rfl ?_))))
        cases (valuesOf "resolution" m).getLast? <;> simp
      · rw [if_neg h2]
        refine ⟨fun h => (by cases h), fun h => ?_⟩
        have := h.1 (k, v) (by simp)
        simp only [h0, h1, h2, or_self] at this

theorem single_value {m : List (String × Json)} {k : String} {w : Json} (h : (valuesOf k m).map Json.norm = [w]) :
    ∃ v, valuesOf k m = [v] ∧ v.norm = w := by
  cases hm : valuesOf k m with
  | nil => rw [hm] at h; cases h
  | cons a l => rw [hm] at h; simp at h; exact ⟨a, by rw [h.2], h.1⟩

theorem gives_resolutionMembers {parent : V2.FileContractElement} {pj : Json} {type : String} {v : Json} {m : List (String × Json)}
    (hp : pj.Distinct) (hr : ∀ j', j'.Distinct → j'.norm = pj.norm → (fileContractElement E).de j' = .ok parent) (hv : v.Distinct)
    (hd : Json.DistinctMembers m) (h : Json.normMembers m = Json.normMembers [("parent", pj), ("type", .str type), ("resolution", v)]) :
    resolutionMembers E (none, none, none) m = .ok (some parent, some type, some v.norm) := by
  have hs := fun k => sameAt_norm (by simp [Json.DistinctMembers, Json.Distinct, hv, hp]) hd h k
  have h0 := (hs "parent").2
  have h1 := (hs "type").2
  have h2 := (hs "resolution").2
  simp only [Json.valuesOf_cons, if_true, String.reduceEq, if_false, Json.valuesOf_nil (m := []) (by simp), List.map_cons, List.map_nil, Json.norm] at h0 h1 h2
  have keys : ∀ p ∈ m, p.1 = "parent" ∨ p.1 = "type" ∨ p.1 = "resolution" := by
    intro p hp
    by_cases hk : p.1 = "parent" ∨ p.1 = "type" ∨ p.1 = "resolution"
    · exact hk
    · exfalso
      have h3 := (hs p.1).2
      simp only [not_or] at hk
      rw [Json.valuesOf_cons, if_neg (Ne.symm hk.1), Json.valuesOf_cons, if_neg (Ne.symm hk.2.1), Json.valuesOf_cons, if_neg (Ne.symm hk.2.2),
        Json.valuesOf_nil (m := []) (by simp)] at h3
      simp only [valuesOf, List.map_nil, List.map_eq_nil_iff, List.filterMap_eq_nil_iff] at h3
      exact absurd (h3 p hp) (by simp)
  obtain ⟨v0, e0, f0⟩ := single_value h0
  obtain ⟨v1, e1, f1⟩ := single_value h1
  obtain ⟨v2, e2, f2⟩ := single_value h2
  have hv0 := hr v0 ((hs "parent").1 v0 (by rw [e0]; simp)) f0
  rw [Json.norm_str f1] at e1
  rw [resolutionMembers_ok, e0, e1, e2]
  exact ⟨keys, by simp [hv0], by simp, by simp [hv0, Res.val?], by simp [Json.str?], by simp [f2]⟩

theorem gives_resolution (x : V2.FileContractResolution) : (resolution E).Gives x := by
  obtain ⟨p, r⟩ := x
  obtain ⟨pj, p1, p2, p3⟩ := gives_fileContractElement (E := E) p
  cases r with
  | renewal r =>
    obtain ⟨rj, r1, r2, r3⟩ := gives_renewal (E := E) r
    refine ⟨.obj [("parent", pj), ("type", .str "renewal"), ("resolution", rj.norm)], by simp [resolution, p1, r1],
      by simp [Json.Distinct, Json.DistinctMembers, p2, Json.distinct_norm], fun j' hd e => ?_⟩
    simp only [Json.norm] at e
    obtain ⟨m, rfl, e'⟩ := Json.norm_obj e
    have := gives_resolutionMembers p2 p3 (Json.distinct_norm rj) hd e'
    simp only [resolution, this, Res.ok_bind, resolutionOf]
    simp [r3 _ (Json.distinct_norm _) (by rw [Json.norm_norm, Json.norm_norm])]
  | storageProof r =>
    obtain ⟨rj, r1, r2, r3⟩ := gives_v2StorageProof r
    refine ⟨.obj [("parent", pj), ("type", .str "storageProof"), ("resolution", rj.norm)], by simp [resolution, p1, r1],
      by simp [Json.Distinct, Json.DistinctMembers, p2, Json.distinct_norm], fun j' hd e => ?_⟩
    simp only [Json.norm] at e
    obtain ⟨m, rfl, e'⟩ := Json.norm_obj e
    have := gives_resolutionMembers p2 p3 (Json.distinct_norm rj) hd e'
    simp only [resolution, this, Res.ok_bind, resolutionOf]
    simp [r3 _ (Json.distinct_norm _) (by rw [Json.norm_norm, Json.norm_norm])]
  | expiration =>
    refine ⟨.obj [("parent", pj), ("type", .str "expiration"), ("resolution", .obj [])], by simp [resolution, p1],
      by simp [Json.Distinct, Json.DistinctMembers, p2], fun j' hd e => ?_⟩
    simp only [Json.norm] at e
    obtain ⟨m, rfl, e'⟩ := Json.norm_obj e
    have := gives_resolutionMembers p2 p3 (v := .obj []) trivial hd e'
    simp only [resolution, this, Res.ok_bind, resolutionOf]
    simp

theorem gives_v2Transaction {t : V2.Transaction} (h : t.JsonFits E) : (v2Transaction E).Gives t := by
  refine gives_record (by simp [Shape.names, JField.vec, JField.opt?, JField.req]) rfl ?_
  simp only [Shape.Gives, JField.ok_vec, JField.ok_req, JField.ok_opt, true_and]
  refine ⟨gives_list fun i hi => gives_v2SiacoinInput (h.1 i hi), gives_outputs _, gives_list fun i hi => gives_v2SiafundInput (h.2 i hi),
    gives_list fun _ _ => gives_siafundOutput _, gives_list fun _ _ => gives_v2FileContract _, gives_list fun _ _ => gives_v2FileContractRevision _,
    gives_list fun _ _ => gives_resolution _, gives_list fun _ _ => gives_attestation _, gives_base64 _,
    gives_option (fun _ _ => gives_address _) ?_, gives_currency _⟩
  intro a _ e
  simp [address, text] at e

/-! ## Consensus -/

/-- Slots without a tree are zero. -/
def ZeroAt (present : Nat → Bool) : Nat → List Hash256 → Prop
  | _, [] => True
  | i, h :: l => (present i = false → h = Arr.zero 32) ∧ ZeroAt present (i + 1) l

theorem placeTrees_iff (present : Nat → Bool) : ∀ (n i : Nat) (l : List Hash256) (r : Vec Hash256 n),
    placeTrees present i n l = some r ↔ (∃ rest, l = keepTrees present i r.1 ++ rest) ∧ ZeroAt present i r.1
  | 0, i, l, ⟨r, hr⟩ => by
    cases r with
    | nil => simp [placeTrees, keepTrees, ZeroAt]
    | cons => simp at hr
  | n + 1, i, l, ⟨r, hr⟩ => by
    cases r with
    | nil => simp at hr
    | cons h r =>
      have hr' : r.length = n := by simpa using hr
      have ih := fun l => placeTrees_iff present n (i + 1) l ⟨r, hr'⟩
      simp only at ih
      rw [placeTrees]
      simp only [keepTrees, ZeroAt]
      by_cases hp : present i = true
      · simp only [hp, if_true, List.cons_append]
        cases l with
        | nil => simp
        | cons x l =>
          simp only [List.head?_cons, Option.bind_some, List.tail_cons, Option.map_eq_some_iff, List.cons.injEq, Bool.true_eq_false, false_implies, true_and]
          constructor
          · rintro ⟨r', h1, e⟩
            have e1 := congrArg Subtype.val e
            simp only [List.cons.injEq] at e1
            obtain ⟨rfl, rfl⟩ := e1
            obtain ⟨⟨rest, h2⟩, h3⟩ := (ih l).mp h1
            exact ⟨⟨rest, rfl, h2⟩, h3⟩
          · rintro ⟨⟨rest, rfl, h2⟩, h3⟩
            exact ⟨⟨r, hr'⟩, (ih l).mpr ⟨⟨rest, h2⟩, h3⟩, rfl⟩
      · simp only [Bool.not_eq_true] at hp
        simp only [hp, Bool.false_eq_true, if_false, forall_const, Option.map_eq_some_iff]
        constructor
        · rintro ⟨r', h1, e⟩
          have e1 := congrArg Subtype.val e
          simp only [List.cons.injEq] at e1
          obtain ⟨rfl, rfl⟩ := e1
          obtain ⟨h2, h3⟩ := (ih l).mp h1
          exact ⟨h2, rfl, h3⟩
        · rintro ⟨h2, rfl, h3⟩
          exact ⟨⟨r, hr'⟩, (ih l).mpr ⟨h2, h3⟩, rfl⟩

theorem placeTrees_some (present : Nat → Bool) : ∀ (n i : Nat) (l : List Hash256), ((List.range' i n).filter present).length ≤ l.length →
    ∃ r, placeTrees present i n l = some r
  | 0, i, l, h => ⟨_, rfl⟩
  | n + 1, i, l, h => by
    rw [List.range'_succ, List.filter_cons] at h
    rw [placeTrees]
    by_cases hp : present i = true
    · rw [if_pos hp] at h ⊢
      cases l with
      | nil => simp at h
      | cons x l =>
        obtain ⟨r, hr⟩ := placeTrees_some present n (i + 1) l (by simpa using h)
        simp only [List.head?_cons, Option.bind_some, List.tail_cons, hr, Option.map_some]
        exact ⟨_, rfl⟩
    · rw [if_neg hp] at h ⊢
      obtain ⟨r, hr⟩ := placeTrees_some present n (i + 1) l h
      rw [hr]
      exact ⟨_, rfl⟩

theorem keepTrees_eq (present : Nat → Bool) (d : Hash256) (l : List Hash256) : ∀ i, keepTrees present i l =
    ((List.range' i l.length).filter present).map fun k => l.getD (k - i) d := by
  induction l with
  | nil => intro i; rfl
  | cons h l ih =>
    intro i
    rw [keepTrees, ih, List.length_cons, List.range'_succ, List.filter_cons]
    have : (((List.range' (i + 1) l.length).filter present).map fun k => l.getD (k - (i + 1)) d) =
        ((List.range' (i + 1) l.length).filter present).map fun k => (h :: l).getD (k - i) d := by
      apply List.map_congr_left
      intro k hk
      have := (List.mem_range'_1.mp (List.mem_filter.mp hk).1).1
      rw [show k - i = (k - (i + 1)) + 1 by omega]
      simp
    rw [this]
    by_cases hp : present i = true
    · simp [hp]
    · simp [hp]

theorem zeroAt_iff (present : Nat → Bool) (l : List Hash256) : ∀ i, ZeroAt present i l ↔ ∀ k (h : k < l.length), present (i + k) = false → l[k] = Arr.zero 32 := by
  induction l with
  | nil => intro i; simp [ZeroAt]
  | cons x l ih =>
    intro i
    rw [ZeroAt, ih]
    constructor
    · rintro ⟨h1, h2⟩ k hk hp
      cases k with
      | zero => exact h1 hp
      | succ k =>
        simp only [List.length_cons] at hk
        simpa using h2 k (by omega) (by rw [← hp]; congr 1; omega)
    · intro h
      refine ⟨fun hp => h 0 (by simp) hp, fun k hk hp => ?_⟩
      have := h (k + 1) (by simp; omega) (by rw [← hp]; congr 1; omega)
      simpa using this

/-- The tree roots at the one bits of the leaf count. -/
theorem keepTrees_roots (a : ElementAccumulator) : keepTrees (hasTreeAtHeight a.numLeaves) 0 a.trees.1 = a.roots := by
  rw [keepTrees_eq _ (Arr.zero 32), a.trees.2, ElementAccumulator.roots, List.range_eq_range']
  have : hasTreeAtHeight a.numLeaves = fun i => a.numLeaves.toNat.testBit i := by funext i; exact hasTreeAtHeight_eq _ _
  rw [this]
  rfl

theorem normal_iff (a : ElementAccumulator) : ZeroAt (hasTreeAtHeight a.numLeaves) 0 a.trees.1 ↔ a.Normal := by
  rw [zeroAt_iff, ElementAccumulator.Normal]
  refine forall_congr' fun k => forall_congr' fun h => ?_
  rw [Nat.zero_add, hasTreeAtHeight_eq]

theorem countOnes_roots (a : ElementAccumulator) : countOnes a.numLeaves = a.roots.length := by
  rw [countOnes, ElementAccumulator.roots, List.length_map, List.countP_eq_length_filter]
  rfl

/-- What the accumulator decoder accepts. -/
theorem accumulator_de (j : Json) (a : ElementAccumulator) : accumulator.de j = .ok a ↔
    (Shape.cons (.req "numLeaves" u64) (.one (.req "trees" (list id)))).de j = .ok (a.numLeaves, a.roots) ∧ a.Normal := by
  simp only [accumulator, accumulatorOf]
  cases hi : (Shape.cons (.req "numLeaves" u64) (.one (.req "trees" (list id)))).de j with
  | err e => simp
  | panic => simp
  | ok x =>
    obtain ⟨n, l⟩ := x
    simp only [Res.ok_bind, Res.ok.injEq, Prod.mk.injEq]
    by_cases hl : l.length ≠ countOnes n
    · rw [if_pos hl]
      refine ⟨fun h => (by cases h), ?_⟩
      rintro ⟨⟨rfl, rfl⟩, -⟩
      exact absurd (countOnes_roots a).symm hl
    · rw [if_neg hl]
      simp only [ne_eq, Decidable.not_not] at hl
      cases hp : placeTrees (hasTreeAtHeight n) 0 64 l with
      | none =>
        refine ⟨fun h => (by cases h), ?_⟩
        rintro ⟨⟨rfl, rfl⟩, hn⟩
        have := (placeTrees_iff _ 64 0 a.roots a.trees).mpr ⟨⟨[], by rw [keepTrees_roots, List.append_nil]⟩, (normal_iff a).mpr hn⟩
        rw [this] at hp
        cases hp
      | some r =>
        have hr := hp
        rw [placeTrees_iff] at hp
        obtain ⟨⟨rest, h1⟩, h2⟩ := hp
        have k1 := keepTrees_roots ⟨n, r⟩
        have k2 := (normal_iff ⟨n, r⟩).mp h2
        have k3 := countOnes_roots ⟨n, r⟩
        simp only at k1 k3
        rw [k1] at h1
        have hrest : rest = [] := by
          apply List.eq_nil_of_length_eq_zero
          have := congrArg List.length h1
          rw [List.length_append] at this
          omega
        rw [hrest, List.append_nil] at h1
        constructor
        · intro h
          cases h
          exact ⟨⟨rfl, h1⟩, k2⟩
        · rintro ⟨⟨rfl, rfl⟩, hn⟩
          have := (placeTrees_iff _ 64 0 a.roots a.trees).mpr ⟨⟨[], by rw [keepTrees_roots, List.append_nil]⟩, (normal_iff a).mpr hn⟩
          rw [this] at hr
          cases hr
          rfl

theorem gives_accumulator {a : ElementAccumulator} (h : a.Normal) : accumulator.Gives a := by
  have hg : (record (Shape.cons (.req "numLeaves" u64) (.one (.req "trees" (list id)))) (fun x : U64 × List Hash256 => x) (fun x => x)).Gives
      (a.numLeaves, a.roots) :=
    gives_record (by decide) rfl ⟨⟨JField.ok_req _ _, gives_u64 _⟩, JField.ok_req _ _, gives_ids _⟩
  obtain ⟨tj, t1, -⟩ := gives_ids a.roots
  obtain ⟨j, h1, h2, h3⟩ := hg
  refine ⟨j, ?_, h2, fun j' hd e => ?_⟩
  · have : (accumulator).ser a = (record (Shape.cons (.req "numLeaves" u64) (.one (.req "trees" (list id)))) (fun x : U64 × List Hash256 => x) (fun x => x)).ser
        (a.numLeaves, a.roots) := by
      simp only [accumulator, keepTrees_roots, t1]
      simp [record, Shape.ser, JField.ser, JField.req, t1, u64]
    rw [this, h1]
  · rw [accumulator_de]
    refine ⟨?_, h⟩
    have := h3 j' hd e
    simp only [record] at this
    cases hd : (Shape.cons (.req "numLeaves" u64) (.one (.req "trees" (list id)))).de j' with
    | ok x => rw [hd] at this; exact this
    | err e => rw [hd] at this; cases this
    | panic => rw [hd] at this; cases this

theorem gives_state {s : State} (h : s.JsonFits E) : (state E).Gives s := by
  refine gives_record (by simp [Shape.names, JField.req]) rfl ?_
  simp only [Shape.Gives, JField.ok_req, true_and]
  exact ⟨gives_chainIndex _, gives_times h.1, gives_id _, gives_id _, gives_currency _, gives_duration h.2.1, gives_id _, gives_address _,
    gives_address _, gives_work _, gives_work _, gives_work _, gives_accumulator h.2.2, gives_u64 _⟩

theorem gives_hardforkHeight (x : U64) : hardforkHeight.Gives x := gives_record (by decide) rfl ⟨JField.ok_req _ _, gives_u64 _⟩

theorem gives_network {n : Network} (h : n.JsonFits E) : (network E).Gives n := by
  refine gives_record (by simp [Shape.names, JField.req]) rfl ?_
  simp only [Shape.Gives, JField.ok_req, true_and]
  refine ⟨gives_string _, gives_currency _, gives_currency _, gives_id _, gives_duration h.1, gives_u64 _, ?_, gives_hardforkHeight _,
    gives_hardforkHeight _, ?_, ?_, ?_, ?_⟩
  · exact gives_record (by simp [Shape.names, JField.req]) rfl ⟨⟨JField.ok_req _ _, gives_u64 _⟩, ⟨JField.ok_req _ _, gives_address _⟩, JField.ok_req _ _, gives_address _⟩
  · exact gives_record (by simp [Shape.names, JField.req]) rfl ⟨⟨JField.ok_req _ _, gives_u64 _⟩, ⟨JField.ok_req _ _, gives_u64 _⟩, JField.ok_req _ _, gives_time h.2.1⟩
  · exact gives_record (by simp [Shape.names, JField.req]) rfl ⟨⟨JField.ok_req _ _, gives_u64 _⟩, ⟨JField.ok_req _ _, gives_duration h.2.2⟩, JField.ok_req _ _, gives_id _⟩
  · exact gives_record (by simp [Shape.names, JField.req]) rfl ⟨⟨JField.ok_req _ _, gives_u64 _⟩, ⟨JField.ok_req _ _, gives_address _⟩, JField.ok_req _ _, gives_address _⟩
  · exact gives_record (by simp [Shape.names, JField.req]) rfl ⟨⟨JField.ok_req _ _, gives_u64 _⟩, JField.ok_req _ _, gives_u64 _⟩

theorem gives_chainState {c : ChainState} (hn : c.network.JsonFits E) (hs : c.state.JsonFits E) : (chainState E).Gives c :=
  gives_record (by simp [Shape.names, JField.req]) rfl ⟨⟨JField.ok_req _ _, gives_network hn⟩, JField.ok_req _ _, gives_state hs⟩

end Verif.Serde
