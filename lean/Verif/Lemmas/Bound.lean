import Verif.Lemmas.Flat
import Verif.Lemmas.Sound

/-!
# Texts: what is read from a document is nested no deeper than it
-/

namespace Verif

namespace Serde

/-- What can be read from a document nested at most `n` deep. -/
def Bounds {α : Type} (s : Serde α) (n : Nat) (P : α → Prop) : Prop := ∀ j a, s.de j = .ok a → j.depth ≤ n → P a

/-- The fields of a struct. -/
def BoundsShape {β : Type} (s : Shape β) (n : Nat) (P : β → Prop) : Prop :=
  (∀ m b, s.Reads m b → Json.depthMembers m ≤ n → P b) ∧ ∀ l b, s.ReadsSeq l b → Json.depthList l ≤ n → P b

/-- A field. -/
def BoundsField {α : Type} (f : JField α) (n : Nat) (P : α → Prop) : Prop := (∀ a skip, f.opt = some (a, skip) → P a) ∧ Bounds f.type n P

theorem bounds_all {α : Type} (s : Serde α) (n : Nat) : Bounds s n fun _ => True := fun _ _ _ _ => trivial

theorem bounds_field {α : Type} (f : JField α) (n : Nat) : BoundsField f n fun _ => True := ⟨fun _ _ _ => trivial, bounds_all _ _⟩

theorem bounds_rest {β : Type} (s : Shape β) (n : Nat) : BoundsShape s n fun _ => True := ⟨fun _ _ _ _ => trivial, fun _ _ _ _ => trivial⟩

theorem Bounds.imp {α : Type} {s : Serde α} {n : Nat} {P Q : α → Prop} (h : Bounds s n P) (hpq : ∀ a, P a → Q a) : Bounds s n Q :=
  fun j a h1 h2 => hpq a (h j a h1 h2)

theorem reads_bound {α : Type} {f : JField α} {n : Nat} {P : α → Prop} (h : BoundsField f n P) {m : List (String × Json)} {a : α} (hr : f.Reads m a)
    (hm : Json.depthMembers m ≤ n) : P a := by
  rcases hr with ⟨v, h1, h2⟩ | ⟨-, skip, h1⟩
  · exact h.2 v a h2 (Nat.le_trans (depth_valuesOf (k := f.name) (by rw [h1]; simp)) hm)
  · exact h.1 a skip h1

theorem readsAt_bound {α : Type} {f : JField α} {n : Nat} {P : α → Prop} (h : BoundsField f n P) {l : List Json} {a : α} (hr : f.ReadsAt l.head? a)
    (hl : Json.depthList l ≤ n) : P a := by
  cases l with
  | nil => obtain ⟨skip, hr⟩ := hr; exact h.1 a skip hr
  | cons v l => exact h.2 v a hr (by simp only [Json.depthList] at hl; omega)

theorem bounds_one {α : Type} {f : JField α} {n : Nat} {P : α → Prop} (h : BoundsField f n P) : BoundsShape (.one f) n P :=
  ⟨fun _ _ hr hm => reads_bound h hr hm, fun _ _ hr hl => readsAt_bound h hr.2 hl⟩

theorem bounds_cons {α β : Type} {f : JField α} {s : Shape β} {n : Nat} {P : α → Prop} {Q : β → Prop} (h : BoundsField f n P) (hs : BoundsShape s n Q) :
    BoundsShape (.cons f s) n fun p => P p.1 ∧ Q p.2 := by
  refine ⟨fun m _ hr hm => ⟨reads_bound h hr.1 hm, hs.1 m _ hr.2 hm⟩, fun l _ hr hl => ⟨readsAt_bound h hr.1 hl, hs.2 l.tail _ hr.2 ?_⟩⟩
  cases l with
  | nil => exact hl
  | cons v l => simp only [Json.depthList] at hl; simp only [List.tail_cons]; omega

theorem bounds_record {α β : Type} {s : Shape β} {n : Nat} {P : β → Prop} (h : BoundsShape s n P) (hn : s.names.Nodup) (fields : α → β) (build : β → α) :
    Bounds (record s fields build) (n + 1) fun a => ∃ b, a = build b ∧ P b := by
  intro j a hj hd
  obtain ⟨b, h1, h2⟩ := bind_ok_iff.mp hj
  cases h2
  refine ⟨b, rfl, ?_⟩
  cases j with
  | obj m => exact h.1 m b ((Shape.de_obj s hn m b).mp h1) (by simp only [Json.depth] at hd; omega)
  | arr l => exact h.2 l b ((Shape.de_arr s l b).mp h1) (by simp only [Json.depth] at hd; omega)
  | _ => cases h1

theorem bounds_req {α : Type} {s : Serde α} {n : Nat} {P : α → Prop} (k : String) (h : Bounds s n P) : BoundsField (.req k s) n P :=
  ⟨fun _ _ e => (by cases e), h⟩

theorem bounds_list {α : Type} {s : Serde α} {n : Nat} {P : α → Prop} (h : Bounds s n P) : Bounds (list s) (n + 1) fun l => ∀ a ∈ l, P a := by
  intro j l hj hd
  cases j with
  | arr js =>
    simp only [Json.depth] at hd
    intro a ha
    obtain ⟨j, h1, h2⟩ := each_mem hj a ha
    exact h j a h2 ((Json.depthList_le js n).mp (by omega) j h1)
  | _ => cases hj

theorem bounds_vec {α : Type} {s : Serde (List α)} {n : Nat} {P : α → Prop} (k : String) (h : Bounds s n fun l => ∀ a ∈ l, P a) :
    BoundsField (.vec k s) n fun l => ∀ a ∈ l, P a := by
  refine ⟨fun l skip e => ?_, h⟩
  simp only [JField.vec, Option.some.injEq, Prod.mk.injEq] at e
  rw [← e.1]
  simp

variable {E : Env}

theorem depth_list {α : Type} {s : Serde α} {j : Json} {l : List α} (h : (list s).de j = .ok l) : ∃ js, j = .arr js ∧ each s.de js = .ok l := by
  cases j with
  | arr js => exact ⟨js, rfl, h⟩
  | _ => cases h

theorem depth_unlockConditions {j : Json} {uc : UnlockConditions} (h : unlockConditions.de j = .ok uc) : 2 ≤ j.depth := by
  obtain ⟨b, h1, -⟩ := bind_ok_iff.mp h
  cases j with
  | obj m =>
    obtain ⟨-, h2, -⟩ := (Shape.de_obj _ (by decide) m b).mp h1
    rcases h2 with ⟨v, h3, h4⟩ | ⟨-, skip, h3⟩
    · obtain ⟨js, rfl, -⟩ := depth_list h4
      have := depth_valuesOf (k := "publicKeys") (m := m) (v := .arr js) (by rw [show valuesOf "publicKeys" m = [.arr js] from h3]; simp)
      simp only [Json.depth] at this ⊢
      omega
    · cases h3
  | arr l =>
    obtain ⟨-, h2, -⟩ := (Shape.de_arr _ l b).mp h1
    rcases l with _ | ⟨x, _ | ⟨y, l⟩⟩
    · obtain ⟨skip, h3⟩ := h2; cases h3
    · obtain ⟨skip, h3⟩ := h2; cases h3
    · obtain ⟨js, rfl, -⟩ := depth_list h2
      simp only [Json.depth, Json.depthList]
      omega
  | _ => cases h1

theorem policyMembers_depth {d : Nat} : ∀ (m : List (String × Json)) (x : Option String × Option Json) (t : Option String) (v : Json),
    Json.depthMembers m ≤ d → (∀ w, x.2 = some w → w.depth ≤ d) → policyMembers x m = .ok (t, some v) → v.depth ≤ d
  | [], x, t, v, _, hx, h => by cases h; exact hx v rfl
  | (k, w) :: m, x, t, v, hm, hx, h => by
    simp only [Json.depthMembers] at hm
    rw [policyMembers] at h
    split at h
    · obtain ⟨s, -, h⟩ := bind_ok_iff.mp h
      exact policyMembers_depth m (some s, x.2) t v (by omega) hx h
    · split at h
      · exact policyMembers_depth m _ t v (by omega) (fun u hu => by cases hu; have := depth_norm w; omega) h
      · cases h

theorem deepest_le {of : List SpendPolicy} {n : Nat} (h : ∀ p ∈ of, p.jsonDepth ≤ n) : SpendPolicy.jsonDepth.deepest of ≤ n := by
  induction of with
  | nil => simp [SpendPolicy.jsonDepth.deepest]
  | cons p of ih =>
    simp only [List.mem_cons, forall_eq_or_imp] at h
    simp only [SpendPolicy.jsonDepth.deepest]
    have := ih h.2
    omega

theorem depth_dePolicy : ∀ (d : Nat) (j : Json) (p : SpendPolicy), dePolicy E d j = .ok p → p.jsonDepth ≤ j.depth
  | 0, _, _, h => by cases h
  | d + 1, j, p, h => by
    obtain ⟨m, v, rfl, h1, h2⟩ := (dePolicy_iff d j p).mp h
    have hv := policyMembers_depth (d := Json.depthMembers m) m _ _ v (Nat.le_refl _) (fun _ h => by cases h) h1
    cases p with
    | unlockConditions uc =>
      have := depth_unlockConditions (show unlockConditions.de v = .ok uc from h2)
      simp only [SpendPolicy.jsonDepth, Json.depth]
      omega
    | threshold n of =>
      simp only [SpendPolicy.jsonDepth, Json.depth]
      have key : ∀ y : Json, (list ⟨serPolicy E, dePolicy E d, Take.whole (dePolicy E d)⟩).de y = .ok of → y.depth + 1 ≤ Json.depthMembers m →
          SpendPolicy.jsonDepth.deepest of + 3 ≤ Json.depthMembers m + 1 := by
        intro y hy hd
        obtain ⟨js, rfl, h3⟩ := depth_list hy
        have := deepest_le (of := of) (n := Json.depthList js) fun q hq => by
          obtain ⟨j, h4, h5⟩ := each_mem h3 q hq
          exact Nat.le_trans (depth_dePolicy d j q h5) (depth_mem h4)
        simp only [Json.depth] at hd
        omega
      cases v with
      | obj m' =>
        obtain ⟨x, y, -, -, h3, h4⟩ := h2
        have := depth_valuesOf (k := "of") (m := m') (v := y) (by rw [h3]; simp)
        simp only [Json.depth] at hv
        exact key y h4 (by omega)
      | arr l =>
        obtain ⟨x, y, rfl, -, h4⟩ := h2
        simp only [Json.depth, Json.depthList] at hv
        exact key y h4 (by omega)
      | _ => cases h2
    | _ => simp only [SpendPolicy.jsonDepth, Json.depth]; omega

theorem bounds_policy (n : Nat) : Bounds (policy E) n fun p => p.jsonDepth ≤ n := fun j p h hd => Nat.le_trans (depth_dePolicy _ j p h) hd

theorem bounds_satisfiedPolicy (n : Nat) : Bounds (satisfiedPolicy E) (n + 1) fun x => x.policy.jsonDepth ≤ n := by
  refine (bounds_record (bounds_cons (bounds_req _ (bounds_policy n)) (bounds_rest _ _)) (by simp [Shape.names, JField.req, JField.vec]) _ _).imp ?_
  rintro _ ⟨b, rfl, h, -⟩
  exact h

theorem bounds_v2SiacoinInput (n : Nat) : Bounds (v2SiacoinInput E) (n + 2) fun x => x.satisfiedPolicy.policy.jsonDepth ≤ n := by
  refine (bounds_record (bounds_cons (bounds_field _ _) (bounds_one (bounds_req _ (bounds_satisfiedPolicy n)))) (by simp [Shape.names, JField.req]) _ _).imp ?_
  rintro _ ⟨b, rfl, -, h⟩
  exact h

theorem bounds_v2SiafundInput (n : Nat) : Bounds (v2SiafundInput E) (n + 2) fun x => x.satisfiedPolicy.policy.jsonDepth ≤ n := by
  refine (bounds_record (bounds_cons (bounds_field _ _) (bounds_cons (bounds_field _ _) (bounds_one (bounds_req _ (bounds_satisfiedPolicy n))))) (by simp [Shape.names, JField.req]) _ _).imp ?_
  rintro _ ⟨b, rfl, -, -, h⟩
  exact h

theorem bounds_v2Transaction (n : Nat) : Bounds (v2Transaction E) (n + 4) fun t =>
    (∀ i ∈ t.siacoinInputs, i.satisfiedPolicy.policy.jsonDepth ≤ n) ∧ ∀ i ∈ t.siafundInputs, i.satisfiedPolicy.policy.jsonDepth ≤ n := by
  refine (bounds_record (bounds_cons (bounds_vec _ (bounds_list (bounds_v2SiacoinInput n))) (bounds_cons (bounds_field _ _)
    (bounds_cons (bounds_vec _ (bounds_list (bounds_v2SiafundInput n))) (bounds_rest _ _)))) (by simp [Shape.names, JField.req, JField.vec, JField.opt?]) _ _).imp ?_
  rintro _ ⟨b, rfl, h1, -, h2, -⟩
  exact ⟨h1, h2⟩

/-! ## Policies have no unknown members -/

/-- A round of a loop that skips nothing. -/
def WholeStep {X : Type} (finite : List Char → Bool) (d : Nat) (take : X → String → List Char → Res (X × List Char)) (step : X → String → Json → Res X) : Prop :=
  ∀ (x : X) (k : String) (t : List Char) (y : X) (r : List Char), take x k t = .ok (y, r) →
    ∃ w u j, Json.Grammar.Space w ∧ t = w ++ (u ++ r) ∧ Json.Grammar.Value finite u j ∧ j.depth ≤ d ∧ step x k j = .ok y

theorem takeMembers_whole {X : Type} {take : X → String → List Char → Res (X × List Char)} {step : X → String → Json → Res X} {finite : List Char → Bool} {d : Nat}
    (h : WholeStep finite d take step) : ∀ (fuel : Nat) (x : X) (t : List Char) (y : X) (r : List Char), takeMembers take fuel x t = .ok (y, r) →
      ∃ u m, t = u ++ '}' :: r ∧ Json.Grammar.Members finite u m ∧ Json.depthMembers m ≤ d ∧ runMembers step x m = .ok y
  | 0, _, _, _, _, ht => by cases ht
  | fuel + 1, x, t, y, r, ht => by
    rw [takeMembers] at ht
    obtain ⟨⟨k, t1⟩, h1, ht'⟩ := bind_ok_iff.mp ht
    clear ht
    obtain ⟨⟨x1, t2⟩, h2, ht⟩ := bind_ok_iff.mp ht'
    clear ht'
    obtain ⟨⟨more, t3⟩, h3, ht'⟩ := bind_ok_iff.mp ht
    clear ht
    have ht := ht'
    clear ht'
    obtain ⟨w0, key, w1, hw0, hk, hw1, rfl⟩ := Json.readKey_sound (ofOption_ok.mp h1)
    obtain ⟨w, u, j, hw, rfl, hu, hd', hs⟩ := h _ _ _ _ _ h2
    obtain ⟨w', hw', h4⟩ := Json.readSeparator_sound (ofOption_ok.mp h3)
    rcases h4 with ⟨rfl, rfl⟩ | ⟨rfl, rfl⟩
    · simp only [if_true] at ht
      obtain ⟨u', m, rfl, hm, hd, hr⟩ := takeMembers_whole h fuel _ _ _ _ ht
      exact ⟨w0 ++ (key ++ (w1 ++ ':' :: (w ++ (u ++ (w' ++ ',' :: u'))))), _, by simp, .cons hw0 hk hw1 hw hu hw' hm, by simp only [Json.depthMembers]; omega,
        by simp [runMembers, hs, hr]⟩
    · cases ht
      exact ⟨w0 ++ (key ++ (w1 ++ ':' :: (w ++ (u ++ w')))), _, by simp, .one hw0 hk hw1 hw hu hw', by simp only [Json.depthMembers]; omega, by simp [runMembers, hs]⟩

theorem whole_policyMember (finite : List Char → Bool) (d : Nat) : WholeStep finite d (takePolicyMember finite d) policyMember := by
  intro x k t y r ht
  simp only [takePolicyMember] at ht
  simp only [policyMember]
  split at ht
  · next hk =>
    obtain ⟨⟨s, t1⟩, h1, ht⟩ := bind_ok_iff.mp ht
    cases ht
    obtain ⟨w, u, j, hw, e, hu, hd, hJ⟩ := whole_sound h1
    exact ⟨w, u, j, hw, e, hu, hd, by rw [if_pos hk, show string.de j = .ok s from hJ]; rfl⟩
  split at ht
  · next hk0 hk =>
    obtain ⟨⟨s, t1⟩, h1, ht⟩ := bind_ok_iff.mp ht
    cases ht
    obtain ⟨w, u, j, hw, e, hu, hd, hJ⟩ := whole_sound h1
    exact ⟨w, u, j, hw, e, hu, hd, by rw [if_neg hk0, if_pos hk]; cases hJ; rfl⟩
  · cases ht

theorem takePolicy_whole {finite : List Char → Bool} {n d : Nat} {t : List Char} {a : SpendPolicy} {r : List Char} (ht : takePolicy E n finite d t = .ok (a, r)) :
    ∃ w u j, Json.Grammar.Space w ∧ t = w ++ (u ++ r) ∧ Json.Grammar.Value finite u j ∧ j.depth ≤ d ∧ dePolicy E n j = .ok a := by
  unfold takePolicy at ht
  obtain ⟨w, hw, hs⟩ := Json.skip_split t
  split at ht
  · cases ht
  · cases ht
  next n c t' e =>
  rw [e] at hw
  split at ht
  · next hc =>
    subst hc
    split at ht
    · cases ht
    obtain ⟨⟨x, t1⟩, h1, ht⟩ := bind_ok_iff.mp ht
    have key : ∃ (u : List Char) (m : List (String × Json)), '{' :: t' = u ++ t1 ∧ Json.Grammar.Value finite u (.obj m) ∧ Json.depthMembers m ≤ d - 1 ∧
        runMembers policyMember (none, none) m = .ok x := by
      unfold takeObject at h1
      split at h1
      · next hc =>
        cases h1
        obtain ⟨v, hv, hs'⟩ := Json.skip_split t'
        refine ⟨'{' :: (v ++ ['}']), [], ?_, .noMembers hs', by simp [Json.depthMembers], rfl⟩
        conv => lhs; rw [hv, Json.head_tail hc]
        simp
      · obtain ⟨u, m, rfl, hm, hd, hr⟩ := takeMembers_whole (whole_policyMember finite (d - 1)) _ _ _ _ _ h1
        exact ⟨'{' :: (u ++ ['}']), m, by simp, .members hm, hd, hr⟩
    obtain ⟨u, m, h3, h4, h5, h6⟩ := key
    simp only at ht
    split at ht
    · obtain ⟨p, h7, ht⟩ := bind_ok_iff.mp ht
      cases ht
      refine ⟨w, u, _, hs, by rw [hw, h3], h4, by simp only [Json.depth]; omega, ?_⟩
      rw [← h7, ← dePolicy_last]
      rw [policyMembers_eq]
      exact h6
    · cases ht
  · cases ht

theorem policy_ofText (finite : List Char → Bool) (t : List Char) (a : SpendPolicy) : (policy E).ofText finite t = .ok a ↔
    ∃ j, Json.Grammar.Document finite t j ∧ j.depth < 128 ∧ (policy E).de j = .ok a := by
  constructor
  · intro ht
    obtain ⟨⟨b, r⟩, h1, h2⟩ := bind_ok_iff.mp ht
    simp only at h2
    split at h2
    · next hr =>
      cases h2
      obtain ⟨w, u, j, hw, rfl, hu, hd, hJ⟩ := takePolicy_whole h1
      exact ⟨j, ⟨w, u, r, rfl, hw, hu, (Json.skip_nil_iff r).mp hr⟩, by omega, hJ⟩
    · cases h2
  · rintro ⟨j, h1, h2, h3⟩
    rw [ofText_eq h1 h2, h3]

/-! ## Texts -/

/-- What the text of a value is, and when it is read back. -/
theorem text_back {α : Type} {s : Serde α} [ht : Tracks s] [hs : Sound s] {P : α → Prop} (h : Within s 127 P) (hb : Bounds s 127 P) (finite : List Char → Bool) (a : α) :
    (∃ t, s.toText a = .ok t ∧ s.ofText finite t = .ok a) ↔ s.Back a ∧ P a := by
  constructor
  · rintro ⟨t, h1, h2⟩
    obtain ⟨j, h3, h4⟩ := bind_ok_iff.mp h1
    cases h4
    obtain ⟨hw, hd⟩ := h a j h3
    obtain ⟨J, -, hJ, h5⟩ := ofText_ok h2
    have hP := hb _ a (h5 .null) (by omega)
    rw [ofText_eq (Json.document_print finite hw) (by have := hd.mpr hP; omega)] at h2
    exact ⟨⟨j, h3, h2⟩, hP⟩
  · rintro ⟨⟨j, h1, h2⟩, hP⟩
    obtain ⟨hw, hd⟩ := h a j h1
    exact ⟨j.print, by simp [Serde.toText, h1], by rw [ofText_eq (Json.document_print finite hw) (by have := hd.mpr hP; omega), h2]⟩

/-- Any text for the document, or for one with other orders of members. -/
theorem text_any {α : Type} {s : Serde α} [ht : Tracks s] {P : α → Prop} (h : Within s 127 P) {a : α} (hP : P a)
    (hb : ∃ j, s.ser a = .ok j ∧ ∀ j', j.Reordered j' → s.de j' = .ok a) :
    ∃ j, s.ser a = .ok j ∧ ∀ j', j.Reordered j' → ∀ finite t, Json.Grammar.Document finite t j' → s.ofText finite t = .ok a := by
  obtain ⟨j, h1, h2⟩ := hb
  refine ⟨j, h1, fun j' hr finite t ht => ?_⟩
  rw [ofText_eq ht (by rw [hr.depth_eq]; have := (h a j h1).2.mpr hP; omega), h2 j' hr]

theorem text_calm {α : Type} {s : Serde α} [hs : Sound s] (h : Calm s 127) (finite : List Char → Bool) (t : List Char) : s.ofText finite t ≠ .panic := by
  intro ht
  obtain ⟨j, h1, h2⟩ := ofText_panic ht
  exact h j (by omega) h2

end Serde

end Verif
