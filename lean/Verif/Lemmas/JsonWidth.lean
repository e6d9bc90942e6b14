import Verif.Model.JsonWidth
import Verif.Spec.Width
import Verif.Lemmas.Bound
import Verif.Lemmas.Complete

/-!
# Readers that refuse some of the values another reader reads
-/

namespace Verif

namespace Serde

/-- `A` reads what `B` reads and `P` holds of, where it panics `B` panics, and both write the same. -/
structure Narrows {α : Type} (A B : Serde α) (P : α → Prop) : Prop where
  ok : ∀ j a, A.de j = .ok a ↔ B.de j = .ok a ∧ P a
  panic : ∀ j, A.de j = .panic → B.de j = .panic
  ser : ∀ a, A.ser a = B.ser a

/-- The same for structs, field by field; defaults are not refused. -/
inductive NarrowsShape : {β : Type} → Shape β → Shape β → (β → Prop) → Prop
  | one {α : Type} {f g : JField α} {P : α → Prop} : f.name = g.name → f.opt = g.opt → Narrows f.type g.type P →
      (∀ d skip, g.opt = some (d, skip) → P d) → NarrowsShape (.one f) (.one g) P
  | cons {α β : Type} {f g : JField α} {s t : Shape β} {P : α → Prop} {Q : β → Prop} : f.name = g.name → f.opt = g.opt → Narrows f.type g.type P →
      (∀ d skip, g.opt = some (d, skip) → P d) → NarrowsShape s t Q → NarrowsShape (.cons f s) (.cons g t) fun p => P p.1 ∧ Q p.2

theorem Narrows.refl {α : Type} (A : Serde α) : Narrows A A fun _ => True := ⟨fun _ _ => by simp, fun _ h => h, fun _ => rfl⟩

theorem Narrows.congr {α : Type} {A B : Serde α} {P Q : α → Prop} (h : Narrows A B P) (e : ∀ a, P a ↔ Q a) : Narrows A B Q :=
  ⟨fun j a => by rw [h.ok, e], h.panic, h.ser⟩

theorem Narrows.eq {α : Type} {A B : Serde α} {P : α → Prop} (h : Narrows A B P) {j : Json} {a : α} (hb : B.de j = .ok a) :
    (P a → A.de j = .ok a) ∧ (¬ P a → ∃ e, A.de j = .err e) := by
  refine ⟨fun hp => (h.ok j a).mpr ⟨hb, hp⟩, fun hp => ?_⟩
  cases hA : A.de j with
  | ok b =>
    obtain ⟨h1, h2⟩ := (h.ok j b).mp hA
    rw [hb] at h1
    cases h1
    exact absurd h2 hp
  | err e => exact ⟨e, rfl⟩
  | panic => rw [h.panic j hA] at hb; cases hb

namespace NarrowsShape

theorem names {β : Type} {s t : Shape β} {P : β → Prop} (h : NarrowsShape s t P) : s.names = t.names := by
  induction h with
  | one h1 _ _ _ => simp only [Shape.names, h1]
  | cons h1 _ _ _ _ ih => simp only [Shape.names, h1, ih]

theorem field {α : Type} {f g : JField α} {P : α → Prop} (hn : f.name = g.name) (ho : f.opt = g.opt) (h : Narrows f.type g.type P)
    (hd : ∀ d skip, g.opt = some (d, skip) → P d) (m : List (String × Json)) (a : α) : f.Reads m a ↔ g.Reads m a ∧ P a := by
  unfold JField.Reads
  rw [hn, ho]
  constructor
  · rintro (⟨v, h1, h2⟩ | ⟨h1, sk, h2⟩)
    · obtain ⟨h3, h4⟩ := (h.ok v a).mp h2
      exact ⟨.inl ⟨v, h1, h3⟩, h4⟩
    · exact ⟨.inr ⟨h1, sk, h2⟩, hd a sk h2⟩
  · rintro ⟨⟨v, h1, h2⟩ | ⟨h1, sk, h2⟩, hp⟩
    · exact .inl ⟨v, h1, (h.ok v a).mpr ⟨h2, hp⟩⟩
    · exact .inr ⟨h1, sk, h2⟩

theorem fieldAt {α : Type} {f g : JField α} {P : α → Prop} (ho : f.opt = g.opt) (h : Narrows f.type g.type P)
    (hd : ∀ d skip, g.opt = some (d, skip) → P d) (v : Option Json) (a : α) : f.ReadsAt v a ↔ g.ReadsAt v a ∧ P a := by
  cases v with
  | some v => exact h.ok v a
  | none =>
    simp only [JField.ReadsAt, ho]
    exact ⟨fun ⟨sk, h2⟩ => ⟨⟨sk, h2⟩, hd a sk h2⟩, fun h => h.1⟩

theorem reads {β : Type} {s t : Shape β} {P : β → Prop} (h : NarrowsShape s t P) (m : List (String × Json)) (b : β) :
    s.Reads m b ↔ t.Reads m b ∧ P b := by
  induction h with
  | one h1 h2 h3 h4 => exact field h1 h2 h3 h4 m b
  | cons h1 h2 h3 h4 _ ih =>
    simp only [Shape.Reads, field h1 h2 h3 h4, ih b.2]
    exact ⟨fun ⟨⟨a, b⟩, c, d⟩ => ⟨⟨a, c⟩, b, d⟩, fun ⟨⟨a, c⟩, b, d⟩ => ⟨⟨a, b⟩, c, d⟩⟩

theorem readsSeq {β : Type} {s t : Shape β} {P : β → Prop} (h : NarrowsShape s t P) : ∀ (l : List Json) (b : β),
    s.ReadsSeq l b ↔ t.ReadsSeq l b ∧ P b := by
  induction h with
  | one h1 h2 h3 h4 =>
    intro l b
    simp only [Shape.ReadsSeq, fieldAt h2 h3 h4, and_assoc]
  | cons h1 h2 h3 h4 _ ih =>
    intro l b
    simp only [Shape.ReadsSeq, fieldAt h2 h3 h4, ih]
    exact ⟨fun ⟨⟨a, b⟩, c, d⟩ => ⟨⟨a, c⟩, b, d⟩, fun ⟨⟨a, c⟩, b, d⟩ => ⟨⟨a, b⟩, c, d⟩⟩

/-- What one step, or the end, of reading with `s` does, reading with `t` does too, unless it fails. -/
theorem follows {β : Type} {s t : Shape β} {P : β → Prop} (h : NarrowsShape s t P) : ∃ R : s.Slots → t.Slots → Prop, R s.start t.start ∧
    (∀ x y k v, R x y → (∀ x', s.step x k v = .ok x' → ∃ y', t.step y k v = .ok y' ∧ R x' y') ∧ (s.step x k v = .panic → t.step y k v = .panic)) ∧
    ∀ x y, R x y → s.finish x = .panic → t.finish y = .panic := by
  have put : ∀ {α : Type} {f g : JField α} {P : α → Prop}, Narrows f.type g.type P → ∀ (x : Option α) (v : Json),
      (∀ x', f.put x v = .ok x' → g.put x v = .ok x') ∧ (f.put x v = .panic → g.put x v = .panic) := by
    intro α f g P hn x v
    cases x with
    | some a => exact ⟨fun _ h => (by cases h), fun h => (by cases h)⟩
    | none =>
      simp only [JField.put]
      refine ⟨fun x' h => ?_, fun h => ?_⟩
      · obtain ⟨a, h1, h2⟩ := bind_ok_iff.mp h
        rw [((hn.ok v a).mp h1).1]
        exact h2
      · rcases bind_panic_iff.mp h with h | ⟨a, _, h⟩
        · rw [hn.panic v h]; rfl
        · cases h
  have get : ∀ {α : Type} {f g : JField α}, f.opt = g.opt → ∀ x : Option α, f.get x = g.get x := by
    intro α f g ho x
    cases x with
    | some a => rfl
    | none => simp only [JField.get, JField.missing, ho]
  induction h with
  | one h1 h2 h3 h4 =>
    rename_i α f g P
    refine ⟨fun x y => x = y, rfl, ?_, ?_⟩
    · rintro x y k v (rfl : x = y)
      have key : ∀ x : Option α, (∀ x', (if k = g.name then f.put x v else .ok x) = .ok x' → ∃ y', (if k = g.name then g.put x v else .ok x) = .ok y' ∧ x' = y') ∧
          ((if k = g.name then f.put x v else .ok x) = .panic → (if k = g.name then g.put x v else .ok x) = .panic) := by
        intro x
        split
        · exact ⟨fun x' h => ⟨x', (put h3 x v).1 x' h, rfl⟩, (put h3 x v).2⟩
        · exact ⟨fun x' h => ⟨x', h, rfl⟩, fun h => by cases h⟩
      simp only [Shape.step, h1]
      exact key x
    · rintro x y (rfl : x = y) h
      exact (get h2 x).symm.trans h
  | cons h1 h2 h3 h4 _ ih =>
    rename_i α β f g s t P Q _
    obtain ⟨R, r0, r1, r2⟩ := ih
    refine ⟨fun x y => x.1 = y.1 ∧ R x.2 y.2, ⟨rfl, r0⟩, ?_, ?_⟩
    · rintro ⟨x, x2⟩ ⟨y, y2⟩ k v ⟨hx, hr⟩
      cases (show x = y from hx)
      simp only [Shape.step, h1]
      split
      · refine ⟨fun x' h => ?_, fun h => ?_⟩
        · obtain ⟨a, h5, h6⟩ := bind_ok_iff.mp h
          cases h6
          rw [(put h3 x v).1 a h5]
          exact ⟨_, rfl, rfl, hr⟩
        · rcases bind_panic_iff.mp h with h | ⟨a, _, h⟩
          · rw [(put h3 x v).2 h]; rfl
          · cases h
      · refine ⟨fun x' h => ?_, fun h => ?_⟩
        · obtain ⟨a, h5, h6⟩ := bind_ok_iff.mp h
          cases h6
          obtain ⟨y', h7, h8⟩ := (r1 x2 y2 k v hr).1 a h5
          rw [h7]
          exact ⟨_, rfl, rfl, h8⟩
        · rcases bind_panic_iff.mp h with h | ⟨a, _, h⟩
          · rw [(r1 x2 y2 k v hr).2 h]; rfl
          · cases h
    · rintro ⟨x, x2⟩ ⟨y, y2⟩ ⟨hx, hr⟩ h
      cases (show x = y from hx)
      simp only [Shape.finish, get h2] at h ⊢
      rcases bind_panic_iff.mp h with h | ⟨a, h5, h⟩
      · rw [h]; rfl
      · rcases bind_panic_iff.mp h with h | ⟨b, h6, h⟩
        · rw [h5, Res.ok_bind, r2 x2 y2 hr h]; rfl
        · cases h

theorem seq_panic {β : Type} {s t : Shape β} {P : β → Prop} (h : NarrowsShape s t P) : ∀ l : List Json, s.seq l = .panic → t.seq l = .panic := by
  have missing : ∀ {α : Type} {f g : JField α}, f.opt = g.opt → f.missing = g.missing := by
    intro α f g ho
    simp only [JField.missing, ho]
  induction h with
  | one h1 h2 h3 h4 =>
    intro l h
    cases l with
    | nil => simpa only [Shape.seq, missing h2] using h
    | cons j l =>
      simp only [Shape.seq] at h ⊢
      rcases bind_panic_iff.mp h with h | ⟨a, h5, h⟩
      · rw [h3.panic j h]; rfl
      · split at h <;> cases h
  | cons h1 h2 h3 h4 hs ih =>
    intro l h
    cases l with
    | nil =>
      simp only [Shape.seq, missing h2] at h ⊢
      rcases bind_panic_iff.mp h with h | ⟨a, h5, h⟩
      · rw [h]; rfl
      · rcases bind_panic_iff.mp h with h | ⟨b, h6, h⟩
        · rw [h5, Res.ok_bind, ih [] h]; rfl
        · cases h
    | cons j l =>
      simp only [Shape.seq] at h ⊢
      rcases bind_panic_iff.mp h with h | ⟨a, h5, h⟩
      · rw [h3.panic j h]; rfl
      · rcases bind_panic_iff.mp h with h | ⟨b, h6, h⟩
        · rw [((h3.ok j a).mp h5).1, Res.ok_bind, ih l h]; rfl
        · cases h

theorem panic {β : Type} {s t : Shape β} {P : β → Prop} (h : NarrowsShape s t P) (j : Json) (hj : s.de j = .panic) : t.de j = .panic := by
  cases j with
  | arr l => exact h.seq_panic l hj
  | obj m =>
    obtain ⟨R, r0, r1, r2⟩ := h.follows
    have run : ∀ (m : List (String × Json)) x y, R x y → (∀ x', s.run x m = .ok x' → ∃ y', t.run y m = .ok y' ∧ R x' y') ∧
        (s.run x m = .panic → t.run y m = .panic) := by
      intro m
      induction m with
      | nil => exact fun x y hr => ⟨fun x' h => ⟨y, rfl, by cases h; exact hr⟩, fun h => by cases h⟩
      | cons p m ih =>
        intro x y hr
        simp only [Shape.run]
        refine ⟨fun x' h => ?_, fun h => ?_⟩
        · obtain ⟨x1, h1, h2⟩ := bind_ok_iff.mp h
          obtain ⟨y1, h3, h4⟩ := (r1 x y p.1 p.2 hr).1 x1 h1
          obtain ⟨y', h5, h6⟩ := (ih x1 y1 h4).1 x' h2
          exact ⟨y', by rw [h3, Res.ok_bind, h5], h6⟩
        · rcases bind_panic_iff.mp h with h | ⟨x1, h1, h⟩
          · rw [(r1 x y p.1 p.2 hr).2 h]; rfl
          · obtain ⟨y1, h3, h4⟩ := (r1 x y p.1 p.2 hr).1 x1 h1
            rw [h3, Res.ok_bind]
            exact (ih x1 y1 h4).2 h
    simp only [Shape.de] at hj ⊢
    rcases bind_panic_iff.mp hj with hj | ⟨x, h1, hj⟩
    · rw [(run m _ _ r0).2 hj]; rfl
    · obtain ⟨y, h3, h4⟩ := (run m _ _ r0).1 x h1
      rw [h3, Res.ok_bind]
      exact r2 x y h4 hj
  | _ => cases hj

theorem de {β : Type} {s t : Shape β} {P : β → Prop} (h : NarrowsShape s t P) (hn : t.names.Nodup) (j : Json) (b : β) :
    s.de j = .ok b ↔ t.de j = .ok b ∧ P b := by
  cases j with
  | obj m => rw [Shape.de_obj s (h.names ▸ hn), Shape.de_obj t hn, h.reads]
  | arr l => rw [Shape.de_arr, Shape.de_arr, h.readsSeq]
  | _ => exact ⟨fun h => (by cases h), fun h => (by cases h.1)⟩

theorem ser {β : Type} {s t : Shape β} {P : β → Prop} (h : NarrowsShape s t P) (b : β) : s.ser b = t.ser b := by
  have one : ∀ {α : Type} {f g : JField α} {P : α → Prop}, f.name = g.name → f.opt = g.opt → Narrows f.type g.type P → ∀ a, f.ser a = g.ser a := by
    intro α f g P h1 h2 h3 a
    simp only [JField.ser, h1, h2, h3.ser]
  induction h with
  | one h1 h2 h3 _ => exact one h1 h2 h3 b
  | cons h1 h2 h3 _ _ ih => simp only [Shape.ser, one h1 h2 h3, ih]

end NarrowsShape

theorem narrows_record {α β : Type} {s t : Shape β} {fields : α → β} {build : β → α} {P : β → Prop} {Q : α → Prop} (h : NarrowsShape s t P)
    (hn : t.names.Nodup) (hb : ∀ b, P b ↔ Q (build b)) : Narrows (record s fields build) (record t fields build) Q where
  ok j a := by
    simp only [record, bind_ok_iff, Res.pure_eq, Res.ok.injEq, h.de hn]
    constructor
    · rintro ⟨b, ⟨h1, h2⟩, rfl⟩
      exact ⟨⟨b, h1, rfl⟩, (hb b).mp h2⟩
    · rintro ⟨⟨b, h1, rfl⟩, h2⟩
      exact ⟨b, ⟨h1, (hb b).mpr h2⟩, rfl⟩
  panic j hj := by
    simp only [record] at hj ⊢
    rcases bind_panic_iff.mp hj with hj | ⟨b, _, hj⟩
    · rw [h.panic j hj]; rfl
    · cases hj
  ser a := by simp only [record, h.ser]

theorem narrows_list {α : Type} {A B : Serde α} {P : α → Prop} (h : Narrows A B P) : Narrows (list A) (list B) fun l => ∀ a ∈ l, P a := by
  have key : ∀ (l : List Json) (r : List α), each A.de l = .ok r ↔ each B.de l = .ok r ∧ ∀ a ∈ r, P a := by
    intro l
    induction l with
    | nil =>
      intro r
      simp only [each, Res.ok.injEq]
      exact ⟨fun e => ⟨e, by subst e; simp⟩, fun e => e.1⟩
    | cons j l ih =>
      intro r
      simp only [each, bind_ok_iff, Res.pure_eq, Res.ok.injEq, h.ok j, ih]
      constructor
      · rintro ⟨a, ⟨h1, h2⟩, r, ⟨h3, h4⟩, rfl⟩
        exact ⟨⟨a, h1, r, h3, rfl⟩, by simpa using ⟨h2, h4⟩⟩
      · rintro ⟨⟨a, h1, r, h3, rfl⟩, h5⟩
        simp only [List.mem_cons, forall_eq_or_imp] at h5
        exact ⟨a, ⟨h1, h5.1⟩, r, ⟨h3, h5.2⟩, rfl⟩
  have pan : ∀ l : List Json, each A.de l = .panic → each B.de l = .panic := by
    intro l
    induction l with
    | nil => exact fun h => by cases h
    | cons j l ih =>
      intro hj
      simp only [each] at hj ⊢
      rcases bind_panic_iff.mp hj with hj | ⟨a, h1, hj⟩
      · rw [h.panic j hj]; rfl
      · rcases bind_panic_iff.mp hj with hj | ⟨b, h2, hj⟩
        · rw [((h.ok j a).mp h1).1, Res.ok_bind, ih hj]; rfl
        · cases hj
  constructor
  · intro j r
    cases j with
    | arr l => exact key l r
    | _ => exact ⟨fun h => (by cases h), fun h => (by cases h.1)⟩
  · intro j hj
    cases j with
    | arr l => exact pan l hj
    | _ => cases hj
  · intro l
    simp only [list, funext h.ser]

theorem narrows_req {α : Type} {A B : Serde α} {P : α → Prop} (h : Narrows A B P) (name : String) :
    Narrows (JField.req name A).type (JField.req name B).type P := h

theorem narrows_usize32 : Narrows usize32 u64 fun n => n.toNat < 2 ^ 32 where
  ok j a := by
    cases j with
    | nat n =>
      simp only [usize32, u64, Res.ok.injEq]
      by_cases hn : n.toNat < 2 ^ 32
      · rw [if_pos hn]
        exact ⟨fun e => ⟨by cases e; rfl, by cases e; exact hn⟩, fun e => by rw [e.1]⟩
      · rw [if_neg hn]
        exact ⟨fun e => (by cases e), fun e => absurd (e.1 ▸ e.2) hn⟩
    | _ => exact ⟨fun h => (by cases h), fun h => (by cases h.1)⟩
  panic j hj := by
    cases j with
    | nat n => simp only [usize32] at hj; split at hj <;> cases hj
    | _ => cases hj
  ser _ := rfl

theorem req_default {α : Type} {A : Serde α} {P : α → Prop} {name : String} (d : α) (skip : α → Bool) (h : (JField.req name A).opt = some (d, skip)) : P d := by
  cases h

theorem vec_default {α : Type} {A : Serde (List α)} {P : α → Prop} {name : String} (d : List α) (skip : List α → Bool)
    (h : (JField.vec name A).opt = some (d, skip)) : ∀ a ∈ d, P a := by
  cases h
  simp

theorem cons_req {α β : Type} {name : String} {A B : Serde α} {s t : Shape β} {P : α → Prop} {Q : β → Prop} (h : Narrows A B P)
    (hs : NarrowsShape s t Q) : NarrowsShape (.cons (.req name A) s) (.cons (.req name B) t) fun p => P p.1 ∧ Q p.2 :=
  .cons rfl rfl h req_default hs

theorem cons_vec {α β : Type} {name : String} {A B : Serde α} {s t : Shape β} {P : α → Prop} {Q : β → Prop} (h : Narrows A B P)
    (hs : NarrowsShape s t Q) : NarrowsShape (.cons (.vec name (list A)) s) (.cons (.vec name (list B)) t) fun p => (∀ a ∈ p.1, P a) ∧ Q p.2 :=
  .cons (f := .vec name (list A)) (g := .vec name (list B)) rfl rfl (narrows_list h) vec_default hs

theorem one_req {α : Type} {name : String} {A B : Serde α} {P : α → Prop} (h : Narrows A B P) : NarrowsShape (.one (.req name A)) (.one (.req name B)) P :=
  .one rfl rfl h req_default

theorem one_vec {α : Type} {name : String} {A B : Serde α} {P : α → Prop} (h : Narrows A B P) :
    NarrowsShape (.one (.vec name (list A))) (.one (.vec name (list B))) fun l => ∀ a ∈ l, P a :=
  .one rfl rfl (narrows_list h) vec_default

theorem narrows_coveredFields : Narrows (coveredFieldsOf usize32) coveredFields fun c => ∀ i ∈ c.indices, i.toNat < 2 ^ 32 := by
  have h := narrows_usize32
  refine narrows_record (cons_req (.refl _) (cons_vec h (cons_vec h (cons_vec h (cons_vec h (cons_vec h (cons_vec h (cons_vec h (cons_vec h
    (cons_vec h (one_vec h))))))))))) (by decide) ?_
  rintro ⟨a, b, c, d, e, f, g, h, i, j, k⟩
  simp only [Struct.build, V1.CoveredFields.indices, List.mem_append, or_imp, forall_and, true_and, and_assoc]

theorem narrows_transactionSignature :
    Narrows (transactionSignatureOf usize32) transactionSignature fun s => ∀ i ∈ s.coveredFields.indices, i.toNat < 2 ^ 32 := by
  refine narrows_record (cons_req (.refl _) (cons_req (.refl _) (cons_req (.refl _) (cons_req narrows_coveredFields (one_req (.refl _)))))) (by decide) ?_
  rintro ⟨a, b, c, d, e⟩
  simp only [Struct.build, true_and, and_true]

theorem narrows_v1Transaction (E : Env) : Narrows (v1TransactionOf usize32 E) (v1Transaction E) (V1.Transaction.IndicesBelow (2 ^ 32)) := by
  refine narrows_record (cons_vec (.refl _) (cons_vec (.refl _) (cons_vec (.refl _) (cons_vec (.refl _) (cons_vec (.refl _) (cons_vec (.refl _)
    (cons_vec (.refl _) (cons_vec (.refl _) (cons_vec (.refl _) (one_vec narrows_transactionSignature)))))))))) (by simp [Shape.names, JField.vec]) ?_
  rintro ⟨a, b, c, d, e, f, g, h, i, j⟩
  simp only [Struct.build, V1.Transaction.IndicesBelow, implies_true, true_and]

theorem narrows_block (E : Env) : Narrows (blockOf usize32 E) (block E) (Block.IndicesBelow (2 ^ 32)) := by
  refine narrows_record (cons_req (.refl _) (cons_req (.refl _) (cons_req (.refl _) (cons_req (.refl _)
    (one_req (narrows_list (narrows_v1Transaction E))))))) (by simp [Shape.names, JField.req]) ?_
  rintro ⟨a, b, c, d, e⟩
  simp only [Struct.build, Block.IndicesBelow, true_and]

/-! ## Texts -/

variable {E : Env}

instance : Tracks usize32 := tracks_whole rfl
instance : Tracks (coveredFieldsOf usize32) := by unfold coveredFieldsOf; infer_instance
instance : Tracks (transactionSignatureOf usize32) := by unfold transactionSignatureOf; infer_instance
instance : Tracks (v1TransactionOf usize32 E) := by unfold v1TransactionOf; infer_instance
instance : Tracks (blockOf usize32 E) := by unfold blockOf; infer_instance
instance : Sound usize32 := sound_whole rfl
instance : Sound (coveredFieldsOf usize32) := by unfold coveredFieldsOf; infer_instance
instance : Sound (transactionSignatureOf usize32) := by unfold transactionSignatureOf; infer_instance
instance : Sound (v1TransactionOf usize32 E) := by unfold v1TransactionOf; infer_instance
instance : Sound (blockOf usize32 E) := by unfold blockOf; infer_instance
instance : Complete usize32 := complete_scalar (fun _ h => by cases h) (fun _ _ h => by cases h) (fun _ _ h => by cases h)
instance : Complete (coveredFieldsOf usize32) := complete_record Struct.fields_build
instance : Complete (transactionSignatureOf usize32) := complete_record Struct.fields_build
instance : Complete (v1TransactionOf usize32 E) := complete_record Struct.fields_build
instance : Complete (blockOf usize32 E) := complete_record Struct.fields_build

theorem Narrows.ofText {α : Type} {A B : Serde α} {P : α → Prop} (h : Narrows A B P) [Complete A] [Sound A] [Complete B] [Sound B]
    (finite : List Char → Bool) (t : List Char) (a : α) : A.ofText finite t = .ok a ↔ B.ofText finite t = .ok a ∧ P a := by
  rw [ofText_iff, ofText_iff]
  constructor
  · rintro ⟨J, h1, h2, h3⟩
    exact ⟨⟨J, h1, h2, fun x => ((h.ok _ _).mp (h3 x)).1⟩, ((h.ok _ _).mp (h3 .null)).2⟩
  · rintro ⟨⟨J, h1, h2, h3⟩, hp⟩
    exact ⟨J, h1, h2, fun x => (h.ok _ _).mpr ⟨h3 x, hp⟩⟩

theorem Narrows.toText {α : Type} {A B : Serde α} {P : α → Prop} (h : Narrows A B P) (a : α) : A.toText a = B.toText a := by
  simp only [Serde.toText, h.ser]

end Serde

end Verif
