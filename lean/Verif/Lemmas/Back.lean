import Verif.Lemmas.Reads
import Verif.Spec.Binary

/-!
# Exactly which values survive writing and reading
-/

namespace Verif

open Serde

/-- A field survives: it is skipped and the default, or its value survives. -/
def JField.Back {α : Type} (f : JField α) (a : α) : Prop :=
  match f.opt with
  | none => f.type.Back a
  | some (d, skip) => if skip a then d = a else f.type.Back a

/-- All fields survive. -/
def Shape.Back : {β : Type} → Shape β → β → Prop
  | _, .one f, a => f.Back a
  | _, .cons f s, p => f.Back p.1 ∧ s.Back p.2

theorem Serde.Gives.back {α : Type} {s : Serde α} {a : α} (h : s.Gives a) : s.Back a := by
  obtain ⟨j, h1, h2, h3⟩ := h
  exact ⟨j, h1, h3 j h2 rfl⟩

theorem JField.back_req {α : Type} (n : String) (t : Serde α) (a : α) : (JField.req n t).Back a ↔ t.Back a := Iff.rfl

theorem JField.back_vec {α : Type} (n : String) (t : Serde (List α)) (l : List α) : (JField.vec n t).Back l ↔ l = [] ∨ t.Back l := by
  cases l <;> simp [JField.vec, JField.Back]

theorem JField.back_opt {α : Type} (n : String) (t : Serde (Option α)) (o : Option α) : (JField.opt? n t).Back o ↔ o = none ∨ t.Back o := by
  cases o <;> simp [JField.opt?, JField.Back]

/-- What a field writes, and what is needed to read it. -/
theorem JField.back_iff {α : Type} (f : JField α) (a : α) :
    f.Back a ↔ ∃ m, f.ser a = .ok m ∧ (∀ p ∈ m, p.1 = f.name) ∧ f.Reads m a := by
  have main : f.type.Back a ↔ ∃ m, (do let j ← f.type.ser a; pure [(f.name, j)] : Res (List (String × Json))) = .ok m ∧ (∀ p ∈ m, p.1 = f.name) ∧
      ∃ v, valuesOf f.name m = [v] ∧ f.type.de v = .ok a := by
    constructor
    · rintro ⟨j, h1, h2⟩
      exact ⟨[(f.name, j)], by simp [h1], by simp, j, by simp [Json.valuesOf_cons, Json.valuesOf_nil (m := [])], h2⟩
    · rintro ⟨m, h1, -, v, h2, h3⟩
      obtain ⟨j, h4, h5⟩ := bind_ok_iff.mp h1
      cases h5
      simp [Json.valuesOf_cons, Json.valuesOf_nil (m := [])] at h2
      exact ⟨j, h4, h2 ▸ h3⟩
  unfold JField.Back JField.ser
  split
  · rename_i ho
    rw [main]
    simp only [ho]
    constructor
    · rintro ⟨m, h1, h2, h3⟩
      exact ⟨m, h1, h2, .inl h3⟩
    · rintro ⟨m, h1, h2, h3⟩
      rcases h3 with h3 | ⟨-, skip, h3⟩
      · exact ⟨m, h1, h2, h3⟩
      · rw [ho] at h3; cases h3
  · rename_i d skip ho
    simp only [ho]
    split
    · constructor
      · rintro rfl
        exact ⟨[], rfl, by simp, .inr ⟨rfl, skip, ho⟩⟩
      · rintro ⟨m, h1, h2, h3⟩
        cases h1
        rcases h3 with ⟨v, h3, -⟩ | ⟨-, skip', h3⟩
        · cases h3
        · rw [ho] at h3
          cases h3
          rfl
    · rw [main]
      constructor
      · rintro ⟨m, h1, h2, h3⟩
        exact ⟨m, h1, h2, .inl h3⟩
      · rintro ⟨m, h1, h2, h3⟩
        rcases h3 with h3 | ⟨h3, -⟩
        · exact ⟨m, h1, h2, h3⟩
        · obtain ⟨j, h4, h5⟩ := bind_ok_iff.mp h1
          cases h5
          simp [Json.valuesOf_cons] at h3

theorem JField.reads_congr {α : Type} (f : JField α) {m m' : List (String × Json)} (h : valuesOf f.name m = valuesOf f.name m') (a : α) :
    f.Reads m a ↔ f.Reads m' a := by unfold JField.Reads; rw [h]

theorem Shape.reads_congr {β : Type} (s : Shape β) {m m' : List (String × Json)} (h : ∀ k ∈ s.names, valuesOf k m = valuesOf k m') (b : β) :
    s.Reads m b ↔ s.Reads m' b := by
  induction s with
  | one f => exact f.reads_congr (h _ (by simp [names])) b
  | cons f s ih =>
    show _ ∧ _ ↔ _ ∧ _
    rw [f.reads_congr (h _ (by simp [names])), ih fun k hk => h k (by simp [names, hk])]

theorem JField.ser_names {α : Type} {f : JField α} {a : α} {m : List (String × Json)} (h : f.ser a = .ok m) : ∀ p ∈ m, p.1 = f.name := by
  unfold JField.ser at h
  split at h
  · split at h
    · cases h; simp
    · obtain ⟨j, -, h⟩ := bind_ok_iff.mp h
      cases h; simp
  · obtain ⟨j, -, h⟩ := bind_ok_iff.mp h
    cases h; simp

theorem Shape.ser_names {β : Type} {s : Shape β} {b : β} {m : List (String × Json)} (h : s.ser b = .ok m) : ∀ p ∈ m, p.1 ∈ s.names := by
  induction s generalizing m with
  | one f => intro p hp; simp [names, JField.ser_names h p hp]
  | cons f s ih =>
    obtain ⟨x, h1, h⟩ := bind_ok_iff.mp h
    obtain ⟨y, h2, h⟩ := bind_ok_iff.mp h
    cases h
    intro p hp
    rcases List.mem_append.mp hp with hp | hp
    · simp [names, JField.ser_names h1 p hp]
    · simp [names, ih h2 p hp]

theorem Shape.back_iff {β : Type} (s : Shape β) (hn : s.names.Nodup) (b : β) : s.Back b ↔ ∃ m, s.ser b = .ok m ∧ s.Reads m b := by
  induction s with
  | one f =>
    show f.Back b ↔ _
    rw [f.back_iff]
    constructor
    · rintro ⟨m, h1, -, h3⟩
      exact ⟨m, h1, h3⟩
    · rintro ⟨m, h1, h3⟩
      exact ⟨m, h1, JField.ser_names h1, h3⟩
  | cons f s ih =>
    obtain ⟨b1, b2⟩ := b
    simp only [names, List.nodup_cons] at hn
    show f.Back b1 ∧ s.Back b2 ↔ _
    rw [f.back_iff, ih hn.2]
    have key : ∀ m1 m2, f.ser b1 = .ok m1 → s.ser b2 = .ok m2 → ((f.Reads (m1 ++ m2) b1 ↔ f.Reads m1 b1) ∧ (s.Reads (m1 ++ m2) b2 ↔ s.Reads m2 b2)) := by
      intro m1 m2 h1 h2
      constructor
      · apply f.reads_congr
        rw [Json.valuesOf_append, Json.valuesOf_nil (m := m2), List.append_nil]
        exact fun p hp e => hn.1 (e ▸ Shape.ser_names h2 p hp)
      · apply s.reads_congr
        intro k hk
        rw [Json.valuesOf_append, Json.valuesOf_nil (m := m1), List.nil_append]
        exact fun p hp e => hn.1 (by rw [← JField.ser_names h1 p hp, e]; exact hk)
    constructor
    · rintro ⟨⟨m1, h1, -, h3⟩, m2, h4, h5⟩
      exact ⟨m1 ++ m2, by simp [Shape.ser, h1, h4], ((key m1 m2 h1 h4).1).mpr h3, ((key m1 m2 h1 h4).2).mpr h5⟩
    · rintro ⟨m, h1, h3, h4⟩
      obtain ⟨m1, h6, h⟩ := bind_ok_iff.mp h1
      obtain ⟨m2, h2, h⟩ := bind_ok_iff.mp h
      cases h
      exact ⟨⟨m1, h6, JField.ser_names h6, ((key m1 m2 h6 h2).1).mp h3⟩, m2, h2, ((key m1 m2 h6 h2).2).mp h4⟩

namespace Serde

theorem back_record {α β : Type} {s : Shape β} {fields : α → β} {build : β → α} (hn : s.names.Nodup) (hb : ∀ a, build (fields a) = a)
    (hf : ∀ b, fields (build b) = b) (a : α) : (record s fields build).Back a ↔ s.Back (fields a) := by
  rw [Shape.back_iff s hn]
  constructor
  · rintro ⟨j, h1, h2⟩
    obtain ⟨m, h3, h⟩ := bind_ok_iff.mp h1
    cases h
    obtain ⟨b, h2, h⟩ := bind_ok_iff.mp h2
    have : b = fields a := by rw [← hf b]; exact congrArg fields (Res.ok.inj h)
    subst this
    exact ⟨m, h3, (Shape.de_obj s hn m _).mp h2⟩
  · rintro ⟨m, h1, h2⟩
    exact ⟨.obj m, by simp [record, h1], by simp [record, (Shape.de_obj s hn m _).mpr h2, hb]⟩

theorem back_text {α : Type} (write : α → Res String) (read : String → Res α) (a : α) : (text write read).Back a ↔ ∃ s, write a = .ok s ∧ read s = .ok a := by
  constructor
  · rintro ⟨j, h1, h2⟩
    obtain ⟨s, h3, h⟩ := bind_ok_iff.mp h1
    cases h
    exact ⟨s, h3, h2⟩
  · rintro ⟨s, h1, h2⟩
    exact ⟨.str s, by simp [text, h1], h2⟩

theorem back_each {α : Type} (s : Serde α) (l : List α) : (∃ js, each s.ser l = .ok js ∧ each s.de js = .ok l) ↔ ∀ a ∈ l, s.Back a := by
  induction l with
  | nil => exact ⟨fun _ => by simp, fun _ => ⟨[], rfl, rfl⟩⟩
  | cons a l ih =>
    simp only [List.mem_cons, forall_eq_or_imp]
    rw [← ih]
    constructor
    · rintro ⟨js, h1, h2⟩
      obtain ⟨j, h3, h⟩ := bind_ok_iff.mp h1
      obtain ⟨js', h4, h⟩ := bind_ok_iff.mp h
      cases h
      obtain ⟨b, h5, h⟩ := bind_ok_iff.mp h2
      obtain ⟨l', h6, h⟩ := bind_ok_iff.mp h
      cases h
      exact ⟨⟨j, h3, h5⟩, js', h4, h6⟩
    · rintro ⟨⟨j, h1, h2⟩, js, h3, h4⟩
      exact ⟨j :: js, by simp [each, h1, h3], by simp [each, h2, h4]⟩

theorem back_list {α : Type} (s : Serde α) (l : List α) : (list s).Back l ↔ ∀ a ∈ l, s.Back a := by
  rw [← back_each]
  constructor
  · rintro ⟨j, h1, h2⟩
    obtain ⟨js, h3, h⟩ := bind_ok_iff.mp h1
    cases h
    exact ⟨js, h3, h2⟩
  · rintro ⟨js, h1, h2⟩
    exact ⟨.arr js, by simp [list, h1], h2⟩

theorem back_vec {α : Type} (n : String) (s : Serde α) (l : List α) : (JField.vec n (list s)).Back l ↔ ∀ a ∈ l, s.Back a := by
  rw [JField.back_vec, back_list]
  constructor
  · rintro (rfl | h)
    · simp
    · exact h
  · exact .inr

end Serde

end Verif
