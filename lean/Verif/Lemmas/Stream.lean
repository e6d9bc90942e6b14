import Verif.Lemmas.Skip
import Verif.Lemmas.Reads

/-!
# Reading values from texts

On the text of a document the readers of texts do what the readers of documents do.
-/

namespace Verif

open Json Json.Grammar

namespace Json

theorem depthList_mem {l : List Json} {n : Nat} (h : depthList l ≤ n) : ∀ j ∈ l, j.depth ≤ n := by
  induction l with
  | nil => simp
  | cons j l ih =>
    simp only [depthList] at h
    simp only [List.mem_cons, forall_eq_or_imp]
    exact ⟨by omega, ih (by omega)⟩

theorem number_kind {finite : List Char → Bool} {s : List Char} {j : Json} (h : Number finite s j) : (∃ n, j = .nat n) ∨ (∃ k, j = .neg k) ∨ j = .float := by
  cases h with
  | nat n => exact .inl ⟨n, rfl⟩
  | neg k => exact .inr (.inl ⟨k, rfl⟩)
  | float => exact .inr (.inr rfl)

/-- What follows an element of an array, or the opening bracket, up to the closing bracket. -/
def Remainder (finite : List Char → Bool) (first : Bool) (u : List Char) (l : List Json) : Prop :=
  (Space u ∧ l = []) ∨ (if first then Elements finite u l else ∃ w t, Space w ∧ u = w ++ ',' :: t ∧ Elements finite t l)

theorem rest_elements {finite : List Char → Bool} {u : List Char} {j : Json} {l : List Json} (h : Elements finite u (j :: l)) :
    ∃ w s u', Space w ∧ u = w ++ (s ++ u') ∧ Value finite s j ∧ Remainder finite false u' l := by
  cases h with
  | one hw hv hw' => exact ⟨_, _, _, hw, rfl, hv, .inl ⟨hw', rfl⟩⟩
  | cons hw hv hw' ht => exact ⟨_, _, _, hw, rfl, hv, .inr (by simpa using ⟨_, hw', _, rfl, ht⟩)⟩

theorem elements_ne {finite : List Char → Bool} {u : List Char} (h : Elements finite u []) : False := by cases h

theorem rest_stops {finite : List Char → Bool} {u : List Char} {l : List Json} (h : Remainder finite false u l) (r : List Char) : Stops (u ++ ']' :: r) := by
  rcases h with ⟨h, -⟩ | h
  · exact stops_space h (stops_cons (by decide) r)
  · simp only [Bool.false_eq_true, if_false] at h
    obtain ⟨w, t, hw, rfl, -⟩ := h
    rw [List.append_assoc]
    exact stops_space hw (stops_cons (by decide) _)

theorem another_nil {finite : List Char → Bool} {first : Bool} {u : List Char} (h : Remainder finite first u []) (r : List Char) :
    Shape.another first (u ++ ']' :: r) = .ok (false, r) := by
  have hu : Space u := by
    rcases h with ⟨h, -⟩ | h
    · exact h
    · cases first
      · simp only [Bool.false_eq_true, if_false] at h
        obtain ⟨w, t, -, -, h⟩ := h
        exact (elements_ne h).elim
      · exact (elements_ne h).elim
  cases first with
  | true => simp [Shape.another, skip_append hu, skip_cons (c := ']') (by decide)]
  | false => simp [Shape.another, readSeparator_close (close := ']') (by decide) hu, ofOption]

theorem another_cons {finite : List Char → Bool} {first : Bool} {u : List Char} {j : Json} {l : List Json} (h : Remainder finite first u (j :: l)) :
    ∃ w s u', Space w ∧ Value finite s j ∧ Remainder finite false u' l ∧
      ∀ r, Shape.another first (u ++ ']' :: r) = .ok (true, w ++ (s ++ (u' ++ ']' :: r))) := by
  rcases h with ⟨-, h⟩ | h
  · cases h
  cases first with
  | true =>
    simp only [if_true] at h
    obtain ⟨w, s, u', hw, rfl, hv, hr⟩ := rest_elements h
    refine ⟨w, s, u', hw, hv, hr, fun r => ?_⟩
    have := elements_head h (']' :: r)
    simp only [Shape.another, if_true, if_neg this]
    simp
  | false =>
    simp only [Bool.false_eq_true, if_false] at h
    obtain ⟨w0, t, hw0, rfl, h⟩ := h
    obtain ⟨w, s, u', hw, rfl, hv, hr⟩ := rest_elements h
    refine ⟨w, s, u', hw, hv, hr, fun r => ?_⟩
    simp only [Shape.another, Bool.false_eq_true, if_false, List.append_assoc, List.cons_append, readSeparator_comma hw0, ofOption]

end Json

namespace Serde

/-- On a text of a document, nested at most as deep as is left, the reader does what the reader of documents does. -/
class Tracks {α : Type} (s : Serde α) : Prop where
  tracks : ∀ (finite : List Char → Bool) (d : Nat) (w t : List Char) (j : Json) (r : List Char), Space w → Value finite t j → j.depth ≤ d → Stops r →
    s.take finite d (w ++ (t ++ r)) = (do let a ← s.de j; pure (a, r))

/-- The same for the fields of a struct. -/
class TracksShape {β : Type} (s : Shape β) : Prop where
  step : ∀ (finite : List Char → Bool) (d : Nat) (x : s.Slots) (k : String) (w t : List Char) (v : Json) (r : List Char), Space w → Value finite t v →
    v.depth ≤ d → Stops r → s.takeStep finite d x k (w ++ (t ++ r)) = (do let y ← s.step x k v; pure (y, r))
  seq : ∀ (finite : List Char → Bool) (d : Nat) (first : Bool) (u : List Char) (l : List Json) (r : List Char), Remainder finite first u l →
    depthList l ≤ d → s.takeSeq finite d first (u ++ ']' :: r) = (do let b ← s.seq l; pure (b, r))

theorem whole_tracks {α : Type} (de : Json → Res α) (finite : List Char → Bool) (d : Nat) (w t : List Char) (j : Json) (r : List Char) (hw : Space w)
    (ht : Value finite t j) (hd : j.depth ≤ d) (hr : Stops r) : Take.whole de finite d (w ++ (t ++ r)) = (do let a ← de j; pure (a, r)) := by
  rw [Take.whole, readValue_space hw, value_complete ht _ d r (by simp; omega) hd hr]

theorem tracks_whole {α : Type} {s : Serde α} (h : s.take = Take.whole s.de) : Tracks s := ⟨fun finite d w t j r hw ht hd hr => by
  rw [h]; exact whole_tracks s.de finite d w t j r hw ht hd hr⟩

theorem take_put {α : Type} {f : JField α} (h : Tracks f.type) (finite : List Char → Bool) (d : Nat) (x : Option α) (w t : List Char) (v : Json) (r : List Char)
    (hw : Space w) (ht : Value finite t v) (hd : v.depth ≤ d) (hr : Stops r) :
    f.takePut finite d x (w ++ (t ++ r)) = (do let y ← f.put x v; pure (y, r)) := by
  cases x with
  | some a => rfl
  | none =>
    simp only [JField.takePut, JField.put, h.tracks finite d w t v r hw ht hd hr]
    cases f.type.de v <;> rfl

theorem take_skip (w t r : List Char) (hw : Space w) (ht : AnyValue t) (hr : Stops r) :
    skipValue ((w ++ (t ++ r)).length + 1) (w ++ (t ++ r)) = some r := by
  rw [skipValue_space hw, skipValue_complete ht _ r (by simp; omega) hr]

instance {α : Type} {f : JField α} [h : Tracks f.type] : TracksShape (.one f) where
  step finite d x k w t v r hw ht hd hr := by
    change Option α at x
    change (if k = f.name then f.takePut finite d x (w ++ (t ++ r)) else (do
      let t ← ofOption (skipValue ((w ++ (t ++ r)).length + 1) (w ++ (t ++ r)))
      pure (x, t)) : Res (Option α × List Char)) = (do let y ← (if k = f.name then f.put x v else .ok x); pure (y, r))
    by_cases hk : k = f.name
    · simp only [if_pos hk]
      exact take_put h finite d x w t v r hw ht hd hr
    · simp only [if_neg hk, take_skip w t r hw (anyValue_of ht) hr, ofOption]
      rfl
  seq finite d first u l r hu hd := by
    cases l with
    | nil =>
      simp only [Shape.takeSeq, Shape.seq, another_nil hu, Res.ok_bind]
      simp
    | cons j l =>
      obtain ⟨w, s, u', hw, hv, hr, e⟩ := another_cons hu
      simp only [depthList] at hd
      simp only [Shape.takeSeq, Shape.seq, e, Res.ok_bind, if_true, h.tracks finite d w s j _ hw hv (by omega) (rest_stops hr r)]
      cases f.type.de j with
      | err e => rfl
      | panic => rfl
      | ok a =>
        simp only [Res.ok_bind, Res.pure_eq]
        cases l with
        | nil => simp [another_nil hr]
        | cons i l =>
          obtain ⟨w1, s1, u1, -, -, -, e1⟩ := another_cons hr
          simp [e1, Res.fail]

instance {α β : Type} {f : JField α} {s : Shape β} [h : Tracks f.type] [hs : TracksShape s] : TracksShape (.cons f s) where
  step finite d x k w t v r hw ht hd hr := by
    simp only [Shape.takeStep, Shape.step]
    by_cases hk : k = f.name
    · simp only [if_pos hk]
      rw [take_put h finite d x.1 w t v r hw ht hd hr]
      cases f.put x.1 v <;> rfl
    · simp only [if_neg hk]
      rw [hs.step finite d x.2 k w t v r hw ht hd hr]
      cases s.step x.2 k v <;> rfl
  seq finite d first u l r hu hd := by
    cases l with
    | nil =>
      simp only [Shape.takeSeq, Shape.seq, another_nil hu, Res.ok_bind]
      cases f.missing with
      | err e => rfl
      | panic => rfl
      | ok a =>
        simp only [Res.ok_bind, Bool.false_eq_true, if_false]
        cases s.seq [] <;> rfl
    | cons j l =>
      obtain ⟨w, t, u', hw, hv, hr, e⟩ := another_cons hu
      simp only [depthList] at hd
      simp only [Shape.takeSeq, Shape.seq, e, Res.ok_bind, if_true, h.tracks finite d w t j _ hw hv (by omega) (rest_stops hr r)]
      cases f.type.de j with
      | err e => rfl
      | panic => rfl
      | ok a =>
        simp only [Res.ok_bind, Res.pure_eq, hs.seq finite d false u' l r hr (by omega)]
        cases s.seq l <;> rfl

/-- The loop of a `visit_map` on a document. -/
def runMembers {X : Type} (step : X → String → Json → Res X) : X → List (String × Json) → Res X
  | x, [] => .ok x
  | x, (k, v) :: m => do
    let y ← step x k v
    runMembers step y m

theorem run_eq {β : Type} (s : Shape β) (x : s.Slots) (m : List (String × Json)) : s.run x m = runMembers s.step x m := by
  induction m generalizing x with
  | nil => rfl
  | cons p m ih => simp only [Shape.run, runMembers, ih]

/-- A round of the loop. -/
def TracksStep {X : Type} (finite : List Char → Bool) (d : Nat) (take : X → String → List Char → Res (X × List Char)) (step : X → String → Json → Res X) : Prop :=
  ∀ (x : X) (k : String) (w t : List Char) (v : Json) (r : List Char), Space w → Value finite t v → v.depth ≤ d → Stops r →
    take x k (w ++ (t ++ r)) = (do let y ← step x k v; pure (y, r))

/-- The loop over the members. -/
theorem takeMembers_tracks {X : Type} {take : X → String → List Char → Res (X × List Char)} {step : X → String → Json → Res X} {finite : List Char → Bool} {d : Nat}
    (h : TracksStep finite d take step) :
    ∀ (u : List Char) (m : List (String × Json)), Members finite u m → depthMembers m ≤ d → ∀ (fuel : Nat) (x : X) (r : List Char), u.length ≤ fuel →
      takeMembers take fuel x (u ++ '}' :: r) = (do let y ← runMembers step x m; pure (y, r))
  | _, _, .one (w := w) (k := k) (w1 := w1) (w2 := w2) (s := t) (w' := w') (x := key) (j := v) hw hk hw1 hw2 hv hw', hd => by
    intro fuel x r hf
    simp only [List.length_append, List.length_cons] at hf
    obtain ⟨f, rfl⟩ : ∃ f, fuel = f + 1 := ⟨fuel - 1, by omega⟩
    simp only [depthMembers] at hd
    have e1 : readKey ((w ++ (k ++ (w1 ++ ':' :: (w2 ++ (t ++ w')))) ++ '}' :: r).length + 1) (w ++ (k ++ (w1 ++ ':' :: (w2 ++ (t ++ (w' ++ '}' :: r)))))) =
        some (key, w2 ++ (t ++ (w' ++ '}' :: r))) := readKey_complete hw hk hw1 _ _ (by simp; omega)
    have e2 := h x key w2 t v (w' ++ '}' :: r) hw2 hv (by omega) (stops_space hw' (stops_cons (by decide) r))
    rw [takeMembers]
    simp only [List.append_assoc, List.cons_append] at e1 ⊢
    simp only [e1, ofOption, Res.ok_bind, e2, runMembers]
    cases step x key v with
    | err e => rfl
    | panic => rfl
    | ok y => simp [readSeparator_close (close := '}') (by decide) hw']
  | _, _, .cons (w := w) (k := k) (w1 := w1) (w2 := w2) (s := t) (w' := w') (t := t') (x := key) (j := v) (m := m) hw hk hw1 hw2 hv hw' ht, hd => by
    intro fuel x r hf
    simp only [List.length_append, List.length_cons] at hf
    obtain ⟨f, rfl⟩ : ∃ f, fuel = f + 1 := ⟨fuel - 1, by omega⟩
    simp only [depthMembers] at hd
    have e1 : readKey ((w ++ (k ++ (w1 ++ ':' :: (w2 ++ (t ++ (w' ++ ',' :: t'))))) ++ '}' :: r).length + 1)
        (w ++ (k ++ (w1 ++ ':' :: (w2 ++ (t ++ (w' ++ ',' :: (t' ++ '}' :: r))))))) =
        some (key, w2 ++ (t ++ (w' ++ ',' :: (t' ++ '}' :: r)))) := readKey_complete hw hk hw1 _ _ (by simp; omega)
    have e2 := h x key w2 t v (w' ++ ',' :: (t' ++ '}' :: r)) hw2 hv (by omega) (stops_space hw' (stops_cons (by decide) _))
    rw [takeMembers]
    simp only [List.append_assoc, List.cons_append] at e1 ⊢
    simp only [e1, ofOption, Res.ok_bind, e2, runMembers]
    cases step x key v with
    | err e => rfl
    | panic => rfl
    | ok y =>
      simp only [Res.ok_bind, Res.pure_eq, readSeparator_comma hw', if_true]
      exact takeMembers_tracks h t' m ht (by omega) f y r (by omega)

theorem takeObject_nil {X : Type} (take : X → String → List Char → Res (X × List Char)) (x : X) {v : List Char} (hv : Space v) (r : List Char) :
    takeObject take x (v ++ '}' :: r) = .ok (x, r) := by
  have e : skip (v ++ '}' :: r) = '}' :: r := by rw [skip_append hv, skip_cons (by decide)]
  simp [takeObject, e]

theorem takeObject_tracks {X : Type} {take : X → String → List Char → Res (X × List Char)} {step : X → String → Json → Res X} {finite : List Char → Bool} {d : Nat}
    (h : TracksStep finite d take step) {u : List Char} {m : List (String × Json)} (hu : Members finite u m) (hd : depthMembers m ≤ d) (x : X) (r : List Char) :
    takeObject take x (u ++ '}' :: r) = (do let y ← runMembers step x m; pure (y, r)) := by
  rw [takeObject, if_neg (members_head hu ('}' :: r))]
  exact takeMembers_tracks h u m hu hd _ x r (by simp; omega)

theorem take_tracks {β : Type} {s : Shape β} (h : TracksShape s) (finite : List Char → Bool) (d : Nat) (w t : List Char) (j : Json) (r : List Char) (hw : Space w)
    (ht : Value finite t j) (hd : j.depth ≤ d) : s.take finite d (w ++ (t ++ r)) = (do let b ← s.de j; pure (b, r)) := by
  unfold Shape.take
  rw [skip_append hw]
  match ht with
  | .null => rfl
  | .true => rfl
  | .false => rfl
  | .number hn =>
    obtain ⟨c, t', rfl, hc⟩ := number_head hn
    obtain ⟨h1, h2, h3, h4, h5, h6, h7, -⟩ := number_char hc
    rw [List.cons_append, skip_cons h1]
    simp only [if_neg h6, if_neg h7]
    rcases number_kind hn with ⟨n, rfl⟩ | ⟨k, rfl⟩ | rfl <;> rfl
  | .text hx =>
    obtain ⟨t', rfl, -⟩ := hx
    rw [List.cons_append, skip_cons (by decide)]
    rfl
  | .noElements (w := v) hv =>
    simp only [depth, depthList] at hd
    rw [List.cons_append, skip_cons (by decide)]
    have := h.seq finite (d - 1) true v [] r (.inl ⟨hv, rfl⟩) (by simp [depthList])
    simp only [List.append_assoc, List.cons_append, List.nil_append, Shape.de]
    rw [if_neg (by decide), if_pos trivial, if_neg (by omega), this]
  | .elements (s := v) (l := l) hv =>
    simp only [depth] at hd
    rw [List.cons_append, skip_cons (by decide)]
    have := h.seq finite (d - 1) true v l r (.inr hv) (by omega)
    simp only [List.append_assoc, List.cons_append, List.nil_append, Shape.de]
    rw [if_neg (by decide), if_pos trivial, if_neg (by omega), this]
  | .noMembers (w := v) hv =>
    simp only [depth, depthMembers] at hd
    rw [List.cons_append, skip_cons (by decide)]
    simp only [List.append_assoc, List.cons_append, List.nil_append, Shape.de, Shape.run]
    rw [if_pos trivial, if_neg (by omega), takeObject_nil _ _ hv]
    rfl
  | .members (s := v) (m := m) hv =>
    simp only [depth] at hd
    rw [List.cons_append, skip_cons (by decide)]
    have := takeObject_tracks (h.step finite (d - 1)) hv (by omega) s.start r
    simp only [List.append_assoc, List.cons_append, List.nil_append, Shape.de]
    rw [if_pos trivial, if_neg (by omega), this, run_eq]
    cases runMembers s.step s.start m <;> rfl

instance {α β : Type} {s : Shape β} [h : TracksShape s] (fields : α → β) (build : β → α) : Tracks (record s fields build) where
  tracks finite d w t j r hw ht hd _ := by
    simp only [record, take_tracks h finite d w t j r hw ht hd]
    cases s.de j <;> rfl

theorem takeEach_tracks {α : Type} {s : Serde α} (h : Tracks s) (finite : List Char → Bool) (d : Nat) :
    ∀ (u : List Char) (l : List Json), Elements finite u l → depthList l ≤ d → ∀ (fuel : Nat) (r : List Char), u.length ≤ fuel →
      takeEach s.take finite fuel d (u ++ ']' :: r) = (do let y ← each s.de l; pure (y, r))
  | _, _, .one (w := w) (s := t) (w' := w') (j := v) hw hv hw', hd => by
    intro fuel r hf
    obtain ⟨c, t', rfl, -⟩ := value_head hv
    simp only [List.length_append, List.length_cons] at hf
    obtain ⟨f, rfl⟩ : ∃ f, fuel = f + 1 := ⟨fuel - 1, by omega⟩
    simp only [depthList] at hd
    have e2 := h.tracks finite d w (c :: t') v (w' ++ ']' :: r) hw hv (by omega) (stops_space hw' (stops_cons (by decide) r))
    rw [takeEach]
    simp only [List.append_assoc, e2, each]
    cases s.de v with
    | err e => rfl
    | panic => rfl
    | ok y => simp [readSeparator_close (close := ']') (by decide) hw', ofOption]
  | _, _, .cons (w := w) (s := t) (w' := w') (t := t') (j := v) (l := l) hw hv hw' ht, hd => by
    intro fuel r hf
    simp only [List.length_append, List.length_cons] at hf
    obtain ⟨f, rfl⟩ : ∃ f, fuel = f + 1 := ⟨fuel - 1, by omega⟩
    simp only [depthList] at hd
    have e2 := h.tracks finite d w t v (w' ++ ',' :: (t' ++ ']' :: r)) hw hv (by omega) (stops_space hw' (stops_cons (by decide) _))
    rw [takeEach]
    simp only [List.append_assoc, List.cons_append, e2, each]
    cases s.de v with
    | err e => rfl
    | panic => rfl
    | ok y =>
      simp only [Res.ok_bind, Res.pure_eq, readSeparator_comma hw', if_true, ofOption, takeEach_tracks h finite d t' l ht (by omega) f r (by omega)]
      cases each s.de l <;> rfl

instance {α : Type} {s : Serde α} [h : Tracks s] : Tracks (list s) where
  tracks finite d w t j r hw ht hd hr := by
    simp only [list]
    rw [skip_append hw]
    match ht with
    | .null => rfl
    | .true => rfl
    | .false => rfl
    | .number hn =>
      obtain ⟨c, t', rfl, hc⟩ := number_head hn
      obtain ⟨h1, h2, h3, h4, h5, h6, h7, -⟩ := number_char hc
      rw [List.cons_append, skip_cons h1]
      simp only [if_neg h6]
      rcases number_kind hn with ⟨n, rfl⟩ | ⟨k, rfl⟩ | rfl <;> rfl
    | .text hx =>
      obtain ⟨t', rfl, -⟩ := hx
      rw [List.cons_append, skip_cons (by decide)]
      rfl
    | .noElements (w := v) hv =>
      simp only [depth, depthList] at hd
      rw [List.cons_append, skip_cons (by decide)]
      have e : skip (v ++ ']' :: r) = ']' :: r := by rw [skip_append hv, skip_cons (by decide)]
      simp only [List.append_assoc, List.cons_append, List.nil_append, each]
      rw [if_pos trivial, if_neg (by omega), e]
      simp
    | .elements (s := v) (l := l) hv =>
      simp only [depth] at hd
      rw [List.cons_append, skip_cons (by decide)]
      have e := elements_head hv (']' :: r)
      have := takeEach_tracks h finite (d - 1) v l hv (by omega) ((v ++ ']' :: r).length + 1) r (by simp; omega)
      simp only [List.append_assoc, List.cons_append, List.nil_append]
      rw [if_pos trivial, if_neg (by omega), if_neg e, this]
    | .noMembers (w := v) hv =>
      rw [List.cons_append, skip_cons (by decide)]
      rfl
    | .members (s := v) (m := m) hv =>
      rw [List.cons_append, skip_cons (by decide)]
      rfl

instance {α : Type} {s : Serde α} [h : Tracks s] : Tracks (option s) where
  tracks finite d w t j r hw ht hd hr := by
    simp only [option]
    have opt : ∀ X : Res α, (do let x ← (do let a ← X; pure (a, r)); pure (some x.1, x.2)) = (do let y ← (do let a ← X; pure (some a)); pure (y, r)) := by
      intro X; cases X <;> rfl
    have key := h.tracks finite d w t j r hw ht hd hr
    rw [skip_append hw]
    match ht with
    | .null => rfl
    | .true =>
      rw [if_neg (by simp [skip_cons (c := 't') (by decide)]), key]
      exact opt _
    | .false =>
      rw [if_neg (by simp [skip_cons (c := 'f') (by decide)]), key]
      exact opt _
    | .number hn =>
      obtain ⟨c, t', rfl, hc⟩ := number_head hn
      obtain ⟨h1, h2, -⟩ := number_char hc
      rw [List.cons_append, skip_cons h1, if_neg (by simpa using h2)]
      rw [List.cons_append] at key
      rw [key]
      rcases number_kind hn with ⟨n, rfl⟩ | ⟨k, rfl⟩ | rfl
      · exact opt _
      · exact opt _
      · exact opt _
    | .text (x := x) hx =>
      obtain ⟨t', rfl, -⟩ := hx
      rw [List.cons_append] at key
      rw [List.cons_append, skip_cons (by decide), if_neg (by simp), key]
      exact opt _
    | .noElements (w := v) hv =>
      rw [List.cons_append] at key
      rw [List.cons_append, skip_cons (by decide), if_neg (by simp), key]
      exact opt _
    | .elements (s := v) (l := l) hv =>
      rw [List.cons_append] at key
      rw [List.cons_append, skip_cons (by decide), if_neg (by simp), key]
      exact opt _
    | .noMembers (w := v) hv =>
      rw [List.cons_append] at key
      rw [List.cons_append, skip_cons (by decide), if_neg (by simp), key]
      exact opt _
    | .members (s := v) (m := m) hv =>
      rw [List.cons_append] at key
      rw [List.cons_append, skip_cons (by decide), if_neg (by simp), key]
      exact opt _

instance {α : Type} {s : Serde α} {k : String} [h : Tracks s] : Tracks (JField.req k s).type := h
instance {α : Type} {s : Serde (List α)} {k : String} [h : Tracks s] : Tracks (JField.vec k s).type := h
instance {α : Type} {s : Serde (Option α)} {k : String} [h : Tracks s] : Tracks (JField.opt? k s).type := h

/-! ## The types -/

variable {E : Env}

/-- One round of `visit_map` for policies. -/
def policyMember (x : Option String × Option Json) (k : String) (v : Json) : Res (Option String × Option Json) :=
  if k = "type" then do
    let s ← string.de v
    pure (some s, x.2)
  else if k = "policy" then pure (x.1, some v.norm)
  else .fail

theorem policyMembers_eq (x : Option String × Option Json) (m : List (String × Json)) : policyMembers x m = runMembers policyMember x m := by
  induction m generalizing x with
  | nil => rfl
  | cons p m ih =>
    obtain ⟨k, v⟩ := p
    simp only [policyMembers, runMembers, policyMember]
    split
    · cases string.de v <;> simp [ih]
    split
    · simp [ih]
    · rfl

theorem policyMembers_norm {x y : Option String × Option Json} {m : List (String × Json)} (hx : ∀ v, x.2 = some v → v.norm = v)
    (h : policyMembers x m = .ok y) : ∀ v, y.2 = some v → v.norm = v := by
  induction m generalizing x with
  | nil => cases h; exact hx
  | cons p m ih =>
    obtain ⟨k, v⟩ := p
    simp only [policyMembers] at h
    split at h
    · obtain ⟨s, -, h⟩ := bind_ok_iff.mp h
      exact ih (x := (some s, x.2)) hx h
    split at h
    · exact ih (fun u hu => by cases hu; exact norm_norm v) h
    · cases h

/-- What follows the loop only depends on the last members. -/
theorem dePolicy_last {n : Nat} {m : List (String × Json)} {type : String} {value : Json} (h : policyMembers (none, none) m = .ok (some type, some value)) :
    dePolicy E (n + 1) (.obj [("type", .str type), ("policy", value)]) = dePolicy E (n + 1) (.obj m) := by
  have hn := policyMembers_norm (by simp) h value rfl
  have e : policyMembers (none, none) [("type", .str type), ("policy", value)] = .ok (some type, some value) := by
    simp [policyMembers, string, text, hn]
  simp only [dePolicy, e, h]

theorem dePolicy_none {n : Nat} {m : List (String × Json)} {x : Option String × Option Json} (h : policyMembers (none, none) m = .ok x)
    (hx : x.1 = none ∨ x.2 = none) : dePolicy E (n + 1) (.obj m) = .fail := by
  obtain ⟨a, b⟩ := x
  simp only [dePolicy, h]
  rcases hx with rfl | rfl
  · rfl
  · cases a <;> rfl

instance : Tracks string := tracks_whole rfl

theorem tracks_policyMember (finite : List Char → Bool) (d : Nat) : TracksStep finite d (takePolicyMember finite d) policyMember := by
  intro x k w t v r hw ht hd hr
  simp only [takePolicyMember, policyMember, Tracks.tracks finite d w t v r hw ht hd hr, whole_tracks _ finite d w t v r hw ht hd hr]
  split
  · cases string.de v <;> rfl
  split
  · rfl
  · rfl

theorem takePolicy_tracks (n : Nat) (finite : List Char → Bool) (d : Nat) (w t : List Char) (j : Json) (r : List Char) (hw : Space w)
    (ht : Value finite t j) (hd : j.depth ≤ d) : takePolicy E n finite d (w ++ (t ++ r)) = (do let p ← dePolicy E n j; pure (p, r)) := by
  cases n with
  | zero => rfl
  | succ n =>
  have fin : ∀ (m : List (String × Json)), (do
      let (x, t) ← (do let y ← runMembers policyMember (none, none) m; pure (y, r) : Res ((Option String × Option Json) × List Char))
      match x with
        | (some type, some value) => do
          let p ← dePolicy E (n + 1) (.obj [("type", .str type), ("policy", value)])
          pure (p, t)
        | _ => .fail) = (do let p ← dePolicy E (n + 1) (.obj m); pure (p, r)) := by
    intro m
    rw [← policyMembers_eq]
    cases h : policyMembers (none, none) m with
    | err e => simp [dePolicy, h]
    | panic => simp [dePolicy, h]
    | ok x =>
      simp only [Res.ok_bind, Res.pure_eq]
      split
      · rw [dePolicy_last h]
      · next hx =>
        rw [dePolicy_none h]
        · rfl
        · clear h
          obtain ⟨a, b⟩ := x
          cases a with
          | none => exact .inl rfl
          | some a =>
            cases b with
            | none => exact .inr rfl
            | some b => exact absurd rfl (hx a b)
  unfold takePolicy
  rw [skip_append hw]
  match ht with
  | .null => rfl
  | .true => rfl
  | .false => rfl
  | .number hn =>
    obtain ⟨c, t', rfl, hc⟩ := number_head hn
    obtain ⟨h1, h2, h3, h4, h5, h6, h7, -⟩ := number_char hc
    rw [List.cons_append, skip_cons h1]
    simp only [if_neg h7]
    rcases number_kind hn with ⟨n, rfl⟩ | ⟨k, rfl⟩ | rfl <;> rfl
  | .text hx =>
    obtain ⟨t', rfl, -⟩ := hx
    rw [List.cons_append, skip_cons (by decide)]
    rfl
  | .noElements (w := v) hv =>
    rw [List.cons_append, skip_cons (by decide)]
    rfl
  | .elements (s := v) (l := l) hv =>
    rw [List.cons_append, skip_cons (by decide)]
    rfl
  | .noMembers (w := v) hv =>
    simp only [depth, depthMembers] at hd
    rw [List.cons_append, skip_cons (by decide)]
    simp only [List.append_assoc, List.cons_append, List.nil_append]
    rw [if_pos trivial, if_neg (by omega), takeObject_nil _ _ hv]
    exact fin []
  | .members (s := v) (m := m) hv =>
    simp only [depth] at hd
    rw [List.cons_append, skip_cons (by decide)]
    have := takeObject_tracks (tracks_policyMember finite (d - 1)) hv (by omega) (none, none) r
    simp only [List.append_assoc, List.cons_append, List.nil_append]
    rw [if_pos trivial, if_neg (by omega), this]
    exact fin m

instance : Tracks (policy E) := ⟨fun finite d w t j r hw ht hd _ => takePolicy_tracks _ finite d w t j r hw ht hd⟩

instance (write : α → Res String) (read : String → Res α) : Tracks (text write read) := tracks_whole rfl
instance : Tracks u64 := tracks_whole rfl
instance : Tracks u8 := tracks_whole rfl
instance : Tracks bool := tracks_whole rfl
instance : Tracks duration := tracks_whole rfl
instance : Tracks (currency E) := tracks_whole rfl
instance : Tracks id := by unfold id; infer_instance
instance : Tracks (address E) := by unfold address; infer_instance
instance : Tracks key := by unfold key; infer_instance
instance : Tracks signature := by unfold signature; infer_instance
instance : Tracks leaf := by unfold leaf; infer_instance
instance : Tracks unlockKey := by unfold unlockKey; infer_instance
instance : Tracks work := by unfold work; infer_instance
instance : Tracks base64 := by unfold base64; infer_instance
instance : Tracks (time E) := by unfold time; infer_instance
instance : Tracks (times E) := tracks_whole rfl
instance : Tracks chainIndex := by unfold chainIndex; infer_instance
instance : Tracks (siacoinOutput E) := by unfold siacoinOutput; infer_instance
instance : Tracks (siafundOutput E) := by unfold siafundOutput; infer_instance
instance : Tracks stateElement := by unfold stateElement; infer_instance
instance : Tracks unlockConditions := by unfold unlockConditions; infer_instance
instance : Tracks v1SiacoinInput := by unfold v1SiacoinInput; infer_instance
instance : Tracks (v1SiafundInput E) := by unfold v1SiafundInput; infer_instance
instance : Tracks (v1FileContract E) := by unfold v1FileContract; infer_instance
instance : Tracks (v1FileContractRevision E) := by unfold v1FileContractRevision; infer_instance
instance : Tracks v1StorageProof := by unfold v1StorageProof; infer_instance
instance : Tracks coveredFields := by unfold coveredFields; infer_instance
instance : Tracks transactionSignature := by unfold transactionSignature; infer_instance
instance : Tracks (v1Transaction E) := by unfold v1Transaction; infer_instance
instance : Tracks (block E) := by unfold block; infer_instance
instance : Tracks (satisfiedPolicy E) := by unfold satisfiedPolicy; infer_instance
instance : Tracks attestation := by unfold attestation; infer_instance
instance : Tracks (v2FileContract E) := by unfold v2FileContract; infer_instance
instance : Tracks (siacoinElement E) := by unfold siacoinElement; infer_instance
instance : Tracks (siafundElement E) := by unfold siafundElement; infer_instance
instance : Tracks (fileContractElement E) := by unfold fileContractElement; infer_instance
instance : Tracks chainIndexElement := by unfold chainIndexElement; infer_instance
instance : Tracks (v2SiacoinInput E) := by unfold v2SiacoinInput; infer_instance
instance : Tracks (v2SiafundInput E) := by unfold v2SiafundInput; infer_instance
instance : Tracks (v2FileContractRevision E) := by unfold v2FileContractRevision; infer_instance
instance : Tracks (renewal E) := by unfold renewal; infer_instance
instance : Tracks v2StorageProof := by unfold v2StorageProof; infer_instance

/-- One round of `visit_map` for resolutions. -/
def resolutionMember (E : Env) (x : Option V2.FileContractElement × Option String × Option Json) (k : String) (v : Json) :
    Res (Option V2.FileContractElement × Option String × Option Json) :=
  if k = "parent" then do
    let p ← (fileContractElement E).de v
    pure (some p, x.2)
  else if k = "type" then do
    let s ← string.de v
    pure (x.1, some s, x.2.2)
  else if k = "resolution" then pure (x.1, x.2.1, some v.norm)
  else .fail

theorem resolutionMembers_eq (x : Option V2.FileContractElement × Option String × Option Json) (m : List (String × Json)) :
    resolutionMembers E x m = runMembers (resolutionMember E) x m := by
  induction m generalizing x with
  | nil => rfl
  | cons p m ih =>
    obtain ⟨k, v⟩ := p
    simp only [resolutionMembers, runMembers, resolutionMember]
    split
    · cases (fileContractElement E).de v <;> simp [ih]
    split
    · cases string.de v <;> simp [ih]
    split
    · simp [ih]
    · rfl

theorem tracks_resolutionMember (finite : List Char → Bool) (d : Nat) : TracksStep finite d (takeResolutionMember E finite d) (resolutionMember E) := by
  intro x k w t v r hw ht hd hr
  simp only [takeResolutionMember, resolutionMember, Tracks.tracks finite d w t v r hw ht hd hr, whole_tracks _ finite d w t v r hw ht hd hr]
  split
  · cases (fileContractElement E).de v <;> rfl
  split
  · cases string.de v <;> rfl
  split
  · rfl
  · rfl

instance : Tracks (resolution E) where
  tracks finite d w t j r hw ht hd hr := by
    simp only [resolution]
    rw [skip_append hw]
    match ht with
    | .null => rfl
    | .true => rfl
    | .false => rfl
    | .number hn =>
      obtain ⟨c, t', rfl, hc⟩ := number_head hn
      obtain ⟨h1, h2, h3, h4, h5, h6, h7, -⟩ := number_char hc
      rw [List.cons_append, skip_cons h1]
      simp only [if_neg h7]
      rcases number_kind hn with ⟨n, rfl⟩ | ⟨k, rfl⟩ | rfl <;> rfl
    | .text hx =>
      obtain ⟨t', rfl, -⟩ := hx
      rw [List.cons_append, skip_cons (by decide)]
      rfl
    | .noElements (w := v) hv =>
      rw [List.cons_append, skip_cons (by decide)]
      rfl
    | .elements (s := v) (l := l) hv =>
      rw [List.cons_append, skip_cons (by decide)]
      rfl
    | .noMembers (w := v) hv =>
      simp only [depth, depthMembers] at hd
      rw [List.cons_append, skip_cons (by decide)]
      simp only [List.append_assoc, List.cons_append, List.nil_append]
      rw [if_pos trivial, if_neg (by omega), takeObject_nil _ _ hv]
      rfl
    | .members (s := v) (m := m) hv =>
      simp only [depth] at hd
      rw [List.cons_append, skip_cons (by decide)]
      have := takeObject_tracks (tracks_resolutionMember (E := E) finite (d - 1)) hv (by omega) (none, none, none) r
      simp only [List.append_assoc, List.cons_append, List.nil_append]
      rw [if_pos trivial, if_neg (by omega), this, resolutionMembers_eq]
      cases runMembers (resolutionMember E) (none, none, none) m <;> rfl

instance : Tracks (v2Transaction E) := by unfold v2Transaction; infer_instance

instance : Tracks accumulator where
  tracks finite d w t j r hw ht hd _ := by
    have h : TracksShape (Shape.cons (JField.req "numLeaves" u64) (.one (.req "trees" (list id)))) := inferInstance
    simp only [accumulator, take_tracks h finite d w t j r hw ht hd]
    cases (Shape.cons (JField.req "numLeaves" u64) (.one (.req "trees" (list id)))).de j <;> rfl

instance : Tracks (state E) := by unfold state; infer_instance
instance : Tracks (hardforkDevAddr E) := by unfold hardforkDevAddr; infer_instance
instance : Tracks hardforkHeight := by unfold hardforkHeight; infer_instance
instance : Tracks (hardforkOak E) := by unfold hardforkOak; infer_instance
instance : Tracks hardforkASIC := by unfold hardforkASIC; infer_instance
instance : Tracks (hardforkFoundation E) := by unfold hardforkFoundation; infer_instance
instance : Tracks hardforkV2 := by unfold hardforkV2; infer_instance
instance : Tracks (network E) := by unfold network; infer_instance
instance : Tracks (chainState E) := by unfold chainState; infer_instance

/-- `from_str` on the text of a document. -/
theorem ofText_eq {α : Type} {s : Serde α} [h : Tracks s] {finite : List Char → Bool} {t : List Char} {j : Json} (ht : Document finite t j) (hd : j.depth < 128) :
    s.ofText finite t = s.de j := by
  obtain ⟨w, u, w', rfl, hw, hu, hw'⟩ := ht
  rw [Serde.ofText, h.tracks finite 127 w u j w' hw hu (by omega) (by simpa using stops_space hw' stops_nil)]
  cases s.de j <;> simp [(skip_nil_iff w').mpr hw']

end Serde

end Verif
