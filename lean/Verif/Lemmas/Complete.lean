import Verif.Lemmas.Sound

/-!
# What the parts that are looked at say is read
-/

namespace Verif

open Json Json.Grammar

namespace Json

theorem blankRest {finite : List Char → Bool} {u : List Char} {L : Json → List Json} (h : BlankElements finite u L) :
    ∃ w s u' J l, L = (fun x => J x :: l x) ∧ Space w ∧ u = w ++ (s ++ u') ∧ Grammar.Blank finite s J ∧ BlankRemainder finite false u' l := by
  cases h with
  | one hw hv hw' => exact ⟨_, _, _, _, fun _ => [], rfl, hw, rfl, hv, .inl ⟨hw', rfl⟩⟩
  | cons hw hv hw' ht => exact ⟨_, _, _, _, _, rfl, hw, rfl, hv, .inr (by simpa using ⟨_, hw', _, rfl, ht⟩)⟩

theorem blankRest_stops {finite : List Char → Bool} {u : List Char} {l : Json → List Json} (h : BlankRemainder finite false u l) (r : List Char) :
    Stops (u ++ ']' :: r) := by
  rcases h with ⟨h, -⟩ | h
  · exact stops_space h (stops_cons (by decide) r)
  · simp only [Bool.false_eq_true, if_false] at h
    obtain ⟨w, t, hw, rfl, -⟩ := h
    rw [List.append_assoc]
    exact stops_space hw (stops_cons (by decide) _)

/-- Nothing is left, or there is another element. -/
theorem blankAnother {finite : List Char → Bool} {first : Bool} {u : List Char} {L : Json → List Json} (h : BlankRemainder finite first u L) :
    (L = (fun _ => []) ∧ ∀ r, Shape.another first (u ++ ']' :: r) = .ok (false, r)) ∨
    ∃ w s u' J l, L = (fun x => J x :: l x) ∧ Space w ∧ Grammar.Blank finite s J ∧ BlankRemainder finite false u' l ∧
      ∀ r, Shape.another first (u ++ ']' :: r) = .ok (true, w ++ (s ++ (u' ++ ']' :: r))) := by
  rcases h with ⟨hu, rfl⟩ | h
  · refine .inl ⟨rfl, fun r => ?_⟩
    cases first with
    | true => simp [Shape.another, skip_append hu, skip_cons (c := ']') (by decide)]
    | false => simp [Shape.another, readSeparator_close (close := ']') (by decide) hu, ofOption]
  · right
    cases first with
    | true =>
      simp only [if_true] at h
      obtain ⟨w, s, u', J, l, rfl, hw, rfl, hv, hr⟩ := blankRest h
      refine ⟨w, s, u', J, l, rfl, hw, hv, hr, fun r => ?_⟩
      obtain ⟨c, s', rfl, h1, h2⟩ := anyValue_head (anyValue_blank hv)
      have : skip (w ++ (c :: s' ++ u') ++ ']' :: r) = c :: (s' ++ (u' ++ ']' :: r)) := by
        simp only [List.append_assoc, List.cons_append]
        rw [skip_append hw, skip_cons h1]
      simp only [Shape.another, if_true, this, List.head?_cons, Option.some.injEq, if_neg h2]
      simp
    | false =>
      simp only [Bool.false_eq_true, if_false] at h
      obtain ⟨w0, t, hw0, rfl, h⟩ := h
      obtain ⟨w, s, u', J, l, rfl, hw, rfl, hv, hr⟩ := blankRest h
      refine ⟨w, s, u', J, l, rfl, hw, hv, hr, fun r => ?_⟩
      simp only [Shape.another, Bool.false_eq_true, if_false, List.append_assoc, List.cons_append, readSeparator_comma hw0, ofOption]

end Json

namespace Serde

/-- If the document is read, whatever is put in for some members, then so is the text, whatever can be skipped stands for them. -/
class Complete {α : Type} (s : Serde α) : Prop where
  complete : ∀ (finite : List Char → Bool) (d : Nat) (w u : List Char) (J : Json → Json) (a : α) (r : List Char), Space w → Grammar.Blank finite u J →
    (J .null).depth ≤ d → Stops r → (∀ x, s.de (J x) = .ok a) → s.take finite d (w ++ (u ++ r)) = .ok (a, r)
  refuses : ∀ a, s.de .float ≠ .ok a

/-- The filled slots are those of the value. -/
def Agree : {β : Type} → (s : Shape β) → s.Slots → β → Prop
  | _, .one _, x, b => ∀ a, x = some a → a = b
  | _, .cons _ s, x, b => (∀ a, x.1 = some a → a = b.1) ∧ Agree s x.2 b.2

theorem get_agree {α : Type} {f : JField α} {x : Option α} {b : α} (h : f.get x = .ok b) : ∀ a, x = some a → a = b := by
  rintro a rfl
  simpa [JField.get] using h

theorem agree_finish : {β : Type} → (s : Shape β) → (x : s.Slots) → (b : β) → s.finish x = .ok b → Agree s x b
  | _, .one f, x, b, h => get_agree (f := f) (x := x) h
  | _, .cons f s, x, b, h => by
    obtain ⟨a, h1, h⟩ := bind_ok_iff.mp h
    obtain ⟨c, h2, h⟩ := bind_ok_iff.mp h
    cases h
    exact ⟨get_agree h1, agree_finish s x.2 c h2⟩

theorem put_none {α : Type} {f : JField α} {x y : Option α} {v : Json} (h : f.put x v = .ok y) : x = none ∧ ∃ a, y = some a ∧ f.type.de v = .ok a := by
  cases x with
  | some a => cases h
  | none =>
    obtain ⟨a, h1, h2⟩ := bind_ok_iff.mp h
    cases h2
    exact ⟨rfl, a, rfl, h1⟩

theorem agree_step : {β : Type} → (s : Shape β) → (x : s.Slots) → (k : String) → (v : Json) → (y : s.Slots) → (b : β) → s.step x k v = .ok y → Agree s y b →
    Agree s x b
  | α, .one f, x, k, v, y, b, h, hy => by
    change Option α at x y
    change (if k = f.name then f.put x v else .ok x : Res (Option α)) = .ok y at h
    change ∀ a, x = some a → a = b
    split at h
    · obtain ⟨rfl, -⟩ := put_none h
      exact fun a h => by cases h
    · cases h; exact hy
  | _, .cons f s, x, k, v, y, b, h, hy => by
    simp only [Shape.step] at h
    split at h
    · obtain ⟨a, h1, h⟩ := bind_ok_iff.mp h
      cases h
      refine ⟨?_, hy.2⟩
      rw [(put_none h1).1]
      exact fun a h => by cases h
    · obtain ⟨z, h1, h⟩ := bind_ok_iff.mp h
      cases h
      exact ⟨hy.1, agree_step s x.2 k v z b.2 h1 hy.2⟩

theorem agree_run {β : Type} (s : Shape β) (b : β) : ∀ (m : List (String × Json)) (x y : s.Slots), runMembers s.step x m = .ok y → Agree s y b → Agree s x b
  | [], x, y, h, hy => by cases h; exact hy
  | (k, v) :: m, x, y, h, hy => by
    obtain ⟨z, h1, h2⟩ := bind_ok_iff.mp h
    exact agree_step s x k v z b h1 (agree_run s b m z y h2 hy)

/-- The fields of a struct. -/
class CompleteShape {β : Type} (s : Shape β) : Prop where
  step : ∀ (finite : List Char → Bool) (d : Nat) (x : s.Slots) (b : β) (k : String) (w u : List Char) (J : Json → Json) (r : List Char), Space w →
    Grammar.Blank finite u J → (J .null).depth ≤ d → Stops r → (∀ v, ∃ y, s.step x k (J v) = .ok y ∧ Agree s y b) →
    ∃ y, s.takeStep finite d x k (w ++ (u ++ r)) = .ok (y, r) ∧ ∀ v, s.step x k (J v) = .ok y
  skip : ∀ (finite : List Char → Bool) (d : Nat) (x : s.Slots) (k : String) (w u : List Char) (r : List Char), Space w → AnyValue u → Stops r →
    (∀ v, ∃ y, s.step x k v = .ok y) → s.takeStep finite d x k (w ++ (u ++ r)) = .ok (x, r) ∧ ∀ v, s.step x k v = .ok x
  seq : ∀ (finite : List Char → Bool) (d : Nat) (first : Bool) (u : List Char) (l : Json → List Json) (b : β) (r : List Char),
    BlankRemainder finite first u l → depthList (l .null) ≤ d → (∀ x, s.seq (l x) = .ok b) → s.takeSeq finite d first (u ++ ']' :: r) = .ok (b, r)

theorem put_complete {α : Type} {f : JField α} (h : Complete f.type) {finite : List Char → Bool} {d : Nat} {x : Option α} {b : α} {w u : List Char} {J : Json → Json} {r : List Char}
    (hw : Space w) (hu : Grammar.Blank finite u J) (hd : (J .null).depth ≤ d) (hr : Stops r) (hJ : ∀ v, ∃ y, f.put x (J v) = .ok y ∧ ∀ a, y = some a → a = b) :
    f.takePut finite d x (w ++ (u ++ r)) = .ok (some b, r) ∧ ∀ v, f.put x (J v) = .ok (some b) := by
  have hx : x = none := by
    obtain ⟨y, h1, -⟩ := hJ .null
    exact (put_none h1).1
  subst hx
  have key : ∀ v, f.type.de (J v) = .ok b := by
    intro v
    obtain ⟨y, h1, h2⟩ := hJ v
    obtain ⟨-, a, rfl, h3⟩ := put_none h1
    rw [h3, h2 a rfl]
  refine ⟨?_, fun v => by simp [JField.put, key]⟩
  simp only [JField.takePut, h.complete finite d w u J b r hw hu hd hr key]
  rfl

theorem put_refuses {α : Type} {f : JField α} (h : Complete f.type) {x : Option α} (hJ : ∀ v, ∃ y, f.put x v = .ok y) : False := by
  obtain ⟨y, h1⟩ := hJ .float
  obtain ⟨-, a, -, h2⟩ := put_none h1
  exact h.refuses a h2

instance {α : Type} {f : JField α} [h : Complete f.type] : CompleteShape (.one f) where
  step finite d x b k w u J r hw hu hd hr hJ := by
    change Option α at x
    change ∀ v, ∃ y, (if k = f.name then f.put x (J v) else .ok x : Res (Option α)) = .ok y ∧ ∀ a, y = some a → a = b at hJ
    change ∃ y, (if k = f.name then f.takePut finite d x (w ++ (u ++ r)) else (do
        let t ← ofOption (skipValue ((w ++ (u ++ r)).length + 1) (w ++ (u ++ r)))
        pure (x, t)) : Res (Option α × List Char)) = .ok (y, r) ∧ ∀ v, (if k = f.name then f.put x (J v) else .ok x : Res (Option α)) = .ok y
    by_cases hk : k = f.name
    · simp only [if_pos hk] at hJ ⊢
      exact ⟨some b, put_complete h hw hu hd hr hJ⟩
    · simp only [if_neg hk, take_skip w u r hw (anyValue_blank hu) hr, ofOption]
      exact ⟨x, rfl, fun _ => rfl⟩
  skip finite d x k w u r hw hu hr hJ := by
    change Option α at x
    change ∀ v, ∃ y, (if k = f.name then f.put x v else .ok x : Res (Option α)) = .ok y at hJ
    change (if k = f.name then f.takePut finite d x (w ++ (u ++ r)) else (do
        let t ← ofOption (skipValue ((w ++ (u ++ r)).length + 1) (w ++ (u ++ r)))
        pure (x, t)) : Res (Option α × List Char)) = .ok (x, r) ∧ ∀ v, (if k = f.name then f.put x v else .ok x : Res (Option α)) = .ok x
    by_cases hk : k = f.name
    · simp only [if_pos hk] at hJ
      exact (put_refuses h hJ).elim
    · simp only [if_neg hk, take_skip w u r hw hu hr, ofOption]
      exact ⟨rfl, fun _ => trivial⟩
  seq finite d first u l b r hu hd hl := by
    rcases blankAnother hu with ⟨rfl, e⟩ | ⟨w, s, u', J, l, rfl, hw, hv, hr, e⟩
    · have := hl .null
      simp only [Shape.seq] at this
      simp only [Shape.takeSeq, e, Res.ok_bind, Bool.false_eq_true, if_false, this]
      rfl
    · simp only [depthList] at hd
      have hde : ∀ x, f.type.de (J x) = .ok b ∧ l x = [] := by
        intro x
        obtain ⟨a, h1, h2⟩ := bind_ok_iff.mp (hl x)
        split at h2
        · next hl => cases h2; exact ⟨h1, by simpa using hl⟩
        · cases h2
      have e2 : Shape.another false (u' ++ ']' :: r) = .ok (false, r) := by
        rcases blankAnother hr with ⟨-, e⟩ | ⟨_, _, _, J', l', rfl, -, -, -, -⟩
        · exact e r
        · have := (hde .null).2
          simp at this
      simp only [Shape.takeSeq, e, Res.ok_bind, if_true, h.complete finite d w s J b _ hw hv (by omega) (blankRest_stops hr r) (fun x => (hde x).1), e2,
        Bool.false_eq_true, if_false]
      rfl

instance {α β : Type} {f : JField α} {s : Shape β} [h : Complete f.type] [hs : CompleteShape s] : CompleteShape (.cons f s) where
  step finite d x b k w u J r hw hu hd hr hJ := by
    simp only [Shape.takeStep]
    simp only [Shape.step] at hJ ⊢
    by_cases hk : k = f.name
    · simp only [if_pos hk] at hJ ⊢
      obtain ⟨h1, h2⟩ := put_complete h (x := x.1) (b := b.1) hw hu hd hr fun v => by
        obtain ⟨y, h3, h4⟩ := hJ v
        obtain ⟨a, h5, h6⟩ := bind_ok_iff.mp h3
        cases h6
        exact ⟨a, h5, h4.1⟩
      exact ⟨(some b.1, x.2), by rw [h1]; rfl, fun v => by rw [h2]; rfl⟩
    · simp only [if_neg hk] at hJ ⊢
      obtain ⟨y, h1, h2⟩ := hs.step finite d x.2 b.2 k w u J r hw hu hd hr fun v => by
        obtain ⟨y, h3, h4⟩ := hJ v
        obtain ⟨a, h5, h6⟩ := bind_ok_iff.mp h3
        cases h6
        exact ⟨a, h5, h4.2⟩
      exact ⟨(x.1, y), by rw [h1]; rfl, fun v => by rw [h2]; rfl⟩
  skip finite d x k w u r hw hu hr hJ := by
    simp only [Shape.takeStep]
    simp only [Shape.step] at hJ ⊢
    by_cases hk : k = f.name
    · simp only [if_pos hk] at hJ
      exact (put_refuses h fun v => by
        obtain ⟨y, h3⟩ := hJ v
        obtain ⟨a, h5, -⟩ := bind_ok_iff.mp h3
        exact ⟨a, h5⟩).elim
    · simp only [if_neg hk] at hJ ⊢
      obtain ⟨h1, h2⟩ := hs.skip finite d x.2 k w u r hw hu hr fun v => by
        obtain ⟨y, h3⟩ := hJ v
        obtain ⟨a, h5, -⟩ := bind_ok_iff.mp h3
        exact ⟨a, h5⟩
      exact ⟨by rw [h1]; rfl, fun v => by rw [h2]; rfl⟩
  seq finite d first u l b r hu hd hl := by
    rcases blankAnother hu with ⟨rfl, e⟩ | ⟨w, t, u', J, l, rfl, hw, hv, hr, e⟩
    · have := hl .null
      simp only [Shape.seq] at this
      obtain ⟨a, h1, h2⟩ := bind_ok_iff.mp this
      obtain ⟨c, h3, h4⟩ := bind_ok_iff.mp h2
      cases h4
      simp only [Shape.takeSeq, e, Res.ok_bind, Bool.false_eq_true, if_false, h1, h3]
      rfl
    · simp only [depthList] at hd
      have hde : ∀ x, f.type.de (J x) = .ok b.1 ∧ s.seq (l x) = .ok b.2 := by
        intro x
        obtain ⟨a, h1, h2⟩ := bind_ok_iff.mp (hl x)
        obtain ⟨c, h3, h4⟩ := bind_ok_iff.mp h2
        cases h4
        exact ⟨h1, h3⟩
      simp only [Shape.takeSeq, e, Res.ok_bind, if_true, h.complete finite d w t J b.1 _ hw hv (by omega) (blankRest_stops hr r) (fun x => (hde x).1),
        hs.seq finite d false u' l b.2 r hr (by omega) (fun x => (hde x).2)]
      rfl

/-! ## Objects -/

theorem readBlank {w k w1 w2 s w' : List Char} {key : String} (hw : Space w) (hk : Text k key) (hw1 : Space w1) (z r : List Char) (hz : z = w ++ (k ++ (w1 ++ ':' :: (w2 ++ (s ++ w'))))) :
    readKey ((z ++ r).length + 1) (z ++ r) = some (key, w2 ++ (s ++ (w' ++ r))) := by
  subst hz
  have := readKey_complete hw hk hw1 ((w ++ (k ++ (w1 ++ ':' :: (w2 ++ (s ++ w')))) ++ r).length + 1) (w2 ++ (s ++ (w' ++ r))) (by simp; omega)
  simpa only [List.append_assoc, List.cons_append] using this

theorem takeMembers_complete {β : Type} {s : Shape β} [h : CompleteShape s] {finite : List Char → Bool} {d : Nat} {b : β} :
    ∀ (u : List Char) (m : Json → List (String × Json)), BlankMembers finite u m → depthMembers (m .null) ≤ d → ∀ (fuel : Nat) (x : s.Slots) (r : List Char), u.length ≤ fuel →
      (∀ v, ∃ y, runMembers s.step x (m v) = .ok y ∧ Agree s y b) →
      ∃ y, takeMembers (s.takeStep finite d) fuel x (u ++ '}' :: r) = .ok (y, r) ∧ ∀ v, runMembers s.step x (m v) = .ok y
  | _, _, .one (w := w) (k := k) (w1 := w1) (w2 := w2) (s := t) (w' := w') (x := key) (j := J) hw hk hw1 hw2 hv hw', hd => by
    intro fuel x r hf hm
    have e1 := readBlank (w2 := w2) (s := t) (w' := w') hw hk hw1 _ ('}' :: r) rfl
    simp only [List.length_append, List.length_cons] at hf
    obtain ⟨f, rfl⟩ : ∃ f, fuel = f + 1 := ⟨fuel - 1, by omega⟩
    simp only [depthMembers] at hd
    obtain ⟨y, e2, h2⟩ := h.step finite d x b key w2 t J (w' ++ '}' :: r) hw2 hv (by omega) (stops_space hw' (stops_cons (by decide) r)) fun v => by
      obtain ⟨z, h3, h4⟩ := hm v
      obtain ⟨a, h5, h6⟩ := bind_ok_iff.mp h3
      cases h6
      exact ⟨_, h5, h4⟩
    refine ⟨y, ?_, fun v => by simp [runMembers, h2]⟩
    rw [takeMembers, e1]
    simp only [ofOption, Res.ok_bind, e2, readSeparator_close (close := '}') (by decide) hw']
    rfl
  | _, _, .cons (w := w) (k := k) (w1 := w1) (w2 := w2) (s := t) (w' := w') (t := t') (x := key) (j := J) (m := m) hw hk hw1 hw2 hv hw' ht, hd => by
    intro fuel x r hf hm
    have e1 := readBlank (w2 := w2) (s := t) (w' := w' ++ ',' :: t') hw hk hw1 _ ('}' :: r) rfl
    simp only [List.length_append, List.length_cons] at hf
    obtain ⟨f, rfl⟩ : ∃ f, fuel = f + 1 := ⟨fuel - 1, by omega⟩
    simp only [depthMembers] at hd
    obtain ⟨y, e2, h2⟩ := h.step finite d x b key w2 t J (w' ++ ',' :: (t' ++ '}' :: r)) hw2 hv (by omega) (stops_space hw' (stops_cons (by decide) _)) fun v => by
      obtain ⟨z, h3, h4⟩ := hm v
      obtain ⟨a, h5, h6⟩ := bind_ok_iff.mp h3
      exact ⟨_, h5, agree_run s b _ _ _ h6 h4⟩
    obtain ⟨z, e3, h3⟩ := takeMembers_complete (d := d) t' m ht (by omega) f y r (by omega) fun v => by
      obtain ⟨z, h3, h4⟩ := hm v
      simp only [runMembers, h2, Res.ok_bind] at h3
      exact ⟨z, h3, h4⟩
    refine ⟨z, ?_, fun v => by simp [runMembers, h2, h3]⟩
    rw [takeMembers, e1]
    simp only [ofOption, Res.ok_bind, List.append_assoc, List.cons_append, e2, readSeparator_comma hw', if_true, e3]
  | _, _, .blankOne (w := w) (k := k) (w1 := w1) (w2 := w2) (s := t) (w' := w') (x := key) hw hk hw1 hw2 hv hw', hd => by
    intro fuel x r hf hm
    have e1 := readBlank (w2 := w2) (s := t) (w' := w') hw hk hw1 _ ('}' :: r) rfl
    simp only [List.length_append, List.length_cons] at hf
    obtain ⟨f, rfl⟩ : ∃ f, fuel = f + 1 := ⟨fuel - 1, by omega⟩
    obtain ⟨e2, h2⟩ := h.skip finite d x key w2 t (w' ++ '}' :: r) hw2 hv (stops_space hw' (stops_cons (by decide) r)) fun v => by
      obtain ⟨z, h3, h4⟩ := hm v
      obtain ⟨a, h5, h6⟩ := bind_ok_iff.mp h3
      exact ⟨_, h5⟩
    refine ⟨x, ?_, fun v => by simp [runMembers, h2]⟩
    rw [takeMembers, e1]
    simp only [ofOption, Res.ok_bind, e2, readSeparator_close (close := '}') (by decide) hw']
    rfl
  | _, _, .blankCons (w := w) (k := k) (w1 := w1) (w2 := w2) (s := t) (w' := w') (t := t') (x := key) (m := m) hw hk hw1 hw2 hv hw' ht, hd => by
    intro fuel x r hf hm
    have e1 := readBlank (w2 := w2) (s := t) (w' := w' ++ ',' :: t') hw hk hw1 _ ('}' :: r) rfl
    simp only [List.length_append, List.length_cons] at hf
    obtain ⟨f, rfl⟩ : ∃ f, fuel = f + 1 := ⟨fuel - 1, by omega⟩
    simp only [depthMembers] at hd
    obtain ⟨e2, h2⟩ := h.skip finite d x key w2 t (w' ++ ',' :: (t' ++ '}' :: r)) hw2 hv (stops_space hw' (stops_cons (by decide) _)) fun v => by
      obtain ⟨z, h3, h4⟩ := hm v
      obtain ⟨a, h5, h6⟩ := bind_ok_iff.mp h3
      exact ⟨_, h5⟩
    obtain ⟨z, e3, h3⟩ := takeMembers_complete (d := d) t' m ht (by omega) f x r (by omega) fun v => by
      obtain ⟨z, h3, h4⟩ := hm v
      simp only [runMembers, h2, Res.ok_bind] at h3
      exact ⟨z, h3, h4⟩
    refine ⟨z, ?_, fun v => by simp [runMembers, h2, h3]⟩
    rw [takeMembers, e1]
    simp only [ofOption, Res.ok_bind, List.append_assoc, List.cons_append, e2, readSeparator_comma hw', if_true, e3]

theorem blankMembers_head {finite : List Char → Bool} {u : List Char} {m : Json → List (String × Json)} (h : BlankMembers finite u m) (r : List Char) :
    ¬ (skip (u ++ r)).head? = some '}' := anyMembers_head (anyMembers_blank h) r

theorem blankElements_head {finite : List Char → Bool} {u : List Char} {l : Json → List Json} (h : BlankElements finite u l) (r : List Char) :
    ¬ (skip (u ++ r)).head? = some ']' := anyElements_head (anyElements_blank h) r

theorem take_complete {β : Type} {s : Shape β} [h : CompleteShape s] [ht : TracksShape s] {finite : List Char → Bool} {d : Nat} {w u : List Char} {J : Json → Json} {b : β} {r : List Char}
    (hw : Space w) (hu : Grammar.Blank finite u J) (hd : (J .null).depth ≤ d) (hJ : ∀ x, s.de (J x) = .ok b) : s.take finite d (w ++ (u ++ r)) = .ok (b, r) := by
  cases hu with
  | value hv =>
    rw [take_tracks ht finite d w u _ r hw hv hd, hJ .null]
    rfl
  | elements hv =>
    rename_i t l
    simp only [depth] at hd
    unfold Shape.take
    rw [skip_append hw, List.cons_append, skip_cons (by decide)]
    have := h.seq finite (d - 1) true t l b r (.inr hv) (by omega) hJ
    simp only [List.append_assoc, List.cons_append, List.nil_append]
    rw [if_neg (by decide), if_pos trivial, if_neg (by omega), this]
  | members hv =>
    rename_i t m
    simp only [depth] at hd
    have hm : ∀ v, ∃ y, runMembers s.step s.start (m v) = .ok y ∧ s.finish y = .ok b := by
      intro v
      obtain ⟨y, h1, h2⟩ := bind_ok_iff.mp (hJ v)
      exact ⟨y, by rw [← run_eq]; exact h1, h2⟩
    obtain ⟨y, h1, h2⟩ := takeMembers_complete t m hv (d := d - 1) (by omega) ((t ++ '}' :: r).length + 1) s.start r (by simp; omega) fun v => by
      obtain ⟨y, h3, h4⟩ := hm v
      exact ⟨y, h3, agree_finish s y b h4⟩
    have h3 : s.finish y = .ok b := by
      obtain ⟨z, h3, h4⟩ := hm .null
      rw [h2] at h3
      cases h3
      exact h4
    unfold Shape.take
    rw [skip_append hw, List.cons_append, skip_cons (by decide)]
    simp only [List.append_assoc, List.cons_append, List.nil_append]
    rw [if_pos trivial, if_neg (by omega), takeObject, if_neg (blankMembers_head hv _), h1]
    simp [h3]

theorem complete_record {α β : Type} {s : Shape β} [h : CompleteShape s] [ht : TracksShape s] {fields : α → β} {build : β → α} (hf : ∀ b, fields (build b) = b) :
    Complete (record s fields build) where
  complete finite d w u J a r hw hu hd _ hJ := by
    have key : ∀ x, s.de (J x) = .ok (fields a) := by
      intro x
      obtain ⟨b, h1, h2⟩ := bind_ok_iff.mp (hJ x)
      cases h2
      rw [h1, hf]
    simp only [record, take_complete hw hu hd key, Res.ok_bind]
    obtain ⟨b, h1, h2⟩ := bind_ok_iff.mp (hJ .null)
    rw [key] at h1
    cases h1
    simp only [Res.pure_eq, Res.ok.injEq] at h2
    rw [h2]
    rfl
  refuses a h := by cases h

/-! ## Arrays -/

theorem takeEach_complete {α : Type} {s : Serde α} [h : Complete s] {finite : List Char → Bool} {d : Nat} :
    ∀ (u : List Char) (l : Json → List Json), BlankElements finite u l → depthList (l .null) ≤ d → ∀ (fuel : Nat) (y : List α) (r : List Char), u.length ≤ fuel →
      (∀ x, each s.de (l x) = .ok y) → takeEach s.take finite fuel d (u ++ ']' :: r) = .ok (y, r)
  | _, _, .one (w := w) (s := t) (w' := w') (j := J) hw hv hw', hd => by
    intro fuel y r hf hy
    obtain ⟨c, t', rfl, -⟩ := anyValue_head (anyValue_blank hv)
    simp only [List.length_append, List.length_cons] at hf
    obtain ⟨f, rfl⟩ : ∃ f, fuel = f + 1 := ⟨fuel - 1, by omega⟩
    simp only [depthList] at hd
    have key : ∃ a, y = [a] ∧ ∀ x, s.de (J x) = .ok a := by
      have : ∀ x, ∃ a, y = [a] ∧ s.de (J x) = .ok a := by
        intro x
        obtain ⟨a, h1, h2⟩ := bind_ok_iff.mp (hy x)
        obtain ⟨z, h3, h4⟩ := bind_ok_iff.mp h2
        cases h3
        cases h4
        exact ⟨a, rfl, h1⟩
      obtain ⟨a, rfl, -⟩ := this .null
      refine ⟨a, rfl, fun x => ?_⟩
      obtain ⟨c, h1, h2⟩ := this x
      cases h1
      exact h2
    obtain ⟨a, rfl, key⟩ := key
    have e2 := h.complete finite d w (c :: t') J a (w' ++ ']' :: r) hw hv (by omega) (stops_space hw' (stops_cons (by decide) r)) key
    rw [takeEach]
    simp only [List.append_assoc, e2, Res.ok_bind, readSeparator_close (close := ']') (by decide) hw', ofOption]
    rfl
  | _, _, .cons (w := w) (s := t) (w' := w') (t := t') (j := J) (l := l) hw hv hw' ht, hd => by
    intro fuel y r hf hy
    simp only [List.length_append, List.length_cons] at hf
    obtain ⟨f, rfl⟩ : ∃ f, fuel = f + 1 := ⟨fuel - 1, by omega⟩
    simp only [depthList] at hd
    have key : ∃ a y', y = a :: y' ∧ ∀ x, s.de (J x) = .ok a ∧ each s.de (l x) = .ok y' := by
      have : ∀ x, ∃ a y', y = a :: y' ∧ s.de (J x) = .ok a ∧ each s.de (l x) = .ok y' := by
        intro x
        obtain ⟨a, h1, h2⟩ := bind_ok_iff.mp (hy x)
        obtain ⟨z, h3, h4⟩ := bind_ok_iff.mp h2
        cases h4
        exact ⟨a, z, rfl, h1, h3⟩
      obtain ⟨a, z, rfl, -⟩ := this .null
      refine ⟨a, z, rfl, fun x => ?_⟩
      obtain ⟨c, c', h1, h2⟩ := this x
      cases h1
      exact h2
    obtain ⟨a, y', rfl, key⟩ := key
    have e2 := h.complete finite d w t J a (w' ++ ',' :: (t' ++ ']' :: r)) hw hv (by omega) (stops_space hw' (stops_cons (by decide) _)) fun x => (key x).1
    have e3 := takeEach_complete (d := d) t' l ht (by omega) f y' r (by omega) fun x => (key x).2
    rw [takeEach]
    simp only [List.append_assoc, List.cons_append, e2, Res.ok_bind, readSeparator_comma hw', if_true, ofOption, e3]
    rfl

instance {α : Type} {s : Serde α} [h : Complete s] [ht : Tracks s] : Complete (list s) where
  complete finite d w u J a r hw hu hd hr hJ := by
    cases hu with
    | value hv => rw [Tracks.tracks finite d w u _ r hw hv hd hr, hJ .null]; rfl
    | elements hv =>
      rename_i t l
      simp only [depth] at hd
      have := takeEach_complete t l hv (d := d - 1) (by omega) ((t ++ ']' :: r).length + 1) a r (by simp; omega) hJ
      simp only [list]
      rw [skip_append hw, List.cons_append, skip_cons (by decide)]
      simp only [List.append_assoc, List.cons_append, List.nil_append]
      rw [if_pos trivial, if_neg (by omega), if_neg (blankElements_head hv _), this]
    | members hv => exact absurd (hJ .null) (by intro h; cases h)
  refuses a h := by cases h

instance {α : Type} {s : Serde α} [h : Complete s] [ht : Tracks s] : Complete (option s) where
  complete finite d w u J a r hw hu hd hr hJ := by
    have key : u.head? ≠ some 'n' → (option s).take finite d (w ++ (u ++ r)) = .ok (a, r) := by
      intro hn
      obtain ⟨c, t, rfl, h1, -⟩ := blank_cons hu
      have : ∀ x, ∃ b, a = some b ∧ s.de (J x) = .ok b := by
        intro x
        have h2 := hJ x
        rw [option_some (blank_null hu hn x)] at h2
        obtain ⟨b, h3, h4⟩ := bind_ok_iff.mp h2
        cases h4
        exact ⟨b, rfl, h3⟩
      obtain ⟨b, rfl, -⟩ := this .null
      have hb : ∀ x, s.de (J x) = .ok b := by
        intro x
        obtain ⟨c, h1, h2⟩ := this x
        cases h1
        exact h2
      have e := h.complete finite d w (c :: t) J b r hw hu hd hr hb
      simp only [option]
      rw [skip_append hw, List.cons_append, skip_cons h1, if_neg (by simpa using hn)]
      rw [List.cons_append] at e
      rw [e]
      rfl
    cases hu with
    | value hv => rw [Tracks.tracks finite d w u _ r hw hv hd hr, hJ .null]; rfl
    | elements hv => exact key (by simp)
    | members hv => exact key (by simp)
  refuses a h := by
    obtain ⟨b, h1, -⟩ := bind_ok_iff.mp (show (do let a ← s.de .float; pure (some a)) = Res.ok a from h)
    exact Complete.refuses b h1

instance {α : Type} {s : Serde α} {k : String} [h : Complete s] : Complete (JField.req k s).type := h
instance {α : Type} {s : Serde (List α)} {k : String} [h : Complete s] : Complete (JField.vec k s).type := h
instance {α : Type} {s : Serde (Option α)} {k : String} [h : Complete s] : Complete (JField.opt? k s).type := h

/-! ## The types -/

variable {E : Env}

/-- A type that reads neither arrays nor objects. -/
theorem complete_scalar {α : Type} {s : Serde α} [ht : Tracks s] (h1 : ∀ a, s.de .float ≠ .ok a) (h2 : ∀ l a, s.de (.arr l) ≠ .ok a) (h3 : ∀ m a, s.de (.obj m) ≠ .ok a) :
    Complete s where
  complete finite d w u J a r hw hu hd hr hJ := by
    cases hu with
    | value hv => rw [Tracks.tracks finite d w u _ r hw hv hd hr, hJ .null]; rfl
    | elements hv => exact absurd (hJ .null) (h2 _ a)
    | members hv => exact absurd (hJ .null) (h3 _ a)
  refuses := h1

instance (write : α → Res String) (read : String → Res α) : Complete (text write read) :=
  complete_scalar (fun _ h => by cases h) (fun _ _ h => by cases h) (fun _ _ h => by cases h)
instance : Complete string := by unfold string; infer_instance
instance : Complete u64 := complete_scalar (fun _ h => by cases h) (fun _ _ h => by cases h) (fun _ _ h => by cases h)
instance : Complete u8 := complete_scalar (fun _ h => by cases h) (fun _ _ h => by cases h) (fun _ _ h => by cases h)
instance : Complete bool := complete_scalar (fun _ h => by cases h) (fun _ _ h => by cases h) (fun _ _ h => by cases h)
instance : Complete duration := complete_scalar (fun _ h => by cases h) (fun _ _ h => by cases h) (fun _ _ h => by cases h)
instance : Complete (currency E) := complete_scalar (fun _ h => by cases h) (fun _ _ h => by cases h) (fun _ _ h => by cases h)
instance : Complete id := by unfold id; infer_instance
instance : Complete (address E) := by unfold address; infer_instance
instance : Complete key := by unfold key; infer_instance
instance : Complete signature := by unfold signature; infer_instance
instance : Complete leaf := by unfold leaf; infer_instance
instance : Complete unlockKey := by unfold unlockKey; infer_instance
instance : Complete work := by unfold work; infer_instance
instance : Complete base64 := by unfold base64; infer_instance
instance : Complete (time E) := by unfold time; infer_instance

theorem readTimes_strings {l : List Json} : ∀ {done ts : List DateTime}, readTimes E done l = .ok ts → ∀ j ∈ l, ∃ s, j = .str s := by
  induction l with
  | nil => simp
  | cons i l ih =>
    intro done ts h
    cases i with
    | str s =>
      simp only [readTimes] at h
      split at h
      · cases h
      split at h
      · cases h
      · simp only [List.mem_cons, forall_eq_or_imp]
        exact ⟨⟨s, rfl⟩, ih h⟩
    | _ => cases h

theorem blank_strings {finite : List Char → Bool} : ∀ (u : List Char) (l : Json → List Json), BlankElements finite u l → (∀ j ∈ l .null, ∃ s, j = .str s) →
    Elements finite u (l .null)
  | _, _, .one hw hv hw', hl => by
    cases hv with
    | value hv => exact .one hw hv hw'
    | elements hv => simp at hl
    | members hv => simp at hl
  | _, _, .cons (t := t) (l := l) hw hv hw' ht, hl => by
    simp only [List.mem_cons, forall_eq_or_imp] at hl
    have := blank_strings t l ht hl.2
    cases hv with
    | value hv => exact .cons hw hv hw' this
    | elements hv => simp at hl
    | members hv => simp at hl

instance : Complete (times E) where
  complete finite d w u J a r hw hu hd hr hJ := by
    cases hu with
    | value hv => rw [Tracks.tracks finite d w u _ r hw hv hd hr, hJ .null]; rfl
    | elements hv =>
      obtain ⟨ts, h1, -⟩ := bind_ok_iff.mp (hJ .null)
      have := blank_strings _ _ hv (readTimes_strings h1)
      rw [Tracks.tracks finite d w _ _ r hw (.elements this) hd hr, hJ .null]
      rfl
    | members hv => exact absurd (hJ .null) (by intro h; cases h)
  refuses a h := by cases h

instance : Complete chainIndex := complete_record Struct.fields_build
instance : Complete (siacoinOutput E) := complete_record Struct.fields_build
instance : Complete (siafundOutput E) := complete_record fun _ => rfl
instance : Complete stateElement := complete_record Struct.fields_build
instance : Complete unlockConditions := complete_record Struct.fields_build
instance : Complete v1SiacoinInput := complete_record Struct.fields_build
instance : Complete (v1SiafundInput E) := complete_record Struct.fields_build
instance : Complete (v1FileContract E) := complete_record Struct.fields_build
instance : Complete (v1FileContractRevision E) := complete_record Struct.fields_build
instance : Complete v1StorageProof := complete_record Struct.fields_build
instance : Complete coveredFields := complete_record Struct.fields_build
instance : Complete transactionSignature := complete_record Struct.fields_build
instance : Complete (v1Transaction E) := complete_record Struct.fields_build
instance : Complete (block E) := complete_record Struct.fields_build

instance : Complete accumulator where
  complete finite d w u J a r hw hu hd _ hJ := by
    have key : ∀ x, (Shape.cons (JField.req "numLeaves" u64) (.one (.req "trees" (list id)))).de (J x) = .ok (a.numLeaves, a.roots) :=
      fun x => ((accumulator_de (J x) a).mp (hJ x)).1
    have e := hJ .null
    simp only [accumulator, key, Res.ok_bind] at e
    simp only [accumulator, take_complete hw hu hd key, Res.ok_bind, e]
    rfl
  refuses a h := by cases h

instance : Complete (state E) := complete_record fun _ => rfl
instance : Complete (hardforkDevAddr E) := complete_record fun _ => rfl
instance : Complete hardforkHeight := complete_record fun _ => rfl
instance : Complete (hardforkOak E) := complete_record fun _ => rfl
instance : Complete hardforkASIC := complete_record fun _ => rfl
instance : Complete (hardforkFoundation E) := complete_record fun _ => rfl
instance : Complete hardforkV2 := complete_record fun _ => rfl
instance : Complete (network E) := complete_record fun _ => rfl
instance : Complete (chainState E) := complete_record fun _ => rfl

theorem ofText_iff {α : Type} {s : Serde α} [hc : Complete s] [hs : Sound s] (finite : List Char → Bool) (t : List Char) (a : α) : s.ofText finite t = .ok a ↔
    ∃ J, BlankDocument finite t J ∧ (J .null).depth < 128 ∧ ∀ x, s.de (J x) = .ok a := by
  refine ⟨ofText_ok, ?_⟩
  rintro ⟨J, ⟨w, u, r, rfl, hw, hu, hr⟩, hd, hJ⟩
  have hs : Stops r := by simpa using stops_space hr stops_nil
  rw [Serde.ofText, hc.complete finite 127 w u J a r hw hu (by omega) hs hJ]
  simp [(skip_nil_iff r).mpr hr]

end Serde

end Verif
