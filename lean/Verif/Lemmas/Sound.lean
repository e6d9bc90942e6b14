import Verif.Lemmas.Stream

/-!
# What is read from a text is in it
-/

namespace Verif

open Json Json.Grammar

namespace Json

/-- What follows an element of an array, or the opening bracket, up to the closing bracket. -/
def BlankRemainder (finite : List Char → Bool) (first : Bool) (u : List Char) (l : Json → List Json) : Prop :=
  (Space u ∧ l = fun _ => []) ∨ (if first then BlankElements finite u l else ∃ w t, Space w ∧ u = w ++ ',' :: t ∧ BlankElements finite t l)

theorem blankElements_cons {finite : List Char → Bool} {w s u : List Char} {j : Json → Json} {l : Json → List Json} (hw : Space w)
    (hs : Grammar.Blank finite s j) (hu : BlankRemainder finite false u l) : BlankElements finite (w ++ (s ++ u)) fun x => j x :: l x := by
  rcases hu with ⟨hu, rfl⟩ | hu
  · exact .one hw hs hu
  · simp only [Bool.false_eq_true, if_false] at hu
    obtain ⟨w', t, hw', rfl, ht⟩ := hu
    exact .cons hw hs hw' ht

theorem another_false {first : Bool} {t r : List Char} (h : Shape.another first t = .ok (false, r)) : ∃ u, Space u ∧ t = u ++ ']' :: r := by
  cases first with
  | true =>
    simp only [Shape.another, if_true] at h
    split at h
    · next hc =>
      cases h
      obtain ⟨w, hw, hs⟩ := skip_split t
      exact ⟨w, hs, by rw [← head_tail hc, ← hw]⟩
    · cases h
  | false =>
    simp only [Shape.another, Bool.false_eq_true, if_false] at h
    cases hr : readSeparator ']' t with
    | none => rw [hr] at h; cases h
    | some p =>
      rw [hr] at h
      cases h
      obtain ⟨w, hw, h⟩ := readSeparator_sound hr
      rcases h with ⟨h, -⟩ | ⟨-, h⟩
      · cases h
      · exact ⟨w, hw, h⟩

theorem another_true {first : Bool} {t r : List Char} (h : Shape.another first t = .ok (true, r)) :
    if first then t = r else ∃ w, Space w ∧ t = w ++ ',' :: r := by
  cases first with
  | true =>
    simp only [Shape.another, if_true] at h
    split at h
    · cases h
    · cases h; rfl
  | false =>
    simp only [Shape.another, Bool.false_eq_true, if_false] at h
    cases hr : readSeparator ']' t with
    | none => rw [hr] at h; cases h
    | some p =>
      rw [hr] at h
      cases h
      obtain ⟨w, hw, h⟩ := readSeparator_sound hr
      rcases h with ⟨-, h⟩ | ⟨h, -⟩
      · simpa using ⟨w, hw, h⟩
      · cases h

theorem another_calm (first : Bool) (t : List Char) : Shape.another first t ≠ .panic := by
  unfold Shape.another ofOption Res.fail
  intro h
  split at h
  · split at h <;> cases h
  · split at h <;> cases h

theorem remainder_true {finite : List Char → Bool} {first : Bool} {t u r : List Char} {l : Json → List Json} (ht : if first then t = u ++ ']' :: r else ∃ w, Space w ∧ t = w ++ ',' :: (u ++ ']' :: r))
    (hu : BlankElements finite u l) : ∃ u', t = u' ++ ']' :: r ∧ BlankRemainder finite first u' l := by
  cases first with
  | true => exact ⟨u, ht, .inr hu⟩
  | false =>
    simp only [Bool.false_eq_true, if_false] at ht
    obtain ⟨w, hw, rfl⟩ := ht
    exact ⟨w ++ ',' :: u, by simp, .inr (by simpa using ⟨w, hw, u, rfl, hu⟩)⟩

end Json

namespace Serde

theorem bind_panic_iff {α β : Type} {x : Res α} {f : α → Res β} : (x >>= f) = .panic ↔ x = .panic ∨ ∃ a, x = .ok a ∧ f a = .panic := by
  cases x <;> simp

theorem ofOption_calm {α : Type} {o : Option α} : ofOption o ≠ .panic := by cases o <;> simp [ofOption, Res.fail]

theorem ofOption_ok {α : Type} {o : Option α} {a : α} : ofOption o = .ok a ↔ o = some a := by cases o <;> simp [ofOption, Res.fail]

/-- What is read is what the document says, whatever is put in for the parts that were skipped; and only if a document makes the reader of documents panic can a
text make the reader panic. -/
class Sound {α : Type} (s : Serde α) : Prop where
  ok : ∀ (finite : List Char → Bool) (d : Nat) (t : List Char) (a : α) (r : List Char), s.take finite d t = .ok (a, r) →
    ∃ w u J, Space w ∧ t = w ++ (u ++ r) ∧ Grammar.Blank finite u J ∧ (J .null).depth ≤ d ∧ ∀ x, s.de (J x) = .ok a
  panic : ∀ (finite : List Char → Bool) (d : Nat) (t : List Char), s.take finite d t = .panic → ∃ j, j.depth ≤ d ∧ s.de j = .panic

/-- A round of the loop over the members of an object. -/
structure SoundStep {X : Type} (finite : List Char → Bool) (d : Nat) (take : X → String → List Char → Res (X × List Char)) (step : X → String → Json → Res X) : Prop where
  ok : ∀ (x : X) (k : String) (t : List Char) (y : X) (r : List Char), take x k t = .ok (y, r) → ∃ w u, Space w ∧ t = w ++ (u ++ r) ∧
    ((∃ J, Grammar.Blank finite u J ∧ (J .null).depth ≤ d ∧ ∀ v, step x k (J v) = .ok y) ∨ (AnyValue u ∧ ∀ v, step x k v = .ok y))
  panic : ∀ (x : X) (k : String) (t : List Char), take x k t = .panic → ∃ v, v.depth ≤ d ∧ step x k v = .panic

/-- The fields of a struct. -/
class SoundShape {β : Type} (s : Shape β) : Prop where
  step : ∀ (finite : List Char → Bool) (d : Nat), SoundStep finite d (s.takeStep finite d) s.step
  seq : ∀ (finite : List Char → Bool) (d : Nat) (first : Bool) (t : List Char) (b : β) (r : List Char), s.takeSeq finite d first t = .ok (b, r) →
    ∃ u l, t = u ++ ']' :: r ∧ BlankRemainder finite first u l ∧ depthList (l .null) ≤ d ∧ ∀ x, s.seq (l x) = .ok b
  seqPanic : ∀ (finite : List Char → Bool) (d : Nat) (first : Bool) (t : List Char), s.takeSeq finite d first t = .panic →
    ∃ l, depthList l ≤ d ∧ s.seq l = .panic

theorem whole_sound {α : Type} {de : Json → Res α} {finite : List Char → Bool} {d : Nat} {t : List Char} {a : α} {r : List Char} (h : Take.whole de finite d t = .ok (a, r)) :
    ∃ w u j, Space w ∧ t = w ++ (u ++ r) ∧ Value finite u j ∧ j.depth ≤ d ∧ de j = .ok a := by
  unfold Take.whole at h
  split at h
  · next j s hj =>
    obtain ⟨w, u, hw, rfl, hu, hd⟩ := value_sound _ _ _ _ _ _ hj
    obtain ⟨b, h1, h2⟩ := bind_ok_iff.mp h
    cases h2
    exact ⟨w, u, j, hw, rfl, hu, hd, h1⟩
  · cases h

theorem whole_panic {α : Type} {de : Json → Res α} {finite : List Char → Bool} {d : Nat} {t : List Char} (h : Take.whole de finite d t = .panic) :
    ∃ j, j.depth ≤ d ∧ de j = .panic := by
  unfold Take.whole at h
  split at h
  · next j s hj =>
    obtain ⟨w, u, hw, rfl, hu, hd⟩ := value_sound _ _ _ _ _ _ hj
    rcases bind_panic_iff.mp h with h | ⟨b, h1, h2⟩
    · exact ⟨j, hd, h⟩
    · cases h2
  · cases h

theorem sound_whole {α : Type} {s : Serde α} (h : s.take = Take.whole s.de) : Sound s where
  ok finite d t a r ht := by
    rw [h] at ht
    obtain ⟨w, u, j, hw, e, hu, hd, hj⟩ := whole_sound ht
    exact ⟨w, u, fun _ => j, hw, e, .value hu, hd, fun _ => hj⟩
  panic finite d t ht := by rw [h] at ht; exact whole_panic ht

theorem put_sound {α : Type} {f : JField α} (h : Sound f.type) {finite : List Char → Bool} {d : Nat} {x : Option α} {t : List Char} {y : Option α} {r : List Char}
    (ht : f.takePut finite d x t = .ok (y, r)) : ∃ w u J, Space w ∧ t = w ++ (u ++ r) ∧ Grammar.Blank finite u J ∧ (J .null).depth ≤ d ∧ ∀ v, f.put x (J v) = .ok y := by
  cases x with
  | some a => cases ht
  | none =>
    obtain ⟨⟨a, r'⟩, h1, h2⟩ := bind_ok_iff.mp ht
    cases h2
    obtain ⟨w, u, J, hw, e, hu, hd, hJ⟩ := h.ok _ _ _ _ _ h1
    exact ⟨w, u, J, hw, e, hu, hd, fun v => by simp [JField.put, hJ]⟩

theorem put_panic {α : Type} {f : JField α} (h : Sound f.type) {finite : List Char → Bool} {d : Nat} {x : Option α} {t : List Char}
    (ht : f.takePut finite d x t = .panic) : ∃ v, v.depth ≤ d ∧ f.put x v = .panic := by
  cases x with
  | some a => cases ht
  | none =>
    rcases bind_panic_iff.mp ht with ht | ⟨⟨a, r'⟩, -, h2⟩
    · obtain ⟨v, h1, h2⟩ := h.panic _ _ _ ht
      exact ⟨v, h1, by simp [JField.put, h2]⟩
    · cases h2

theorem missing_calm {α : Type} (f : JField α) : f.missing ≠ .panic := by
  unfold JField.missing Res.fail
  split <;> simp

instance {α : Type} {f : JField α} [h : Sound f.type] : SoundShape (.one f) where
  step finite d := by
    constructor
    · intro x k t y r ht
      change Option α at x y
      change (if k = f.name then f.takePut finite d x t else (do
        let t ← ofOption (skipValue (t.length + 1) t)
        pure (x, t)) : Res (Option α × List Char)) = .ok (y, r) at ht
      change ∃ w u, Space w ∧ t = w ++ (u ++ r) ∧ ((∃ J, Grammar.Blank finite u J ∧ (J .null).depth ≤ d ∧ ∀ v, (if k = f.name then f.put x (J v) else .ok x : Res (Option α)) = .ok y) ∨
        (AnyValue u ∧ ∀ v, (if k = f.name then f.put x v else .ok x : Res (Option α)) = .ok y))
      by_cases hk : k = f.name
      · rw [if_pos hk] at ht
        obtain ⟨w, u, J, hw, e, hu, hd, hJ⟩ := put_sound h ht
        exact ⟨w, u, hw, e, .inl ⟨J, hu, hd, fun v => by rw [if_pos hk]; exact hJ v⟩⟩
      · rw [if_neg hk] at ht
        obtain ⟨t', h1, h2⟩ := bind_ok_iff.mp ht
        cases h2
        obtain ⟨w, u, hw, e, hu⟩ := skipValue_sound _ _ _ (ofOption_ok.mp h1)
        exact ⟨w, u, hw, e, .inr ⟨hu, fun v => by rw [if_neg hk]⟩⟩
    · intro x k t ht
      change Option α at x
      change (if k = f.name then f.takePut finite d x t else (do
        let t ← ofOption (skipValue (t.length + 1) t)
        pure (x, t)) : Res (Option α × List Char)) = .panic at ht
      change ∃ v, v.depth ≤ d ∧ (if k = f.name then f.put x v else .ok x : Res (Option α)) = .panic
      by_cases hk : k = f.name
      · rw [if_pos hk] at ht
        obtain ⟨v, h1, h2⟩ := put_panic h ht
        exact ⟨v, h1, by rw [if_pos hk]; exact h2⟩
      · rw [if_neg hk] at ht
        rcases bind_panic_iff.mp ht with ht | ⟨t', -, h2⟩
        · exact (ofOption_calm ht).elim
        · cases h2
  seq finite d first t b r ht := by
    obtain ⟨⟨more, t1⟩, h1, ht⟩ := bind_ok_iff.mp ht
    cases more with
    | false =>
      simp only [Bool.false_eq_true, if_false] at ht
      obtain ⟨a, h2, ht⟩ := bind_ok_iff.mp ht
      cases ht
      obtain ⟨u, hu, rfl⟩ := another_false h1
      exact ⟨u, fun _ => [], rfl, .inl ⟨hu, rfl⟩, by simp [depthList], fun _ => h2⟩
    | true =>
      simp only [if_true] at ht
      obtain ⟨⟨a, t2⟩, h2, ht⟩ := bind_ok_iff.mp ht
      obtain ⟨⟨more, t3⟩, h3, ht⟩ := bind_ok_iff.mp ht
      cases more with
      | true => cases ht
      | false =>
        cases ht
        obtain ⟨w, u, J, hw, rfl, hu, hd, hJ⟩ := h.ok _ _ _ _ _ h2
        obtain ⟨u', hu', rfl⟩ := another_false h3
        obtain ⟨v, h4, h5⟩ := remainder_true (u := w ++ (u ++ u')) (r := t3) (by simpa using another_true h1) (blankElements_cons hw hu (.inl ⟨hu', rfl⟩))
        exact ⟨v, _, h4, h5, by simpa [depthList] using hd, fun x => by simp [Shape.seq, hJ]⟩
  seqPanic finite d first t ht := by
    rcases bind_panic_iff.mp ht with ht | ⟨⟨more, t1⟩, -, ht⟩
    · exact (another_calm _ _ ht).elim
    cases more with
    | false =>
      simp only [Bool.false_eq_true, if_false] at ht
      rcases bind_panic_iff.mp ht with ht | ⟨a, -, ht⟩
      · exact (missing_calm f ht).elim
      · cases ht
    | true =>
      simp only [if_true] at ht
      rcases bind_panic_iff.mp ht with ht | ⟨⟨a, t2⟩, -, ht⟩
      · obtain ⟨j, h1, h2⟩ := h.panic _ _ _ ht
        exact ⟨[j], by simpa [depthList] using h1, by simp [Shape.seq, h2]⟩
      · rcases bind_panic_iff.mp ht with ht | ⟨⟨more, t3⟩, -, ht⟩
        · exact (another_calm _ _ ht).elim
        · cases more <;> cases ht

instance {α β : Type} {f : JField α} {s : Shape β} [h : Sound f.type] [hs : SoundShape s] : SoundShape (.cons f s) where
  step finite d := by
    constructor
    · intro x k t y r ht
      simp only [Shape.takeStep] at ht
      simp only [Shape.step]
      by_cases hk : k = f.name
      · rw [if_pos hk] at ht
        obtain ⟨⟨a, t1⟩, h1, h2⟩ := bind_ok_iff.mp ht
        cases h2
        obtain ⟨w, u, J, hw, e, hu, hd, hJ⟩ := put_sound h h1
        exact ⟨w, u, hw, e, .inl ⟨J, hu, hd, fun v => by rw [if_pos hk, hJ]; rfl⟩⟩
      · rw [if_neg hk] at ht
        obtain ⟨⟨a, t1⟩, h1, h2⟩ := bind_ok_iff.mp ht
        cases h2
        obtain ⟨w, u, hw, e, hu⟩ := (hs.step finite d).ok _ _ _ _ _ h1
        refine ⟨w, u, hw, e, ?_⟩
        rcases hu with ⟨J, h1, h2, h3⟩ | ⟨h1, h2⟩
        · exact .inl ⟨J, h1, h2, fun v => by rw [if_neg hk, h3]; rfl⟩
        · exact .inr ⟨h1, fun v => by rw [if_neg hk, h2]; rfl⟩
    · intro x k t ht
      simp only [Shape.takeStep] at ht
      simp only [Shape.step]
      by_cases hk : k = f.name
      · rw [if_pos hk] at ht
        rcases bind_panic_iff.mp ht with ht | ⟨a, -, ht⟩
        · obtain ⟨v, h1, h2⟩ := put_panic h ht
          exact ⟨v, h1, by rw [if_pos hk, h2]; rfl⟩
        · cases ht
      · rw [if_neg hk] at ht
        rcases bind_panic_iff.mp ht with ht | ⟨a, -, ht⟩
        · obtain ⟨v, h1, h2⟩ := (hs.step finite d).panic _ _ _ ht
          exact ⟨v, h1, by rw [if_neg hk, h2]; rfl⟩
        · cases ht
  seq finite d first t b r ht := by
    obtain ⟨⟨more, t1⟩, h1, ht⟩ := bind_ok_iff.mp ht
    cases more with
    | false =>
      simp only [Bool.false_eq_true, if_false] at ht
      obtain ⟨a, h2, ht⟩ := bind_ok_iff.mp ht
      obtain ⟨b, h3, ht⟩ := bind_ok_iff.mp ht
      cases ht
      obtain ⟨u, hu, rfl⟩ := another_false h1
      exact ⟨u, fun _ => [], rfl, .inl ⟨hu, rfl⟩, by simp [depthList], fun _ => by simp [Shape.seq, h2, h3]⟩
    | true =>
      simp only [if_true] at ht
      obtain ⟨⟨a, t2⟩, h2, ht⟩ := bind_ok_iff.mp ht
      obtain ⟨⟨b, t3⟩, h3, ht⟩ := bind_ok_iff.mp ht
      cases ht
      obtain ⟨w, u, J, hw, rfl, hu, hd, hJ⟩ := h.ok _ _ _ _ _ h2
      obtain ⟨u', l, rfl, hl, hd', hl'⟩ := hs.seq _ _ _ _ _ _ h3
      obtain ⟨v, h4, h5⟩ := remainder_true (u := w ++ (u ++ u')) (r := t3) (by simpa using another_true h1) (blankElements_cons hw hu hl)
      exact ⟨v, _, h4, h5, by simp only [depthList]; omega, fun x => by simp [Shape.seq, hJ, hl']⟩
  seqPanic finite d first t ht := by
    have miss : ∀ {a : α}, f.missing = .ok a → s.seq [] = .panic → (Shape.cons f s).seq [] = .panic := fun h1 h2 => by simp [Shape.seq, h1, h2]
    rcases bind_panic_iff.mp ht with ht | ⟨⟨more, t1⟩, -, ht⟩
    · exact (another_calm _ _ ht).elim
    cases more with
    | false =>
      simp only [Bool.false_eq_true, if_false] at ht
      rcases bind_panic_iff.mp ht with ht | ⟨a, h1, ht⟩
      · exact (missing_calm f ht).elim
      · rcases bind_panic_iff.mp ht with ht | ⟨b, -, ht⟩
        · exact ⟨[], by simp [depthList], miss h1 ht⟩
        · cases ht
    | true =>
      simp only [if_true] at ht
      rcases bind_panic_iff.mp ht with ht | ⟨⟨a, t2⟩, h1, ht⟩
      · obtain ⟨j, h1, h2⟩ := h.panic _ _ _ ht
        exact ⟨[j], by simpa [depthList] using h1, by simp [Shape.seq, h2]⟩
      · rcases bind_panic_iff.mp ht with ht | ⟨b, -, ht⟩
        · obtain ⟨l, h2, h3⟩ := hs.seqPanic _ _ _ _ ht
          obtain ⟨w, u, J, hw, rfl, hu, hd, hJ⟩ := h.ok _ _ _ _ _ h1
          exact ⟨J .null :: l, by simp only [depthList]; omega, by simp [Shape.seq, hJ, h3]⟩
        · cases ht

/-! ## Objects -/

section

variable {X : Type} {take : X → String → List Char → Res (X × List Char)} {step : X → String → Json → Res X} {finite : List Char → Bool} {d : Nat}

theorem takeMembers_sound (h : SoundStep finite d take step) : ∀ (fuel : Nat) (x : X) (t : List Char) (y : X) (r : List Char),
    takeMembers take fuel x t = .ok (y, r) → ∃ u m, t = u ++ '}' :: r ∧ BlankMembers finite u m ∧ depthMembers (m .null) ≤ d ∧ ∀ v, runMembers step x (m v) = .ok y
  | 0, _, _, _, _, ht => by cases ht
  | fuel + 1, x, t, y, r, ht => by
    rw [takeMembers] at ht
    obtain ⟨⟨k, t1⟩, h1, ht'⟩ := bind_ok_iff.mp ht
    clear ht
    obtain ⟨⟨x1, t2⟩, h2, ht⟩ := bind_ok_iff.mp ht'
    clear ht'
    obtain ⟨⟨more, t3⟩, h3, ht'⟩ := bind_ok_iff.mp ht
    clear ht
    have ht := ht'
    clear ht'
    obtain ⟨w0, key, w1, hw0, hk, hw1, rfl⟩ := readKey_sound (ofOption_ok.mp h1)
    obtain ⟨w, u, hw, rfl, hu⟩ := h.ok _ _ _ _ _ h2
    obtain ⟨w', hw', h4⟩ := readSeparator_sound (ofOption_ok.mp h3)
    rcases h4 with ⟨rfl, rfl⟩ | ⟨rfl, rfl⟩
    · simp only [if_true] at ht
      obtain ⟨u', m, rfl, hm, hd, hr⟩ := takeMembers_sound h fuel _ _ _ _ ht
      rcases hu with ⟨J, hJ, hd', hs⟩ | ⟨hu, hs⟩
      · exact ⟨w0 ++ (key ++ (w1 ++ ':' :: (w ++ (u ++ (w' ++ ',' :: u'))))), _, by simp, .cons hw0 hk hw1 hw hJ hw' hm, by simp only [depthMembers]; omega,
          fun v => by simp [runMembers, hs, hr]⟩
      · exact ⟨w0 ++ (key ++ (w1 ++ ':' :: (w ++ (u ++ (w' ++ ',' :: u'))))), _, by simp, .blankCons hw0 hk hw1 hw hu hw' hm, by simp only [depthMembers, depth]; omega,
          fun v => by simp [runMembers, hs, hr]⟩
    · cases ht
      rcases hu with ⟨J, hJ, hd', hs⟩ | ⟨hu, hs⟩
      · exact ⟨w0 ++ (key ++ (w1 ++ ':' :: (w ++ (u ++ w')))), _, by simp, .one hw0 hk hw1 hw hJ hw', by simp only [depthMembers]; omega,
          fun v => by simp [runMembers, hs]⟩
      · exact ⟨w0 ++ (key ++ (w1 ++ ':' :: (w ++ (u ++ w')))), _, by simp, .blankOne hw0 hk hw1 hw hu hw', by simp only [depthMembers, depth]; omega,
          fun v => by simp [runMembers, hs]⟩

theorem takeMembers_panic (h : SoundStep finite d take step) : ∀ (fuel : Nat) (x : X) (t : List Char),
    takeMembers take fuel x t = .panic → ∃ m, depthMembers m ≤ d ∧ runMembers step x m = .panic
  | 0, _, _, ht => by cases ht
  | fuel + 1, x, t, ht => by
    rw [takeMembers] at ht
    rcases bind_panic_iff.mp ht with ht | ⟨⟨k, t1⟩, h1, ht⟩
    · exact (ofOption_calm ht).elim
    rcases bind_panic_iff.mp ht with ht | ⟨⟨x1, t2⟩, h2, ht⟩
    · obtain ⟨v, h2, h3⟩ := h.panic _ _ _ ht
      exact ⟨[(k, v)], by simp only [depthMembers]; omega, by simp [runMembers, h3]⟩
    rcases bind_panic_iff.mp ht with ht | ⟨⟨more, t3⟩, h3, ht⟩
    · exact (ofOption_calm ht).elim
    cases more with
    | false => cases ht
    | true =>
      obtain ⟨m, hm, hr⟩ := takeMembers_panic h fuel _ _ ht
      obtain ⟨w, u, hw, rfl, hu⟩ := h.ok _ _ _ _ _ h2
      rcases hu with ⟨J, hJ, hd', hs⟩ | ⟨hu, hs⟩
      · exact ⟨(k, J .null) :: m, by simp only [depthMembers]; omega, by simp [runMembers, hs, hr]⟩
      · exact ⟨(k, .null) :: m, by simp only [depthMembers, depth]; omega, by simp [runMembers, hs, hr]⟩

theorem takeObject_sound (h : SoundStep finite d take step) {x : X} {t : List Char} {y : X} {r : List Char} (ht : takeObject take x t = .ok (y, r)) :
    ∃ (u : List Char) (m : Json → List (String × Json)), '{' :: t = u ++ r ∧ Grammar.Blank finite u (fun v => .obj (m v)) ∧ depthMembers (m .null) ≤ d ∧ ∀ v, runMembers step x (m v) = .ok y := by
  unfold takeObject at ht
  split at ht
  · next hc =>
    cases ht
    obtain ⟨w, hw, hs⟩ := skip_split t
    refine ⟨'{' :: (w ++ ['}']), fun _ => [], ?_, .value (.noMembers hs), by simp [depthMembers], fun _ => rfl⟩
    conv => lhs; rw [hw, head_tail hc]
    simp
  · obtain ⟨u, m, rfl, hm, hd, hr⟩ := takeMembers_sound h _ _ _ _ _ ht
    exact ⟨'{' :: (u ++ ['}']), m, by simp, .members hm, hd, hr⟩

theorem takeObject_panic (h : SoundStep finite d take step) {x : X} {t : List Char} (ht : takeObject take x t = .panic) :
    ∃ m, depthMembers m ≤ d ∧ runMembers step x m = .panic := by
  unfold takeObject at ht
  split at ht
  · cases ht
  · exact takeMembers_panic h _ _ _ ht

end

theorem take_sound {β : Type} {s : Shape β} (h : SoundShape s) {finite : List Char → Bool} {d : Nat} {t : List Char} {b : β} {r : List Char}
    (ht : s.take finite d t = .ok (b, r)) : ∃ w u J, Space w ∧ t = w ++ (u ++ r) ∧ Grammar.Blank finite u J ∧ (J .null).depth ≤ d ∧ ∀ x, s.de (J x) = .ok b := by
  unfold Shape.take at ht
  obtain ⟨w, hw, hs⟩ := skip_split t
  split at ht
  · cases ht
  next c t' e =>
  rw [e] at hw
  split at ht
  · next hc =>
    subst hc
    split at ht
    · cases ht
    obtain ⟨⟨x, t1⟩, h1, ht⟩ := bind_ok_iff.mp ht
    obtain ⟨b', h2, ht⟩ := bind_ok_iff.mp ht
    cases ht
    obtain ⟨u, m, h3, h4, h5, h6⟩ := takeObject_sound (h.step finite (d - 1)) h1
    exact ⟨w, u, _, hs, by rw [hw, h3], h4, by simp only [depth]; omega, fun v => by simp [Shape.de, run_eq, h6, h2]⟩
  split at ht
  · next hc =>
    subst hc
    split at ht
    · cases ht
    obtain ⟨u, l, rfl, hl, hd, hl'⟩ := h.seq _ _ _ _ _ _ ht
    rcases hl with ⟨hu, rfl⟩ | hl
    · exact ⟨w, '[' :: (u ++ [']']), fun _ => .arr [], hs, by rw [hw]; simp, .value (.noElements hu), by simp only [depth, depthList]; omega, hl'⟩
    · exact ⟨w, '[' :: (u ++ [']']), _, hs, by rw [hw]; simp, .elements hl, by simp only [depth]; omega, hl'⟩
  · cases ht

theorem get_calm {α : Type} (f : JField α) (x : Option α) : f.get x ≠ .panic := by
  cases x with
  | none => exact missing_calm f
  | some a => simp [JField.get]

theorem take_panic {β : Type} {s : Shape β} (h : SoundShape s) {finite : List Char → Bool} {d : Nat} {t : List Char}
    (ht : s.take finite d t = .panic) : ∃ j, j.depth ≤ d ∧ s.de j = .panic := by
  unfold Shape.take at ht
  split at ht
  · cases ht
  next c t' e =>
  split at ht
  · next hc =>
    subst hc
    split at ht
    · cases ht
    rcases bind_panic_iff.mp ht with ht | ⟨⟨x, t1⟩, h1, ht⟩
    · obtain ⟨m, h1, h2⟩ := takeObject_panic (h.step finite (d - 1)) ht
      exact ⟨.obj m, by simp only [depth]; omega, by simp [Shape.de, run_eq, h2]⟩
    · rcases bind_panic_iff.mp ht with ht | ⟨b, -, ht⟩
      · obtain ⟨u, m, h3, h4, h5, h6⟩ := takeObject_sound (h.step finite (d - 1)) h1
        exact ⟨.obj (m .null), by simp only [depth]; omega, by simp [Shape.de, run_eq, h6, ht]⟩
      · cases ht
  split at ht
  · next hc =>
    subst hc
    split at ht
    · cases ht
    obtain ⟨l, h1, h2⟩ := h.seqPanic _ _ _ _ ht
    exact ⟨.arr l, by simp only [depth]; omega, h2⟩
  · cases ht

instance {α β : Type} {s : Shape β} [h : SoundShape s] (fields : α → β) (build : β → α) : Sound (record s fields build) where
  ok finite d t a r ht := by
    obtain ⟨⟨b, t1⟩, h1, ht⟩ := bind_ok_iff.mp ht
    cases ht
    obtain ⟨w, u, J, hw, e, hu, hd, hJ⟩ := take_sound h h1
    exact ⟨w, u, J, hw, e, hu, hd, fun x => by simp [record, hJ]⟩
  panic finite d t ht := by
    rcases bind_panic_iff.mp ht with ht | ⟨⟨b, t1⟩, h1, ht⟩
    · obtain ⟨j, h1, h2⟩ := take_panic h ht
      exact ⟨j, h1, by simp [record, h2]⟩
    · cases ht

/-! ## Arrays -/

theorem takeEach_sound {α : Type} {s : Serde α} (h : Sound s) {finite : List Char → Bool} {d : Nat} : ∀ (fuel : Nat) (t : List Char) (l : List α) (r : List Char),
    takeEach s.take finite fuel d t = .ok (l, r) → ∃ u js, t = u ++ ']' :: r ∧ BlankElements finite u js ∧ depthList (js .null) ≤ d ∧ ∀ x, each s.de (js x) = .ok l
  | 0, _, _, _, ht => by cases ht
  | fuel + 1, t, l, r, ht => by
    rw [takeEach] at ht
    obtain ⟨⟨a, t1⟩, h1, ht'⟩ := bind_ok_iff.mp ht
    clear ht
    obtain ⟨⟨more, t2⟩, h2, ht⟩ := bind_ok_iff.mp ht'
    clear ht'
    obtain ⟨w, u, J, hw, rfl, hu, hd, hJ⟩ := h.ok _ _ _ _ _ h1
    obtain ⟨w', hw', h3⟩ := readSeparator_sound (ofOption_ok.mp h2)
    rcases h3 with ⟨rfl, rfl⟩ | ⟨rfl, rfl⟩
    · simp only [if_true] at ht
      obtain ⟨⟨l', t3⟩, h3, ht⟩ := bind_ok_iff.mp ht
      cases ht
      obtain ⟨u', js, rfl, hm, hd', hr⟩ := takeEach_sound h fuel _ _ _ h3
      exact ⟨w ++ (u ++ (w' ++ ',' :: u')), _, by simp, .cons hw hu hw' hm, by simp only [depthList]; omega, fun x => by simp [each, hJ, hr]⟩
    · cases ht
      exact ⟨w ++ (u ++ w'), _, by simp, .one hw hu hw', by simp only [depthList]; omega, fun x => by simp [each, hJ]⟩

theorem takeEach_panic {α : Type} {s : Serde α} (h : Sound s) {finite : List Char → Bool} {d : Nat} : ∀ (fuel : Nat) (t : List Char),
    takeEach s.take finite fuel d t = .panic → ∃ js, depthList js ≤ d ∧ each s.de js = .panic
  | 0, _, ht => by cases ht
  | fuel + 1, t, ht => by
    rw [takeEach] at ht
    rcases bind_panic_iff.mp ht with ht | ⟨⟨a, t1⟩, h1, ht⟩
    · obtain ⟨j, h2, h3⟩ := h.panic _ _ _ ht
      exact ⟨[j], by simp only [depthList]; omega, by simp [each, h3]⟩
    rcases bind_panic_iff.mp ht with ht | ⟨⟨more, t2⟩, h2, ht⟩
    · exact (ofOption_calm ht).elim
    cases more with
    | false => cases ht
    | true =>
      simp only [if_true] at ht
      rcases bind_panic_iff.mp ht with ht | ⟨⟨l, t3⟩, -, ht⟩
      · obtain ⟨js, hm, hr⟩ := takeEach_panic h fuel _ ht
        obtain ⟨w, u, J, hw, rfl, hu, hd, hJ⟩ := h.ok _ _ _ _ _ h1
        exact ⟨J .null :: js, by simp only [depthList]; omega, by simp [each, hJ, hr]⟩
      · cases ht

instance {α : Type} {s : Serde α} [h : Sound s] : Sound (list s) where
  ok finite d t a r ht := by
    simp only [list] at ht
    obtain ⟨w, hw, hs⟩ := skip_split t
    split at ht
    · cases ht
    next c t' e =>
    rw [e] at hw
    split at ht
    · next hc =>
      subst hc
      split at ht
      · cases ht
      split at ht
      · next hc =>
        cases ht
        obtain ⟨w1, hw1, hs1⟩ := skip_split t'
        refine ⟨w, '[' :: (w1 ++ [']']), fun _ => .arr [], hs, ?_, .value (.noElements hs1), by simp only [depth, depthList]; omega, fun _ => rfl⟩
        conv => lhs; rw [hw, hw1, head_tail hc]
        simp
      · obtain ⟨u, js, rfl, hm, hd, hr⟩ := takeEach_sound h _ _ _ _ ht
        exact ⟨w, '[' :: (u ++ [']']), _, hs, by rw [hw]; simp, .elements hm, by simp only [depth]; omega, hr⟩
    · cases ht
  panic finite d t ht := by
    simp only [list] at ht
    split at ht
    · cases ht
    split at ht
    · split at ht
      · cases ht
      split at ht
      · cases ht
      · obtain ⟨js, hd, hr⟩ := takeEach_panic h _ _ ht
        exact ⟨.arr js, by simp only [depth]; omega, hr⟩
    · cases ht

theorem option_some {α : Type} {s : Serde α} {j : Json} (h : j ≠ .null) : (option s).de j = (do let a ← s.de j; pure (some a)) := by
  cases j with
  | null => exact absurd rfl h
  | _ => rfl

/-- Only the word stands for null. -/
theorem blank_null {finite : List Char → Bool} {u : List Char} {J : Json → Json} (hu : Grammar.Blank finite u J) (h : u.head? ≠ some 'n') (x : Json) : J x ≠ .null := by
  cases hu with
  | elements => exact Json.noConfusion
  | members => exact Json.noConfusion
  | value hv =>
    cases hv with
    | null => exact absurd rfl h
    | number hn => rcases number_kind hn with ⟨n, rfl⟩ | ⟨k, rfl⟩ | rfl <;> exact Json.noConfusion
    | _ => exact Json.noConfusion

theorem blank_cons {finite : List Char → Bool} {u : List Char} {J : Json → Json} (hu : Grammar.Blank finite u J) :
    ∃ c t, u = c :: t ∧ c ∉ [' ', '\t', '\n', '\r'] ∧ c ≠ ']' := anyValue_head (anyValue_blank hu)

/-- A type that reads no null. -/
class NotNull {α : Type} (s : Serde α) : Prop where
  notNull : s.de .null = .fail

instance {α : Type} {s : Serde α} [h : Sound s] [hn : NotNull s] : Sound (option s) where
  ok finite d t a r ht := by
    simp only [option] at ht
    split at ht
    · next hc =>
      obtain ⟨t1, h1, ht⟩ := bind_ok_iff.mp ht
      cases ht
      obtain ⟨w, hw, hs⟩ := skip_split t
      have := skipWord_sound (ofOption_ok.mp h1)
      exact ⟨w, ['n', 'u', 'l', 'l'], fun _ => .null, hs, by rw [← this, ← hw], .value .null, by simp [depth], fun _ => rfl⟩
    · next hc =>
      obtain ⟨⟨a, t1⟩, h1, ht⟩ := bind_ok_iff.mp ht
      cases ht
      obtain ⟨w, u, J, hw, rfl, hu, hd, hJ⟩ := h.ok _ _ _ _ _ h1
      obtain ⟨c, u', rfl, h2, -⟩ := blank_cons hu
      rw [skip_append hw, List.cons_append, skip_cons h2] at hc
      exact ⟨w, c :: u', J, hw, rfl, hu, hd, fun x => by rw [option_some (blank_null hu (by simpa using hc) x), hJ]; rfl⟩
  panic finite d t ht := by
    simp only [option] at ht
    split at ht
    · rcases bind_panic_iff.mp ht with ht | ⟨t1, -, ht⟩
      · exact (ofOption_calm ht).elim
      · cases ht
    · rcases bind_panic_iff.mp ht with ht | ⟨t1, -, ht⟩
      · obtain ⟨j, h1, h2⟩ := h.panic _ _ _ ht
        refine ⟨j, h1, ?_⟩
        rw [option_some, h2]
        · rfl
        · rintro rfl
          rw [hn.notNull] at h2
          cases h2
      · cases ht

instance {α : Type} {s : Serde α} {k : String} [h : Sound s] : Sound (JField.req k s).type := h
instance {α : Type} {s : Serde (List α)} {k : String} [h : Sound s] : Sound (JField.vec k s).type := h
instance {α : Type} {s : Serde (Option α)} {k : String} [h : Sound s] : Sound (JField.opt? k s).type := h

/-! ## The types -/

variable {E : Env}

instance : Sound string := sound_whole rfl

theorem sound_policyMember (finite : List Char → Bool) (d : Nat) : SoundStep finite d (takePolicyMember finite d) policyMember where
  ok x k t y r ht := by
    simp only [takePolicyMember] at ht
    simp only [policyMember]
    split at ht
    · next hk =>
      obtain ⟨⟨s, t1⟩, h1, ht⟩ := bind_ok_iff.mp ht
      cases ht
      obtain ⟨w, u, J, hw, e, hu, hd, hJ⟩ := Sound.ok _ _ _ _ _ h1
      exact ⟨w, u, hw, e, .inl ⟨J, hu, hd, fun v => by rw [if_pos hk, hJ]; rfl⟩⟩
    split at ht
    · next hk0 hk =>
      obtain ⟨⟨s, t1⟩, h1, ht⟩ := bind_ok_iff.mp ht
      cases ht
      obtain ⟨w, u, j, hw, e, hu, hd, hJ⟩ := whole_sound h1
      exact ⟨w, u, hw, e, .inl ⟨fun _ => j, .value hu, hd, fun v => by rw [if_neg hk0, if_pos hk]; cases hJ; rfl⟩⟩
    · cases ht
  panic x k t ht := by
    simp only [takePolicyMember] at ht
    simp only [policyMember]
    split at ht
    · next hk =>
      rcases bind_panic_iff.mp ht with ht | ⟨⟨s, t1⟩, h1, ht⟩
      · obtain ⟨j, h1, h2⟩ := Sound.panic _ _ _ ht
        exact ⟨j, h1, by rw [if_pos hk, h2]; rfl⟩
      · cases ht
    split at ht
    · rcases bind_panic_iff.mp ht with ht | ⟨⟨s, t1⟩, h1, ht⟩
      · obtain ⟨j, -, h2⟩ := whole_panic ht
        cases h2
      · cases ht
    · cases ht

instance : Sound (policy E) where
  ok finite d t a r ht := by
    simp only [policy] at ht ⊢
    generalize E.stack = n at ht ⊢
    unfold takePolicy at ht
    obtain ⟨w, hw, hs⟩ := skip_split t
    split at ht
    · cases ht
    · cases ht
    next n c t' e =>
    rw [e] at hw
    split at ht
    · next hc =>
      subst hc
      split at ht
      · cases ht
      obtain ⟨⟨x, t1⟩, h1, ht⟩ := bind_ok_iff.mp ht
      obtain ⟨u, m, h3, h4, h5, h6⟩ := takeObject_sound (sound_policyMember finite (d - 1)) h1
      simp only at ht
      split at ht
      · obtain ⟨p, h7, ht⟩ := bind_ok_iff.mp ht
        cases ht
        refine ⟨w, u, _, hs, by rw [hw, h3], h4, by simp only [depth]; omega, fun v => ?_⟩
        rw [← h7, ← dePolicy_last]
        rw [policyMembers_eq]
        exact h6 v
      · cases ht
    · cases ht
  panic finite d t ht := by
    simp only [policy] at ht ⊢
    generalize E.stack = n at ht ⊢
    unfold takePolicy at ht
    split at ht
    · exact ⟨.null, by simp [depth], rfl⟩
    · cases ht
    next n c t' e =>
    split at ht
    · split at ht
      · cases ht
      rcases bind_panic_iff.mp ht with ht | ⟨⟨x, t1⟩, h1, ht⟩
      · obtain ⟨m, h1, h2⟩ := takeObject_panic (sound_policyMember finite (d - 1)) ht
        exact ⟨.obj m, by simp only [depth]; omega, by simp [dePolicy, policyMembers_eq, h2]⟩
      · obtain ⟨u, m, h3, h4, h5, h6⟩ := takeObject_sound (sound_policyMember finite (d - 1)) h1
        simp only at ht
        split at ht
        · rcases bind_panic_iff.mp ht with ht | ⟨p, h7, ht⟩
          · refine ⟨.obj (m .null), by simp only [depth]; omega, ?_⟩
            rw [← ht, ← dePolicy_last]
            rw [policyMembers_eq]
            exact h6 .null
          · cases ht
        · cases ht
    · cases ht

instance (write : α → Res String) (read : String → Res α) : Sound (text write read) := sound_whole rfl
instance : Sound u64 := sound_whole rfl
instance : Sound u8 := sound_whole rfl
instance : Sound bool := sound_whole rfl
instance : Sound duration := sound_whole rfl
instance : Sound (currency E) := sound_whole rfl
instance : Sound id := by unfold id; infer_instance
instance : Sound (address E) := by unfold address; infer_instance
instance : Sound key := by unfold key; infer_instance
instance : Sound signature := by unfold signature; infer_instance
instance : Sound leaf := by unfold leaf; infer_instance
instance : Sound unlockKey := by unfold unlockKey; infer_instance
instance : Sound work := by unfold work; infer_instance
instance : Sound base64 := by unfold base64; infer_instance
instance : Sound (time E) := by unfold time; infer_instance
instance : Sound (times E) := sound_whole rfl
instance : NotNull (address E) := ⟨rfl⟩
instance : NotNull id := ⟨rfl⟩
instance : NotNull signature := ⟨rfl⟩
instance : Sound chainIndex := by unfold chainIndex; infer_instance
instance : Sound (siacoinOutput E) := by unfold siacoinOutput; infer_instance
instance : Sound (siafundOutput E) := by unfold siafundOutput; infer_instance
instance : Sound stateElement := by unfold stateElement; infer_instance
instance : Sound unlockConditions := by unfold unlockConditions; infer_instance
instance : Sound v1SiacoinInput := by unfold v1SiacoinInput; infer_instance
instance : Sound (v1SiafundInput E) := by unfold v1SiafundInput; infer_instance
instance : Sound (v1FileContract E) := by unfold v1FileContract; infer_instance
instance : Sound (v1FileContractRevision E) := by unfold v1FileContractRevision; infer_instance
instance : Sound v1StorageProof := by unfold v1StorageProof; infer_instance
instance : Sound coveredFields := by unfold coveredFields; infer_instance
instance : Sound transactionSignature := by unfold transactionSignature; infer_instance
instance : Sound (v1Transaction E) := by unfold v1Transaction; infer_instance
instance : Sound (block E) := by unfold block; infer_instance
instance : Sound (satisfiedPolicy E) := by unfold satisfiedPolicy; infer_instance
instance : Sound attestation := by unfold attestation; infer_instance
instance : Sound (v2FileContract E) := by unfold v2FileContract; infer_instance
instance : Sound (siacoinElement E) := by unfold siacoinElement; infer_instance
instance : Sound (siafundElement E) := by unfold siafundElement; infer_instance
instance : Sound (fileContractElement E) := by unfold fileContractElement; infer_instance
instance : Sound chainIndexElement := by unfold chainIndexElement; infer_instance
instance : Sound (v2SiacoinInput E) := by unfold v2SiacoinInput; infer_instance
instance : Sound (v2SiafundInput E) := by unfold v2SiafundInput; infer_instance
instance : Sound (v2FileContractRevision E) := by unfold v2FileContractRevision; infer_instance
instance : Sound (renewal E) := by unfold renewal; infer_instance
instance : Sound v2StorageProof := by unfold v2StorageProof; infer_instance

theorem sound_resolutionMember (finite : List Char → Bool) (d : Nat) : SoundStep finite d (takeResolutionMember E finite d) (resolutionMember E) where
  ok x k t y r ht := by
    simp only [takeResolutionMember] at ht
    simp only [resolutionMember]
    split at ht
    · next hk =>
      obtain ⟨⟨s, t1⟩, h1, ht⟩ := bind_ok_iff.mp ht
      cases ht
      obtain ⟨w, u, J, hw, e, hu, hd, hJ⟩ := Sound.ok _ _ _ _ _ h1
      exact ⟨w, u, hw, e, .inl ⟨J, hu, hd, fun v => by rw [if_pos hk, hJ]; rfl⟩⟩
    split at ht
    · next hk0 hk =>
      obtain ⟨⟨s, t1⟩, h1, ht⟩ := bind_ok_iff.mp ht
      cases ht
      obtain ⟨w, u, J, hw, e, hu, hd, hJ⟩ := Sound.ok _ _ _ _ _ h1
      exact ⟨w, u, hw, e, .inl ⟨J, hu, hd, fun v => by rw [if_neg hk0, if_pos hk, hJ]; rfl⟩⟩
    split at ht
    · next hk0 hk1 hk =>
      obtain ⟨⟨s, t1⟩, h1, ht⟩ := bind_ok_iff.mp ht
      cases ht
      obtain ⟨w, u, j, hw, e, hu, hd, hJ⟩ := whole_sound h1
      exact ⟨w, u, hw, e, .inl ⟨fun _ => j, .value hu, hd, fun v => by rw [if_neg hk0, if_neg hk1, if_pos hk]; cases hJ; rfl⟩⟩
    · cases ht
  panic x k t ht := by
    simp only [takeResolutionMember] at ht
    simp only [resolutionMember]
    split at ht
    · next hk =>
      rcases bind_panic_iff.mp ht with ht | ⟨⟨s, t1⟩, h1, ht⟩
      · obtain ⟨j, h1, h2⟩ := Sound.panic _ _ _ ht
        exact ⟨j, h1, by rw [if_pos hk, h2]; rfl⟩
      · cases ht
    split at ht
    · next hk0 hk =>
      rcases bind_panic_iff.mp ht with ht | ⟨⟨s, t1⟩, h1, ht⟩
      · obtain ⟨j, h1, h2⟩ := Sound.panic _ _ _ ht
        exact ⟨j, h1, by rw [if_neg hk0, if_pos hk, h2]; rfl⟩
      · cases ht
    split at ht
    · rcases bind_panic_iff.mp ht with ht | ⟨⟨s, t1⟩, h1, ht⟩
      · obtain ⟨j, -, h2⟩ := whole_panic ht
        cases h2
      · cases ht
    · cases ht

instance : Sound (resolution E) where
  ok finite d t a r ht := by
    simp only [resolution] at ht
    obtain ⟨w, hw, hs⟩ := skip_split t
    split at ht
    · cases ht
    next c t' e =>
    rw [e] at hw
    split at ht
    · next hc =>
      subst hc
      split at ht
      · cases ht
      obtain ⟨⟨x, t1⟩, h1, ht⟩ := bind_ok_iff.mp ht
      obtain ⟨u, m, h3, h4, h5, h6⟩ := takeObject_sound (sound_resolutionMember finite (d - 1)) h1
      obtain ⟨p, h7, ht⟩ := bind_ok_iff.mp ht
      cases ht
      exact ⟨w, u, _, hs, by rw [hw, h3], h4, by simp only [depth]; omega, fun v => by simp [resolution, resolutionMembers_eq, h6, h7]⟩
    · cases ht
  panic finite d t ht := by
    simp only [resolution] at ht
    split at ht
    · cases ht
    split at ht
    · split at ht
      · cases ht
      rcases bind_panic_iff.mp ht with ht | ⟨⟨x, t1⟩, h1, ht⟩
      · obtain ⟨m, h1, h2⟩ := takeObject_panic (sound_resolutionMember finite (d - 1)) ht
        exact ⟨.obj m, by simp only [depth]; omega, by simp [resolution, resolutionMembers_eq, h2]⟩
      · obtain ⟨u, m, h3, h4, h5, h6⟩ := takeObject_sound (sound_resolutionMember finite (d - 1)) h1
        rcases bind_panic_iff.mp ht with ht | ⟨p, h7, ht⟩
        · exact ⟨.obj (m .null), by simp only [depth]; omega, by simp [resolution, resolutionMembers_eq, h6, ht]⟩
        · cases ht
    · cases ht

instance : Sound (v2Transaction E) := by unfold v2Transaction; infer_instance

instance : Sound accumulator where
  ok finite d t a r ht := by
    have h : SoundShape (Shape.cons (JField.req "numLeaves" u64) (.one (.req "trees" (list id)))) := inferInstance
    obtain ⟨⟨b, t1⟩, h1, ht⟩ := bind_ok_iff.mp ht
    obtain ⟨c, h2, ht⟩ := bind_ok_iff.mp ht
    cases ht
    obtain ⟨w, u, J, hw, e, hu, hd, hJ⟩ := take_sound h h1
    exact ⟨w, u, J, hw, e, hu, hd, fun x => by simp [accumulator, hJ, h2]⟩
  panic finite d t ht := by
    have h : SoundShape (Shape.cons (JField.req "numLeaves" u64) (.one (.req "trees" (list id)))) := inferInstance
    rcases bind_panic_iff.mp ht with ht | ⟨⟨b, t1⟩, h1, ht⟩
    · obtain ⟨j, h1, h2⟩ := take_panic h ht
      exact ⟨j, h1, by simp [accumulator, h2]⟩
    · rcases bind_panic_iff.mp ht with ht | ⟨c, -, ht⟩
      · obtain ⟨w, u, J, hw, e, hu, hd, hJ⟩ := take_sound h h1
        exact ⟨J .null, hd, by simp [accumulator, hJ, ht]⟩
      · cases ht

instance : Sound (state E) := by unfold state; infer_instance
instance : Sound (hardforkDevAddr E) := by unfold hardforkDevAddr; infer_instance
instance : Sound hardforkHeight := by unfold hardforkHeight; infer_instance
instance : Sound (hardforkOak E) := by unfold hardforkOak; infer_instance
instance : Sound hardforkASIC := by unfold hardforkASIC; infer_instance
instance : Sound (hardforkFoundation E) := by unfold hardforkFoundation; infer_instance
instance : Sound hardforkV2 := by unfold hardforkV2; infer_instance
instance : Sound (network E) := by unfold network; infer_instance
instance : Sound (chainState E) := by unfold chainState; infer_instance

/-- `from_str` on any text. -/
theorem ofText_ok {α : Type} {s : Serde α} [h : Sound s] {finite : List Char → Bool} {t : List Char} {a : α} (ht : s.ofText finite t = .ok a) :
    ∃ J, BlankDocument finite t J ∧ (J .null).depth < 128 ∧ ∀ x, s.de (J x) = .ok a := by
  obtain ⟨⟨b, r⟩, h1, h2⟩ := bind_ok_iff.mp ht
  simp only at h2
  split at h2
  · next hr =>
    cases h2
    obtain ⟨w, u, J, hw, rfl, hu, hd, hJ⟩ := h.ok _ _ _ _ _ h1
    exact ⟨J, ⟨w, u, r, rfl, hw, hu, (skip_nil_iff r).mp hr⟩, by omega, hJ⟩
  · cases h2

theorem ofText_panic {α : Type} {s : Serde α} [h : Sound s] {finite : List Char → Bool} {t : List Char} (ht : s.ofText finite t = .panic) :
    ∃ j, j.depth < 128 ∧ s.de j = .panic := by
  rcases bind_panic_iff.mp ht with ht | ⟨⟨b, r⟩, -, ht⟩
  · obtain ⟨j, hd, hj⟩ := h.panic _ _ _ ht
    exact ⟨j, by omega, hj⟩
  · simp only at ht
    split at ht <;> cases ht

end Serde

end Verif
