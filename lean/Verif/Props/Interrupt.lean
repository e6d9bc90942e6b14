import Verif.Spec.Interrupt
import Verif.Props.Reader
import Verif.Props.Writer

/-!
# C43 and C62: interrupted readers and writers
-/

namespace Verif

variable {σ ε ι ο : Type}

namespace Raw

theorem Answers.unique {R : Raw σ ι ο} {s s₁ s₂ : σ} {i : ι} {o₁ o₂ : ο} (h₁ : R.Answers s i s₁ o₁) (h₂ : R.Answers s i s₂ o₂) :
    s₁ = s₂ ∧ o₁ = o₂ := by
  induction h₁ with
  | now c =>
    cases h₂ with
    | now c' => rw [c] at c'; cases c'; exact ⟨rfl, rfl⟩
    | again c' _ => rw [c] at c'; cases c'
  | again c _ ih =>
    cases h₂ with
    | now c' => rw [c] at c'; cases c'
    | again c' h => rw [c] at c'; cases c'; exact ih h

/-- The calls without the interruptions. -/
noncomputable def ask {R : Raw σ ι ο} (h : R.Patient) (s : σ) (i : ι) : σ × ο := ((h s i).choose, (h s i).choose_spec.choose)

theorem ask_iff {R : Raw σ ι ο} (h : R.Patient) (s : σ) (i : ι) (s' : σ) (o : ο) : ask h s i = (s', o) ↔ R.Answers s i s' o := by
  have a : R.Answers s i (ask h s i).1 (ask h s i).2 := (h s i).choose_spec.choose_spec
  constructor
  · intro e; rw [e] at a; exact a
  · intro b
    obtain ⟨e₁, e₂⟩ := a.unique b
    exact Prod.ext e₁ e₂

end Raw

open Raw

/-- Every reader and every writer that is not interrupted for ever has a version without the interruptions, and only one. -/
theorem C62_quiet (R : RawSource σ ε) (h : R.Patient) : ∃ S, QuietRead R S ∧ ∀ S', QuietRead R S' → S' = S := by
  refine ⟨⟨ask h⟩, ask_iff h, fun S' h' => ?_⟩
  obtain ⟨r⟩ := S'
  congr
  funext s n
  exact ((ask_iff h s n _ _).2 ((h' s n _ _).1 rfl)).symm

theorem C43_quiet (R : RawSink σ ε) (h : R.Patient) : ∃ S, QuietWrite R S ∧ ∀ S', QuietWrite R S' → S' = S := by
  refine ⟨⟨ask h⟩, ask_iff h, fun S' h' => ?_⟩
  obtain ⟨r⟩ := S'
  congr
  funext s n
  exact ((ask_iff h s n _ _).2 ((h' s n _ _).1 rfl)).symm

theorem Filled.of_answers {R : RawSource σ ε} {n : Nat} {s s' : σ} {o : Except ε (List UInt8)} (hn : n ≠ 0) (h : R.Answers s n s' o)
    {g : Got σ ε Unit} (hg : ∀ t, R.call t n = (s', some o) → Filled R n t g) : Filled R n s g := by
  induction h with
  | now c => exact hg _ c
  | again c _ ih => exact .again hn c (ih hn hg)

theorem Flushed.of_answers {R : RawSink σ ε} {buf : List UInt8} {s s' : σ} {o : Except ε Nat} (hn : buf ≠ []) (h : R.Answers s buf s' o)
    {g : Wrote σ ε} (hg : ∀ t, R.call t buf = (s', some o) → Flushed R buf t g) : Flushed R buf s g := by
  induction h with
  | now c => exact hg _ c
  | again c _ ih => exact .again hn c (ih hn hg)

theorem filled_fill {R : RawSource σ ε} {S : Source σ ε} (h : QuietRead R S) (n : Nat) (s : σ) : Filled R n s (Rd.fill S n s) := by
  induction n using Nat.strongRecOn generalizing s with
  | ind n ih =>
    rw [Rd.fill]
    by_cases hn : n = 0
    · subst hn; exact .full s
    · rw [dif_neg hn]
      rcases hr : S.read s n with ⟨s', e | bs⟩
      · exact .of_answers hn ((h _ _ _ _).1 hr) fun t c => .failed hn c
      · simp only
        by_cases hb : bs = []
        · subst hb
          rw [dif_pos rfl]
          exact .of_answers hn ((h _ _ _ _).1 hr) fun t c => .ended hn c
        · rw [dif_neg hb]
          refine .of_answers hn ((h _ _ _ _).1 hr) fun t c => .more hn c hb (ih _ ?_ s')
          have : bs.length ≠ 0 := by simpa using hb
          simp only [List.length_take]
          omega

theorem Filled.unique {R : RawSource σ ε} {n : Nat} {s : σ} {g₁ g₂ : Got σ ε Unit} (h₁ : Filled R n s g₁) (h₂ : Filled R n s g₂) : g₁ = g₂ := by
  induction h₁ generalizing g₂ with
  | full s => cases h₂ <;> first | rfl | contradiction
  | again r c _ ih => cases h₂ with
    | full => contradiction
    | again _ c' h => rw [c] at c'; cases c'; exact ih h
    | failed _ c' => rw [c] at c'; cases c'
    | ended _ c' => rw [c] at c'; cases c'
    | more _ c' => rw [c] at c'; cases c'
  | failed r c => cases h₂ with
    | full => contradiction
    | again _ c' h => rw [c] at c'; cases c'
    | failed _ c' => rw [c] at c'; cases c'; rfl
    | ended _ c' => rw [c] at c'; cases c'
    | more _ c' => rw [c] at c'; cases c'
  | ended r c => cases h₂ with
    | full => contradiction
    | again _ c' h => rw [c] at c'; cases c'
    | failed _ c' => rw [c] at c'; cases c'
    | ended _ c' => rw [c] at c'; cases c'; rfl
    | more _ c' hb => rw [c] at c'; cases c'; contradiction
  | more r c hb _ ih => cases h₂ with
    | full => contradiction
    | again _ c' h => rw [c] at c'; cases c'
    | failed _ c' => rw [c] at c'; cases c'
    | ended _ c' => rw [c] at c'; cases c'; contradiction
    | more _ c' _ h => rw [c] at c'; cases c'; rw [ih h]

theorem flushed_writeAll {R : RawSink σ ε} {S : Sink σ ε} (h : QuietWrite R S) (buf : List UInt8) (s : σ) : Flushed R buf s (Wr.writeAll S buf s) := by
  induction hl : buf.length using Nat.strongRecOn generalizing buf s with
  | ind n ih =>
    rw [Wr.writeAll]
    by_cases hn : buf = []
    · subst hn; exact .done s
    · rw [dif_neg hn]
      rcases hr : S.write s buf with ⟨s', e | k⟩
      · exact .of_answers hn ((h _ _ _ _).1 hr) fun t c => .failed hn c
      · simp only
        by_cases hb : k = 0
        · subst hb
          rw [if_pos rfl]
          exact .of_answers hn ((h _ _ _ _).1 hr) fun t c => .zero hn c
        · rw [if_neg hb]
          refine .of_answers hn ((h _ _ _ _).1 hr) fun t c => .more hn c hb (ih _ ?_ _ s' rfl)
          have : buf.length ≠ 0 := by simpa using hn
          simp only [List.length_drop]
          omega

theorem Flushed.unique {R : RawSink σ ε} {buf : List UInt8} {s : σ} {g₁ g₂ : Wrote σ ε} (h₁ : Flushed R buf s g₁) (h₂ : Flushed R buf s g₂) : g₁ = g₂ := by
  induction h₁ generalizing g₂ with
  | done s => cases h₂ <;> first | rfl | contradiction
  | again r c _ ih => cases h₂ with
    | done => contradiction
    | again _ c' h => rw [c] at c'; cases c'; exact ih h
    | failed _ c' => rw [c] at c'; cases c'
    | zero _ c' => rw [c] at c'; cases c'
    | more _ c' => rw [c] at c'; cases c'
  | failed r c => cases h₂ with
    | done => contradiction
    | again _ c' h => rw [c] at c'; cases c'
    | failed _ c' => rw [c] at c'; cases c'; rfl
    | zero _ c' => rw [c] at c'; cases c'
    | more _ c' => rw [c] at c'; cases c'
  | zero r c => cases h₂ with
    | done => contradiction
    | again _ c' h => rw [c] at c'; cases c'
    | failed _ c' => rw [c] at c'; cases c'
    | zero _ c' => rw [c] at c'; cases c'; rfl
    | more _ c' hb => rw [c] at c'; cases c'; contradiction
  | more r c hb _ ih => cases h₂ with
    | done => contradiction
    | again _ c' h => rw [c] at c'; cases c'
    | failed _ c' => rw [c] at c'; cases c'
    | zero _ c' => rw [c] at c'; cases c'; contradiction
    | more _ c' _ h => rw [c] at c'; cases c'; rw [ih h]

/-- C62.  `read_exact` on a reader with interruptions ends exactly as it does on the same reader without them: so the
decoders, which only use `read_exact`, do not notice interruptions, and every C62 theorem holds for the reader without. -/
theorem C62_interrupted (R : RawSource σ ε) (S : Source σ ε) (h : QuietRead R S) (n : Nat) (s : σ) (g : Got σ ε Unit) :
    Filled R n s g ↔ g = Rd.fill S n s :=
  ⟨fun hg => hg.unique (filled_fill h n s), fun e => e ▸ filled_fill h n s⟩

/-- C43.  The same for `write_all`. -/
theorem C43_interrupted (R : RawSink σ ε) (S : Sink σ ε) (h : QuietWrite R S) (buf : List UInt8) (s : σ) (g : Wrote σ ε) :
    Flushed R buf s g ↔ g = Wr.writeAll S buf s :=
  ⟨fun hg => hg.unique (flushed_writeAll h buf s), fun e => e ▸ flushed_writeAll h buf s⟩

/-- Interrupted for ever, neither ends: the code hangs, and returns no wrong value. -/
theorem C62_forever (R : RawSource σ ε) (n : Nat) (hn : n ≠ 0) (s : σ) (h : R.Forever s n) : ¬ ∃ g, Filled R n s g := by
  rintro ⟨g, hg⟩
  obtain ⟨P, hs, hp⟩ := h
  induction hg with
  | full => exact hn rfl
  | again r c _ ih => obtain ⟨s', e, h'⟩ := hp _ hs; rw [c] at e; cases e; exact ih hn h' hp
  | failed r c => obtain ⟨s', e, h'⟩ := hp _ hs; rw [c] at e; cases e
  | ended r c => obtain ⟨s', e, h'⟩ := hp _ hs; rw [c] at e; cases e
  | more r c => obtain ⟨s', e, h'⟩ := hp _ hs; rw [c] at e; cases e

theorem C43_forever (R : RawSink σ ε) (buf : List UInt8) (hn : buf ≠ []) (s : σ) (h : R.Forever s buf) : ¬ ∃ g, Flushed R buf s g := by
  rintro ⟨g, hg⟩
  obtain ⟨P, hs, hp⟩ := h
  induction hg with
  | done => exact hn rfl
  | again r c _ ih => obtain ⟨s', e, h'⟩ := hp _ hs; rw [c] at e; cases e; exact ih hn h' hp
  | failed r c => obtain ⟨s', e, h'⟩ := hp _ hs; rw [c] at e; cases e
  | zero r c => obtain ⟨s', e, h'⟩ := hp _ hs; rw [c] at e; cases e
  | more r c => obtain ⟨s', e, h'⟩ := hp _ hs; rw [c] at e; cases e

theorem signalled_patient : signalled.Patient := by
  rintro ⟨bs, l⟩ n
  cases l with
  | nil => exact ⟨_, _, .now rfl⟩
  | cons k ks =>
    induction k with
    | zero => exact ⟨_, _, .now rfl⟩
    | succ k ih =>
      obtain ⟨s', o, h⟩ := ih
      exact ⟨s', o, .again rfl h⟩

theorem stuttering_patient : stuttering.Patient := by
  have h0 : ∀ r i, ∃ s' o, stuttering.Answers (r, false) i s' o := by
    intro r i
    by_cases hr : r = 0
    · exact ⟨_, _, .now (by simp [stuttering, hr]; exact ⟨rfl, rfl⟩)⟩
    · exact ⟨_, _, .now (by simp [stuttering, hr]; exact ⟨rfl, rfl⟩)⟩
  rintro ⟨r, b⟩ i
  cases b with
  | false => exact h0 r i
  | true =>
    obtain ⟨s', o, h⟩ := h0 r i
    exact ⟨s', o, .again rfl h⟩

theorem signalled_answers {bs : List UInt8} {l : List Nat} {n : Nat} {s' : List UInt8 × List Nat} {o : Except Empty (List UInt8)}
    (h : signalled.Answers (bs, l) n s' o) : ∃ l', s' = (bs.drop n, l') ∧ o = .ok (bs.take n) := by
  generalize hs : (bs, l) = s at h
  induction h generalizing l with
  | now c =>
    subst hs
    simp only [signalled] at c
    split at c
    · cases c
    · cases c; exact ⟨_, rfl, rfl⟩
    · cases c; exact ⟨_, rfl, rfl⟩
  | again c _ ih =>
    subst hs
    simp only [signalled] at c
    split at c
    · cases c; exact ih rfl
    · cases c
    · cases c

theorem signalled_streams {S : Source (List UInt8 × List Nat) Empty} (h : QuietRead signalled S) (bs : List UInt8) (l : List Nat) : S.Streams (bs, l) bs := by
  refine ⟨fun s b => s.1 = b, ?_, rfl⟩
  rintro ⟨bs, l⟩ _ n rfl hn
  rcases hr : S.read (bs, l) n with ⟨s', o⟩
  obtain ⟨l', rfl, rfl⟩ := signalled_answers ((h _ _ _ _).1 hr)
  refine ⟨bs.take n, bs.drop n, _, rfl, ?_, (List.take_append_drop n bs).symm, ?_, rfl⟩
  · simp only [List.length_take]; omega
  · intro e
    simpa [hn] using e

/-- C62, together: a byte string read through any number of interruptions before every read decodes as it does in memory. -/
theorem C62_signals (v : Ver) (α : Type) [Codec v α] [Reads v α] (h : ReportsFailures v α) (bs : List UInt8) (l : List Nat)
    (S : Source (List UInt8 × List Nat) Empty) (hS : QuietRead signalled S) (lim : Lim) :
    ((get v S : Rd _ _ α) lim (bs, l)).out = ((dec v : Dec α) lim bs).returned :=
  (C62_pieces v α h _ _ S (bs, l) bs (signalled_streams hS bs l) lim).1

/-- Such a version exists, so the theorem speaks of something. -/
example : ∃ S, QuietRead signalled S := (C62_quiet _ signalled_patient).imp fun _ h => h.1

example : ∃ S, QuietWrite stuttering S := (C43_quiet _ stuttering_patient).imp fun _ h => h.1

/-- Five bytes wanted, the first call interrupted twice: they are read. -/
example : ∃ s', Filled signalled 5 ([1, 2, 3, 4, 5, 6], [2]) ⟨[1, 2, 3, 4, 5], s', .ok ()⟩ :=
  ⟨_, .again (by decide) rfl (.again (by decide) rfl (.more (bs := [1, 2, 3, 4, 5]) (g := ⟨[], ([6], []), .ok ()⟩) (by decide) rfl (by decide) (.full _)))⟩

/-- Three bytes for a file with room for two: two are taken and the error is returned, interruptions or not. -/
example : Flushed stuttering [7, 8, 9] (2, true) ⟨[7, 8], (0, true), .err (.io ())⟩ :=
  .again (by decide) rfl (.more (n := 1) (g := ⟨[8], (0, true), .err (.io ())⟩) (by decide) rfl (by decide)
    (.again (by decide) rfl (.more (n := 1) (g := ⟨[], (0, true), .err (.io ())⟩) (by decide) rfl (by decide)
      (.again (by decide) rfl (.failed (by decide) rfl)))))

/-- A reader that is always interrupted. -/
example : (⟨fun s _ => (s, none)⟩ : RawSource Unit Empty).Forever () 8 := ⟨fun _ => True, trivial, fun s _ => ⟨s, rfl, trivial⟩⟩

end Verif
