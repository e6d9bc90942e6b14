import Verif.Model.Interrupt
import Verif.Spec.Reader
import Verif.Spec.Writer

/-!
# What an interruption should mean: nothing
-/

namespace Verif

variable {σ ε ι ο : Type}

namespace Raw

/-- Asked until it is not interrupted, the reader or writer gives `o`. -/
inductive Answers (R : Raw σ ι ο) : σ → ι → σ → ο → Prop
  | now {s s' : σ} {i : ι} {o : ο} (call : R.call s i = (s', some o)) : Answers R s i s' o
  | again {s s₁ s' : σ} {i : ι} {o : ο} (call : R.call s i = (s₁, none)) (next : Answers R s₁ i s' o) : Answers R s i s' o

/-- It is never interrupted for ever. -/
def Patient (R : Raw σ ι ο) : Prop := ∀ s i, ∃ s' o, R.Answers s i s' o

/-- `S` is `R` without the interruptions. -/
def QuietRead (R : RawSource σ ε) (S : Source σ ε) : Prop := ∀ s n s' o, S.read s n = (s', o) ↔ R.Answers s n s' o

/-- `S` is `R` without the interruptions. -/
def QuietWrite (R : RawSink σ ε) (S : Sink σ ε) : Prop := ∀ s buf s' o, S.write s buf = (s', o) ↔ R.Answers s buf s' o

/-- From `s` and with a buffer of size `n`, interruptions follow one another for ever. -/
def Forever (R : Raw σ ι ο) (s : σ) (i : ι) : Prop := ∃ P : σ → Prop, P s ∧ ∀ s, P s → ∃ s', R.call s i = (s', none) ∧ P s'

/-- A byte string read through a handler of signals: every call is interrupted as often as the next of the given numbers
says (the state is what is left of the bytes and of the numbers). -/
def signalled : RawSource (List UInt8 × List Nat) Empty where
  call s n := match s.2 with
    | (k + 1) :: ks => ((s.1, k :: ks), none)
    | 0 :: ks => ((s.1.drop n, ks), some (.ok (s.1.take n)))
    | [] => ((s.1.drop n, []), some (.ok (s.1.take n)))

/-- A file that takes one byte with every other call and is interrupted in between, until it has no more room. -/
def stuttering : RawSink (Nat × Bool) Unit where
  call s _ := if s.2 then ((s.1, false), none)
    else if s.1 = 0 then ((0, true), some (.error ())) else ((s.1 - 1, true), some (.ok 1))

end Raw

end Verif
