import Verif.Model.Writer

/-!
# What encoding to a failing writer should do

Stated for any code `w` meant to write the byte string `bs`, without reference to how `w` is built.
-/

namespace Verif

variable {σ ε : Type}

namespace Sink

/-- Starting from `s`, the writer was offered pieces from the front of `todo`, took something of each, and is now in
a state where `left` is still to be written. -/
inductive Took (S : Sink σ ε) : σ → List UInt8 → List UInt8 → σ → Prop
  | start (s : σ) (todo : List UInt8) : Took S s todo todo s
  | more {s s' s'' : σ} {buf todo left : List UInt8} {n : Nat} (some : buf ≠ []) (front : buf <+: todo)
      (take : S.write s buf = (s', .ok n)) (nonzero : n ≠ 0)
      (rest : Took S s' (todo.drop (min n buf.length)) left s'') : Took S s todo left s''

/-- Offered the non-empty `buf`, the writer fails with `e`: with an error of its own, or by taking nothing. -/
def Refuses (S : Sink σ ε) (s : σ) (buf : List UInt8) (e : WriteErr ε) (s' : σ) : Prop :=
  buf ≠ [] ∧ ((∃ x, S.write s buf = (s', .error x) ∧ e = .io x) ∨ (S.write s buf = (s', .ok 0) ∧ e = .writeZero))

/-- The writer never refuses. -/
def Reliable (S : Sink σ ε) : Prop := ∀ s buf e s', ¬ S.Refuses s buf e s'

/-- A writer with room for a fixed number of bytes (the state is the room left), such as a `&mut [u8]` or a full
disk. -/
def bounded : Sink Nat Unit where
  write room buf := if room = 0 then (0, .error ()) else (room - min room buf.length, .ok (min room buf.length))

/-- The same, taking only one byte in each write. -/
def trickle : Sink Nat Unit where
  write room _ := if room = 0 then (0, .error ()) else (room - 1, .ok 1)

/-- `Vec<u8>` (and the hash states): takes everything. -/
def vector : Sink (List UInt8) Empty where
  write v buf := (v ++ buf, .ok buf.length)

/-- The same writer, counting its calls. -/
def counted (S : Sink σ ε) : Sink (σ × Nat) ε where
  write s buf := (((S.write s.1 buf).1, s.2 + 1), (S.write s.1 buf).2)

end Sink

/-- `w` writes `bs` and reports failures: for every writer and every state, either everything was written and `w`
returns `Ok`, or the writer refused some next piece of `bs` and `w` stopped there and returned that error. -/
def Delivers (S : Sink σ ε) (w : Wr σ ε) (bs : List UInt8) : Prop :=
  ∀ s,
    (∃ s', w s = ⟨bs, s', .ok⟩ ∧ S.Took s bs [] s') ∨
    (∃ p buf q s₁ s₂ e, bs = p ++ (buf ++ q) ∧ w s = ⟨p, s₂, .err e⟩ ∧ S.Took s bs (buf ++ q) s₁ ∧
      S.Refuses s₁ buf e s₂)

/-- All encoders of a type do. -/
def SurfacesFailures (v : Ver) (α : Type) [Codec v α] [Writes v α] : Prop :=
  ∀ (σ ε : Type) (S : Sink σ ε) (a : α), Delivers S (emit v S a) (enc v a)

end Verif
