import Verif.Model.Reader

/-!
# What decoding from a slow or failing reader should do

Stated for any reading code `r` and any decoder `d` of byte strings, without reference to how they are built.
-/

namespace Verif

variable {σ ε α : Type}

namespace Source

/-- Starting from `s`, successive reads that succeeded and were not empty gave `bs`. -/
inductive Gave (S : Source σ ε) : σ → List UInt8 → σ → Prop
  | start (s : σ) : Gave S s [] s
  | more {s s' s'' : σ} {bs rest : List UInt8} {n : Nat} (room : n ≠ 0) (read : S.read s n = (s', .ok bs)) (some : bs ≠ [])
      (next : Gave S s' rest s'') : Gave S s (bs.take n ++ rest) s''

/-- Asked for something, the reader gives nothing: it fails with an error of its own, or it is at its end. -/
def Stops (S : Source σ ε) (s : σ) (e : ReadErr ε) (s' : σ) : Prop :=
  ∃ n, n ≠ 0 ∧ ((∃ x, S.read s n = (s', .error x) ∧ e = .io x) ∨ (S.read s n = (s', .ok []) ∧ e = .eof))

/-- `R` relates the states of the reader to the bytes still to come: asked for something, the reader gives a piece from the
front, nothing only at the end, and never fails. -/
def Streaming (S : Source σ ε) (R : σ → List UInt8 → Prop) : Prop :=
  ∀ s bs n, R s bs → n ≠ 0 → ∃ p q s', S.read s n = (s', .ok p) ∧ p.length ≤ n ∧ bs = p ++ q ∧ (p = [] → bs = []) ∧ R s' q

/-- From `s`, the reader gives `bs` in pieces of whatever sizes, and then it is at its end. -/
def Streams (S : Source σ ε) (s : σ) (bs : List UInt8) : Prop := ∃ R, S.Streaming R ∧ R s bs

/-- A byte slice or `Cursor`: the state is what is left. -/
def slice : Source (List UInt8) Empty where
  read s n := (s.drop n, .ok (s.take n))

/-- A reader whose pieces have the given sizes, such as a socket: the state is what is left and the sizes still to come;
afterwards single bytes. -/
def pieces : Source (List UInt8 × List Nat) Empty where
  read s n := match s.2 with
    | [] => ((s.1.drop 1, []), .ok (s.1.take 1))
    | k :: ks => ((s.1.drop (min n (k + 1)), ks), .ok (s.1.take (min n (k + 1))))

/-- A reader that fails instead of ending, such as a connection that breaks. -/
def breaking : Source (List UInt8) Unit where
  read s n := if s = [] then ([], .error ()) else (s.drop n, .ok (s.take n))

/-- The same reader, counting its calls. -/
def counted (S : Source σ ε) : Source (σ × Nat) ε where
  read s n := (((S.read s.1 n).1, s.2 + 1), (S.read s.1 n).2)

end Source

/-- `r` decodes the bytes the reader gives as `d` does, and reports failures.  For every reader and every state, one of
* `r` returned a value, having read exactly the bytes of which `d` makes that value, whatever follows them;
* `r` returned an error of its own, having read bytes for which `d` returns that error, whatever follows them;
* `r` panicked, having read bytes for which `d` panics, whatever follows them;
* the reader stopped before `d` had enough bytes, and `r` returned the reader's error or `UnexpectedEof`, except when
  `hides` is true of the bytes read before: then it returned a custom error instead. -/
def Follows (S : Source σ ε) (hides : List UInt8 → Bool) (r : Rd σ ε α) (d : Dec α) : Prop :=
  ∀ lim s,
    (∃ bs s' a, r lim s = ⟨bs, s', .ok a⟩ ∧ S.Gave s bs s' ∧ ∀ rest, d lim (bs ++ rest) = .ok (a, rest)) ∨
    (∃ bs s' e, r lim s = ⟨bs, s', .err (.own e)⟩ ∧ e ≠ .io ∧ S.Gave s bs s' ∧ ∀ rest, d lim (bs ++ rest) = .err e) ∨
    (∃ bs s', r lim s = ⟨bs, s', .panic⟩ ∧ S.Gave s bs s' ∧ ∀ rest, d lim (bs ++ rest) = .panic) ∨
    (∃ bs s₁ s₂ e, r lim s = ⟨bs, s₂, .err (if hides bs then .own .custom else e)⟩ ∧ S.Gave s bs s₁ ∧ S.Stops s₁ e s₂ ∧
      d lim bs = .err (if hides bs then .custom else .io))

/-- The decoder of a type reports every failure of the reader. -/
def ReportsFailures (v : Ver) (α : Type) [Codec v α] [Reads v α] : Prop :=
  ∀ (σ ε : Type) (S : Source σ ε), Follows S (fun _ => false) (get v S : Rd σ ε α) (dec v)

/-- The bytes read of a state end in one of its three work fields.  These lie behind the index (40 bytes), the timestamps (8 bytes each, as many as the
height plus one, at most 11, the sum modulo 2^64) and seven fields of 184 bytes together. -/
def State.inWork (bs : List UInt8) : Bool :=
  let count := min 11 ((leVal (bs.take 8) + 1) % 2 ^ 64)
  decide (40 + 8 * count + 184 ≤ bs.length ∧ bs.length < 40 + 8 * count + 184 + 3 * 32)

end Verif
