import Verif.Model.Reader
import Verif.Model.Writer

/-!
# Readers and writers that are interrupted

`Source` and `Sink` leave out one result of `read` and `write`: an error of kind `Interrupted`, as a signal causes it, on
which `read_exact` and `write_all` of the standard library call again.  All encoders and decoders reach the reader or
writer through these two functions (sia/src/encoding/v1.rs 14, 22, 82, 90, 142, 150, v2.rs 31, 39, 128, 136, 188, 196,
sia/src/types/currency.rs 96, 103, 111, spendpolicy.rs 322).
-/

namespace Verif

variable {σ ε ι ο : Type}

/-- A reader (`ι` is the size of the buffer) or a writer (`ι` is the buffer) with state `σ`.  One call gives a result `ο` or
is interrupted, having moved no bytes. -/
structure Raw (σ ι ο : Type) where
  call : σ → ι → σ × Option ο

/-- A `std::io::Read`, with interruptions. -/
abbrev RawSource (σ ε : Type) := Raw σ Nat (Except ε (List UInt8))

/-- A `std::io::Write`, with interruptions. -/
abbrev RawSink (σ ε : Type) := Raw σ (List UInt8) (Except ε Nat)

/-- `default_read_exact` of the standard library, step by step: `Filled R n s g` when the loop, with `n` bytes still to be
read and the reader in state `s`, ends with `g`.  A relation and not a function, because a reader that is interrupted
again and again keeps the loop running. -/
inductive Filled (R : RawSource σ ε) : Nat → σ → Got σ ε Unit → Prop
  | full (s : σ) : Filled R 0 s ⟨[], s, .ok ()⟩
  | again {n : Nat} {s s' : σ} {g : Got σ ε Unit} (room : n ≠ 0) (call : R.call s n = (s', none)) (next : Filled R n s' g) :
      Filled R n s g
  | failed {n : Nat} {s s' : σ} {e : ε} (room : n ≠ 0) (call : R.call s n = (s', some (.error e))) :
      Filled R n s ⟨[], s', .err (.io e)⟩
  | ended {n : Nat} {s s' : σ} (room : n ≠ 0) (call : R.call s n = (s', some (.ok []))) : Filled R n s ⟨[], s', .err .eof⟩
  | more {n : Nat} {s s' : σ} {bs : List UInt8} {g : Got σ ε Unit} (room : n ≠ 0)
      (call : R.call s n = (s', some (.ok bs))) (some : bs ≠ []) (next : Filled R (n - (bs.take n).length) s' g) :
      Filled R n s ⟨bs.take n ++ g.bytes, g.after, g.out⟩

/-- `Write::write_all` of the standard library, in the same way. -/
inductive Flushed (R : RawSink σ ε) : List UInt8 → σ → Wrote σ ε → Prop
  | done (s : σ) : Flushed R [] s ⟨[], s, .ok⟩
  | again {buf : List UInt8} {s s' : σ} {g : Wrote σ ε} (left : buf ≠ []) (call : R.call s buf = (s', none))
      (next : Flushed R buf s' g) : Flushed R buf s g
  | failed {buf : List UInt8} {s s' : σ} {e : ε} (left : buf ≠ []) (call : R.call s buf = (s', some (.error e))) :
      Flushed R buf s ⟨[], s', .err (.io e)⟩
  | zero {buf : List UInt8} {s s' : σ} (left : buf ≠ []) (call : R.call s buf = (s', some (.ok 0))) :
      Flushed R buf s ⟨[], s', .err .writeZero⟩
  | more {buf : List UInt8} {s s' : σ} {n : Nat} {g : Wrote σ ε} (left : buf ≠ []) (call : R.call s buf = (s', some (.ok n)))
      (some : n ≠ 0) (next : Flushed R (buf.drop n) s' g) : Flushed R buf s ⟨buf.take n ++ g.taken, g.after, g.out⟩

end Verif
