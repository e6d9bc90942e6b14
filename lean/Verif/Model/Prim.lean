/-!
# Results, byte streams and decoders

Common vocabulary of the model.  Nothing here is specific to a Rust function except where cited.
-/

namespace Verif

/-- Errors of `encoding::Error` (sia/src/encoding/v2.rs 5-17).  Simplification: payloads (the
`io::Error` and the custom message) are dropped. -/
inductive Err where
  | io
  | invalidTimestamp
  | invalidLength
  | invalidValue
  | custom
  deriving DecidableEq, Repr

/-- Outcome of a Rust call: a value, a returned error, or a panic (unwrap on a failure, arithmetic
overflow in a checked build, index out of bounds, capacity overflow). -/
inductive Res (α : Type) where
  | ok (a : α)
  | err (e : Err)
  | panic
  deriving DecidableEq, Repr

namespace Res

/-- Sequencing of fallible calls (`?` in Rust). -/
protected def bind {α β : Type} (x : Res α) (f : α → Res β) : Res β :=
  match x with
  | ok a => f a
  | err e => err e
  | panic => panic

instance : Monad Res where
  pure := ok
  bind := Res.bind

@[simp] theorem ok_bind {α β : Type} (a : α) (f : α → Res β) : (ok a >>= f) = f a := rfl
@[simp] theorem err_bind {α β : Type} (e : Err) (f : α → Res β) : (err e >>= f) = err e := rfl
@[simp] theorem panic_bind {α β : Type} (f : α → Res β) : (panic >>= f) = panic := rfl
@[simp] theorem pure_eq {α : Type} (a : α) : (pure a : Res α) = ok a := rfl

end Res

/-- How the crate was compiled: with overflow checks (`cargo build`, tests) or without
(`cargo build --release`; the workspace Cargo.toml sets no profile). -/
inductive Mode where
  | checked
  | unchecked
  deriving DecidableEq, Repr

/-- Resources of the machine on which a decoder runs.  `cap`: the largest element count for which
`Vec::with_capacity` succeeds (simplification: the same for every element type; an allocation failure,
which aborts, counts as the panic that a capacity overflow is).  `stack`: the number of nested calls of a
recursive decoder that fit on the stack (exceeding it aborts, counted as a panic). -/
structure Lim where
  cap : Nat
  stack : Nat
  deriving DecidableEq, Repr

/-- A decoder (`fn decode<R: Read>(r: &mut R) -> Result<Self>`).  The first argument gives the machine's
limits, the second the unread bytes; the result carries the bytes left unread.  Simplification: the reader
is an in-memory byte string; its only failure is end of input; after an error the reader position is not
modelled. -/
def Dec (α : Type) : Type := Lim → List UInt8 → Res (α × List UInt8)

namespace Dec

protected def pure {α : Type} (a : α) : Dec α := fun _ bs => .ok (a, bs)

protected def bind {α β : Type} (d : Dec α) (f : α → Dec β) : Dec β := fun lim bs =>
  match d lim bs with
  | .ok (a, r) => f a lim r
  | .err e => .err e
  | .panic => .panic

instance : Monad Dec where
  pure := Dec.pure
  bind := Dec.bind

/-- `return Err(e)`. -/
def fail {α : Type} (e : Err) : Dec α := fun _ _ => .err e

/-- A panic while decoding. -/
def crash {α : Type} : Dec α := fun _ _ => .panic

/-- A computation that does not touch the reader. -/
def lift {α : Type} (x : Res α) : Dec α := fun _ bs =>
  match x with
  | .ok a => .ok (a, bs)
  | .err e => .err e
  | .panic => .panic

/-- `map_err(|_| Error::Custom(..))` on a decoder. -/
def mapErr {α : Type} (d : Dec α) (e' : Err) : Dec α := fun lim bs =>
  match d lim bs with
  | .ok x => .ok x
  | .err _ => .err e'
  | .panic => .panic

/-- `Vec::with_capacity(n)`: panics above the limit. -/
def reserve (n : Nat) : Dec Unit := fun lim bs =>
  if n ≤ lim.cap then .ok ((), bs) else .panic

end Dec

/-- A fixed-size byte array `[u8; n]`. -/
abbrev Arr (n : Nat) : Type := { l : List UInt8 // l.length = n }

namespace Arr

/-- `[0u8; n]`. -/
def zero (n : Nat) : Arr n := ⟨List.replicate n 0, List.length_replicate⟩

end Arr

/-- The `n` low-order bytes of `x`, least significant first (`to_le_bytes`). -/
def leBytes : Nat → Nat → List UInt8
  | 0, _ => []
  | n + 1, x => UInt8.ofNat (x % 256) :: leBytes n (x / 256)

/-- Value of a little-endian byte string (`from_le_bytes`). -/
def leVal : List UInt8 → Nat
  | [] => 0
  | b :: bs => b.toNat + 256 * leVal bs

/-- The `n` low-order bytes of `x`, most significant first (`to_be_bytes`). -/
def beBytes (n x : Nat) : List UInt8 := (leBytes n x).reverse

/-- Value of a big-endian byte string (`from_be_bytes`). -/
def beVal (bs : List UInt8) : Nat := leVal bs.reverse

/-- `read_exact` into an `n`-byte buffer: all `n` bytes or `UnexpectedEof`. -/
def readExact (n : Nat) : Dec (Arr n) := fun _ bs =>
  if h : n ≤ bs.length then
    .ok (⟨bs.take n, by simp [h]⟩, bs.drop n)
  else .err .io

abbrev U16 := BitVec 16
abbrev U32 := BitVec 32
abbrev U64 := BitVec 64
abbrev U128 := BitVec 128
abbrev U256 := BitVec 256

end Verif
