import Verif.Model.V2
import Verif.Model.Consensus

/-!
# The decoders, reading from a `std::io::Read` that may be slow or fail

`dec` reads from a byte string in memory.  Here the same decoders are followed read by read: each `read` may give
fewer bytes than asked for, or an error.
-/

namespace Verif

/-- A `std::io::Read` with state `σ` and errors `ε`.  One call of `read`, with a buffer of the given size, either gives
some bytes (none: end of input) or fails having given none.  Simplifications: bytes beyond the size of the buffer,
which the contract of `Read` forbids, are dropped, and an `Interrupted` read, which `read_exact` repeats, is not a
separate outcome here but in `Model/Interrupt`. -/
structure Source (σ ε : Type) where
  read : σ → Nat → σ × Except ε (List UInt8)

/-- The errors of a decoder (`encoding::Error`, sia/src/encoding/v2.rs 5-17): those made by the code, and `Error::Io` with
either an error of the reader or `ErrorKind::UnexpectedEof`. -/
inductive ReadErr (ε : Type) where
  | own (e : Err)
  | io (e : ε)
  | eof
  deriving DecidableEq, Repr

/-- How a piece of decoding code ended. -/
inductive Returned (ε α : Type) where
  | ok (a : α)
  | err (e : ReadErr ε)
  | panic
  deriving DecidableEq, Repr

/-- What a piece of decoding code did: the bytes it got, the reader afterwards, and how it ended. -/
structure Got (σ ε α : Type) where
  bytes : List UInt8
  after : σ
  out : Returned ε α

/-- Code that reads. -/
def Rd (σ ε α : Type) : Type := Lim → σ → Got σ ε α

namespace Rd

variable {σ ε α β : Type}

protected def pure (a : α) : Rd σ ε α := fun _ s => ⟨[], s, .ok a⟩

/-- `let a = d?; f(a)`. -/
protected def bind (d : Rd σ ε α) (f : α → Rd σ ε β) : Rd σ ε β := fun lim s =>
  match d lim s with
  | ⟨bs, s', .ok a⟩ => let y := f a lim s'; ⟨bs ++ y.bytes, y.after, y.out⟩
  | ⟨bs, s', .err e⟩ => ⟨bs, s', .err e⟩
  | ⟨bs, s', .panic⟩ => ⟨bs, s', .panic⟩

instance : Monad (Rd σ ε) where
  pure := Rd.pure
  bind := Rd.bind

/-- `return Err(e)`. -/
def fail (e : Err) : Rd σ ε α := fun _ s => ⟨[], s, .err (.own e)⟩

/-- A panic. -/
def crash : Rd σ ε α := fun _ s => ⟨[], s, .panic⟩

/-- A computation that does not touch the reader. -/
def lift (x : Res α) : Rd σ ε α := match x with
  | .ok a => pure a
  | .err e => fail e
  | .panic => crash

/-- `map_err(|_| Error::Custom(..))`. -/
def mapErr (d : Rd σ ε α) (e' : Err) : Rd σ ε α := fun lim s =>
  match d lim s with
  | ⟨bs, s', .err _⟩ => ⟨bs, s', .err (.own e')⟩
  | g => g

/-- `Vec::with_capacity(n)`: panics above the limit. -/
def reserve (n : Nat) : Rd σ ε Unit := fun lim s => if n ≤ lim.cap then ⟨[], s, .ok ()⟩ else ⟨[], s, .panic⟩

/-- The loop of `read_exact` of the standard library: read into the rest of the buffer until it is full; end of input
is an error. -/
def fill (S : Source σ ε) (n : Nat) (s : σ) : Got σ ε Unit :=
  if _h : n = 0 then ⟨[], s, .ok ()⟩
  else
    match S.read s n with
    | (s', .error e) => ⟨[], s', .err (.io e)⟩
    | (s', .ok bs) =>
      if _hb : bs = [] then ⟨[], s', .err .eof⟩
      else
        let x := fill S (n - (bs.take n).length) s'
        ⟨bs.take n ++ x.bytes, x.after, x.out⟩
termination_by n
decreasing_by
  have : bs.length ≠ 0 := by simpa using _hb
  simp only [List.length_take]
  omega

theorem fill_length (S : Source σ ε) (n : Nat) (s : σ) (h : (fill S n s).out = .ok ()) : (fill S n s).bytes.length = n := by
  induction n using Nat.strongRecOn generalizing s with
  | ind n ih =>
    rw [fill] at h ⊢
    by_cases hn : n = 0
    · rw [dif_pos hn]; exact hn.symm
    · rw [dif_neg hn] at h ⊢
      rcases hr : S.read s n with ⟨s', e | bs⟩
      · rw [hr] at h; cases h
      · rw [hr] at h
        simp only at h ⊢
        by_cases hb : bs = []
        · rw [dif_pos hb] at h; cases h
        · rw [dif_neg hb] at h ⊢
          simp only at h ⊢
          have hb' : bs.length ≠ 0 := by simpa using hb
          have := ih (n - (bs.take n).length) (by simp only [List.length_take]; omega) s' h
          rw [List.length_append, this, List.length_take]
          omega

/-- `read_exact` into a buffer of `n` bytes. -/
def exact (S : Source σ ε) (n : Nat) : Rd σ ε (Arr n) := fun _ s =>
  match h : (fill S n s).out with
  | .ok () => ⟨(fill S n s).bytes, (fill S n s).after, .ok ⟨(fill S n s).bytes, fill_length S n s h⟩⟩
  | .err e => ⟨(fill S n s).bytes, (fill S n s).after, .err e⟩
  | .panic => ⟨(fill S n s).bytes, (fill S n s).after, .panic⟩

end Rd



/-- `decode_v1`/`decode` with the reader in view. -/
class Reads (v : Ver) (α : Type) where
  get : {σ ε : Type} → Source σ ε → Rd σ ε α

/-- `α::decode_v1(r)` / `α::decode(r)`. -/
def get (v : Ver) {α σ ε : Type} [Reads v α] (S : Source σ ε) : Rd σ ε α := Reads.get v S

variable {v : Ver} {α β σ ε : Type}

/-- `u8` (sia/src/encoding/v1.rs 19-25, v2.rs 36-42). -/
instance : Reads v UInt8 where
  get S := do
    let buf ← Rd.exact S 1
    pure (buf.1.head (by have := buf.2; intro h; simp [h] at this))

/-- `bool` (sia/src/encoding/v1.rs 33-42, v2.rs 50-59). -/
instance : Reads v Bool where
  get {σ ε} S := do
    let x ← (get v S : Rd σ ε UInt8)
    if x = 0 then pure false
    else if x = 1 then pure true
    else Rd.fail .invalidValue

/-- Unsigned part of `impl_sia_numeric!` (sia/src/encoding/v1.rs 87-93, v2.rs 133-139). -/
def Rd.num (S : Source σ ε) (n : Nat) : Rd σ ε (BitVec n) := do
  let buf ← Rd.exact S 8
  pure ((BitVec.ofNat 64 (leVal buf.1)).setWidth n)

instance : Reads v U16 := ⟨fun S => Rd.num S 16⟩
instance : Reads v U32 := ⟨fun S => Rd.num S 32⟩
instance : Reads v U64 := ⟨fun S => Rd.num S 64⟩

/-- Signed part of `impl_sia_numeric!` (sia/src/encoding/v1.rs 87-93, v2.rs 133-139). -/
instance : Reads v Int16 where
  get S := do
    let b ← Rd.num S 16
    pure (Int16.ofBitVec b)
instance : Reads v Int32 where
  get S := do
    let b ← Rd.num S 32
    pure (Int32.ofBitVec b)
instance : Reads v Int64 where
  get S := do
    let b ← Rd.num S 64
    pure (Int64.ofBitVec b)

/-- `[u8; N]` (sia/src/encoding/v1.rs 147-153, v2.rs 193-199). -/
instance {n : Nat} : Reads v (Arr n) := ⟨fun S => Rd.exact S n⟩

/-- The loop `for _ in 0..len { vec.push(T::decode(r)?) }` (sia/src/encoding/v1.rs 120-122). -/
def Rd.times (d : Rd σ ε α) : Nat → Rd σ ε (List α)
  | 0 => pure []
  | n + 1 => do
    let a ← d
    let as ← Rd.times d n
    pure (a :: as)

/-- `Vec<T>` (sia/src/encoding/v1.rs 113-125, v2.rs 159-171). -/
instance [Reads v α] : Reads v (List α) where
  get {σ ε} S := do
    let len ← (get v S : Rd σ ε U64)
    Rd.reserve len.toNat
    Rd.times (get v S) len.toNat

/-- `Option<T>` (sia/src/encoding/v1.rs 66-75, v2.rs 112-121). -/
instance [Reads v α] : Reads v (Option α) where
  get {σ ε} S := do
    let has ← (get v S : Rd σ ε Bool)
    if has then do
      let a ← get v S
      pure (some a)
    else pure none

/-- `String` (sia/src/encoding/v1.rs 133-138, v2.rs 179-184). -/
instance : Reads v String where
  get {σ ε} S := do
    let buf ← (get v S : Rd σ ε (List UInt8))
    match strOfBytes buf with
    | some s => pure s
    | none => Rd.fail .invalidLength

/-- Two consecutive fields of a derived struct (sia_derive/src/lib.rs 53-98, 147-190). -/
instance [Reads v α] [Reads v β] : Reads v (α × β) where
  get S := do
    let a ← get v S
    let b ← get v S
    pure (a, b)

/-- A derived decoder (sia_derive/src/lib.rs 53-98, 147-190). -/
instance (priority := low) [Struct α β] [Reads v β] : Reads v α where
  get S := do
    let b ← get v S
    pure (Struct.build b)

/-- `OffsetDateTime` (sia/src/encoding/v2.rs 67-72). -/
instance : Reads v DateTime where
  get S := do
    let b ← Rd.num S 64
    match DateTime.fromUnix b.toInt with
    | some t => pure t
    | none => Rd.crash

/-- `Duration` (sia/src/encoding/v2.rs 80-88). -/
instance : Reads v Duration where
  get S := do
    let b ← Rd.num S 64
    if b.toNat > 2 ^ 63 - 1 then Rd.fail .invalidValue
    else pure ⟨(b.toNat : Int)⟩

/-- `Currency` (sia/src/types/currency.rs 89-99, 108-114). -/
instance : Reads v Currency where
  get {σ ε} S := match v with
    | .v1 => do
      let len ← (get .v1 S : Rd σ ε U64)
      if len.toNat > 16 then Rd.fail .invalidLength
      else do
        let buf ← Rd.exact S len.toNat
        pure ⟨BitVec.ofNat 128 (beVal (List.replicate (16 - len.toNat) 0 ++ buf.1))⟩
    | .v2 => do
      let buf ← Rd.exact S 16
      pure ⟨BitVec.ofNat 128 (leVal buf.1)⟩

/-- `Work` (sia/src/types/work.rs 23-29, 37-41): the v2 decoder replaces the error. -/
instance : Reads v Work where
  get S := do
    let b ← match v with
      | .v1 => Rd.exact S 32
      | .v2 => (Rd.exact S 32).mapErr .custom
    pure ⟨BitVec.ofNat 256 (beVal b.1)⟩

/-- `SiafundOutput` (sia/src/types/common.rs 313, 329-339). -/
instance : Reads v SiafundOutput where
  get {σ ε} S := match v with
    | .v1 => do
      let c ← (get .v1 S : Rd σ ε Currency)
      match c.toU64? with
      | none => Rd.fail .custom
      | some value => do
        let address ← (get .v1 S : Rd σ ε Address)
        let _ ← (get .v1 S : Rd σ ε Currency)
        pure ⟨value, address⟩
    | .v2 => do
      let value ← get .v2 S
      let address ← get .v2 S
      pure ⟨value, address⟩

instance : Reads v ChainIndex := inferInstance
instance : Reads v SiacoinOutput := inferInstance
instance : Reads v StateElement := inferInstance
instance : Reads v UnlockKey := inferInstance
instance : Reads v UnlockConditions := inferInstance
instance : Reads v V1.SiacoinInput := inferInstance
instance : Reads v V1.SiafundInput := inferInstance
instance : Reads v V1.FileContract := inferInstance
instance : Reads v V1.FileContractRevision := inferInstance
instance : Reads v V1.StorageProof := inferInstance
instance : Reads v V1.CoveredFields := inferInstance
instance : Reads v V1.TransactionSignature := inferInstance
instance : Reads v V1.Transaction := inferInstance
/-- `Block` (sia/src/types/common.rs 190-205). -/
instance : Reads v Block := inferInstance

/-- `decode_policy` (sia/src/types/spendpolicy.rs 349-379).  The first number is the number of nested calls the stack
still has room for. -/
def SpendPolicy.getPolicy (S : Source σ ε) : Nat → Rd σ ε SpendPolicy
  | 0 => Rd.crash
  | k + 1 => do
    let ty ← (get .v2 S : Rd σ ε UInt8)
    if ty = 1 then do
      let h ← get .v2 S
      pure (.above h)
    else if ty = 2 then do
      let secs ← (get .v2 S : Rd σ ε U64)
      match DateTime.fromUnix secs.toInt with
      | some t => pure (.after t)
      | none => Rd.fail .custom
    else if ty = 3 then do
      let pk ← get .v2 S
      pure (.publicKey pk)
    else if ty = 4 then do
      let h ← get .v2 S
      pure (.hash h)
    else if ty = 5 then do
      let of ← (get .v2 S : Rd σ ε UInt8)
      let n ← (get .v2 S : Rd σ ε UInt8)
      Rd.reserve n.toNat
      let ps ← Rd.times (getPolicy S k) n.toNat
      pure (.threshold of ps)
    else if ty = 6 then do
      let a ← get .v2 S
      pure (.opaqueAddr a)
    else if ty = 7 then do
      let uc ← get .v2 S
      pure (.unlockConditions uc)
    else Rd.fail .custom

/-- `SpendPolicy` (sia/src/types/spendpolicy.rs 345-388). -/
instance : Reads v SpendPolicy where
  get {σ ε} S := do
    let ver ← (get .v2 S : Rd σ ε UInt8)
    if ver ≠ 1 then Rd.fail .custom
    else fun lim s => SpendPolicy.getPolicy S lim.stack lim s

instance : Reads v SatisfiedPolicy := inferInstance
instance : Reads v V2.Attestation := inferInstance
instance : Reads v V2.FileContract := inferInstance
instance : Reads v V2.SiacoinElement := inferInstance
instance : Reads v V2.SiafundElement := inferInstance
instance : Reads v V2.FileContractElement := inferInstance
instance : Reads v V2.ChainIndexElement := inferInstance
instance : Reads v V2.SiacoinInput := inferInstance
instance : Reads v V2.SiafundInput := inferInstance
instance : Reads v V2.FileContractRevision := inferInstance
instance : Reads v V2.FileContractRenewal := inferInstance
instance : Reads v V2.StorageProof := inferInstance

/-- `FileContractResolution` (sia/src/types/v2.rs 342-357). -/
instance : Reads v V2.FileContractResolution where
  get {σ ε} S := do
    let parent ← get v S
    let tag ← (get v S : Rd σ ε UInt8)
    if tag = 0 then do
      let r ← get v S
      pure ⟨parent, .renewal r⟩
    else if tag = 1 then do
      let p ← get v S
      pure ⟨parent, .storageProof p⟩
    else if tag = 2 then pure ⟨parent, .expiration⟩
    else Rd.fail .custom

/-- `if fields & m != 0 { txn.f = T::decode(r)?; }` (sia/src/types/v2.rs 616-648). -/
def Rd.field (fields mask : U64) (d : Rd σ ε α) (default : α) : Rd σ ε α := if fields &&& mask ≠ 0 then d else pure default

/-- v2 transaction (sia/src/types/v2.rs 592-651). -/
instance : Reads v V2.Transaction where
  get {σ ε} S := do
    let version ← (get v S : Rd σ ε UInt8)
    if version ≠ 2 then Rd.fail .custom
    else do
      let fields ← (get v S : Rd σ ε U64)
      let siacoinInputs ← Rd.field fields 1 (get v S) []
      let siacoinOutputs ← Rd.field fields 2 (get v S) []
      let siafundInputs ← Rd.field fields 4 (get v S) []
      let siafundOutputs ← Rd.field fields 8 (get v S) []
      let fileContracts ← Rd.field fields 16 (get v S) []
      let fileContractRevisions ← Rd.field fields 32 (get v S) []
      let fileContractResolutions ← Rd.field fields 64 (get v S) []
      let attestations ← Rd.field fields 128 (get v S) []
      let arbitraryData ← Rd.field fields 256 (get v S) []
      let newFoundationAddress ← Rd.field fields 512 (do let a ← get v S; pure (some a)) none
      let minerFee ← Rd.field fields 1024 (get v S) ⟨0⟩
      pure { siacoinInputs, siacoinOutputs, siafundInputs, siafundOutputs, fileContracts, fileContractRevisions,
             fileContractResolutions, attestations, arbitraryData, newFoundationAddress, minerFee }

/-- Fill an array of `n` elements from index `i` on (sia/src/consensus.rs 286-291, 411-416). -/
def Rd.slots (present : Nat → Bool) (d : Rd σ ε α) (default : α) : Nat → (n : Nat) → Rd σ ε (Vec α n)
  | _, 0 => pure ⟨[], rfl⟩
  | i, n + 1 => do
    let a ← (if present i then d else pure default)
    let l ← Rd.slots present d default (i + 1) n
    pure ⟨a :: l.1, by simp [l.2]⟩

/-- `ElementAccumulator` (sia/src/consensus.rs 282-294). -/
instance : Reads v ElementAccumulator where
  get S := do
    let numLeaves ← get v S
    let trees ← Rd.slots (hasTreeAtHeight numLeaves) (get v S) (Arr.zero 32) 0 64
    pure ⟨numLeaves, trees⟩

/-- `State::decode` (sia/src/consensus.rs 403-435). -/
def State.get (m : Mode) (S : Source σ ε) : Rd σ ε State := do
  let index ← (Verif.get .v2 S : Rd σ ε ChainIndex)
  let count ← Rd.lift (timestampsCount m index)
  let prevTimestamps ← Rd.slots (fun i => decide (i < count)) (Verif.get .v2 S) DateTime.epoch 0 11
  let (a, b, c, d, e, f, g, h, i, j, k, l) ← (Verif.get .v2 S : Rd σ ε Tail)
  pure ⟨index, prevTimestamps, a, b, c, d, e, f, g, h, i, j, k, l⟩

end Verif
