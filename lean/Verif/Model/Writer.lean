import Verif.Model.V2
import Verif.Model.Consensus
import Verif.Model.Hashing

/-!
# The encoders, writing to a `std::io::Write` that may fail

`enc` gives the bytes an encoder writes when every write succeeds.  Here the same encoders are followed write by
write: each `write_all` may fail, `?` returns the error at once and `unwrap` panics.
-/

namespace Verif

/-- A `std::io::Write` with state `σ` and errors `ε`.  One call of `write` either reports how many of the bytes it
took from the front of the buffer, or fails having taken none.  Simplifications: a count above the length of the
buffer, which the contract of `Write` forbids, means the whole buffer, and an `Interrupted` write, which `write_all`
repeats, is not a separate outcome here but in `Model/Interrupt`. -/
structure Sink (σ ε : Type) where
  write : σ → List UInt8 → σ × Except ε Nat

/-- The errors `write_all` returns: the writer's own, or `ErrorKind::WriteZero` when the writer takes nothing.
`encoding::Error::Io` wraps both (sia/src/encoding/v2.rs 7-8). -/
inductive WriteErr (ε : Type) where
  | io (e : ε)
  | writeZero
  deriving DecidableEq, Repr

/-- How a piece of encoding code ended. -/
inductive Ended (ε : Type) where
  | ok
  | err (e : WriteErr ε)
  | panic
  deriving DecidableEq, Repr

/-- What a piece of encoding code did: the bytes the writer took, the writer afterwards, and how it ended. -/
structure Wrote (σ ε : Type) where
  taken : List UInt8
  after : σ
  out : Ended ε

/-- Code that writes. -/
abbrev Wr (σ ε : Type) := σ → Wrote σ ε

namespace Wr

variable {σ ε : Type}

/-- `Ok(())`. -/
def done : Wr σ ε := fun s => ⟨[], s, .ok⟩

/-- A panic. -/
def crash : Wr σ ε := fun s => ⟨[], s, .panic⟩

/-- `a?; b`. -/
def andThen (a b : Wr σ ε) : Wr σ ε := fun s =>
  let x := a s
  match x.out with
  | .ok => let y := b x.after; ⟨x.taken ++ y.taken, y.after, y.out⟩
  | o => ⟨x.taken, x.after, o⟩

@[inherit_doc] infixr:60 " ?; " => andThen

/-- `a.unwrap()`. -/
def unwrap (a : Wr σ ε) : Wr σ ε := fun s =>
  let x := a s
  match x.out with
  | .err _ => ⟨x.taken, x.after, .panic⟩
  | _ => x

/-- `for a in l { f(a)?; }`. -/
def forEach {α : Type} (f : α → Wr σ ε) : List α → Wr σ ε
  | [] => done
  | a :: l => f a ?; forEach f l

/-- `Write::write_all` of the standard library: repeat `write` until the buffer is empty; a write of nothing is an
error. -/
def writeAll (S : Sink σ ε) (buf : List UInt8) : Wr σ ε := fun s =>
  if _h : buf = [] then ⟨[], s, .ok⟩
  else
    match S.write s buf with
    | (s', .error e) => ⟨[], s', .err (.io e)⟩
    | (s', .ok n) =>
      if n = 0 then ⟨[], s', .err .writeZero⟩
      else
        let x := writeAll S (buf.drop n) s'
        ⟨buf.take n ++ x.taken, x.after, x.out⟩
termination_by buf.length
decreasing_by
  have : buf.length ≠ 0 := by simpa using _h
  simp only [List.length_drop]
  omega

end Wr

open Wr

/-- `encode_v1`/`encode` with the writer in view. -/
class Writes (v : Ver) (α : Type) where
  put : {σ ε : Type} → Sink σ ε → α → Wr σ ε

/-- `a.encode_v1(w)` / `a.encode(w)`. -/
def emit (v : Ver) {α σ ε : Type} [Writes v α] (S : Sink σ ε) (a : α) : Wr σ ε := Writes.put v S a

variable {v : Ver} {α β : Type}

/-- `u8` (sia/src/encoding/v1.rs 12-17, v2.rs 29-34). -/
instance : Writes v UInt8 := ⟨fun S b => writeAll S [b]⟩

/-- `bool` (sia/src/encoding/v1.rs 27-31, v2.rs 44-48). -/
instance : Writes v Bool := ⟨fun S b => emit v S (if b then (1 : UInt8) else 0)⟩

/-- `impl_sia_numeric!` (sia/src/encoding/v1.rs 77-98, v2.rs 123-144). -/
instance : Writes v U16 := ⟨fun S x => writeAll S (numEncode x)⟩
instance : Writes v U32 := ⟨fun S x => writeAll S (numEncode x)⟩
instance : Writes v U64 := ⟨fun S x => writeAll S (numEncode x)⟩
instance : Writes v Int16 := ⟨fun S x => writeAll S (leBytes 8 (x.toBitVec.signExtend 64).toNat)⟩
instance : Writes v Int32 := ⟨fun S x => writeAll S (leBytes 8 (x.toBitVec.signExtend 64).toNat)⟩
instance : Writes v Int64 := ⟨fun S x => writeAll S (leBytes 8 (x.toBitVec.signExtend 64).toNat)⟩

/-- `[u8; N]` (sia/src/encoding/v1.rs 140-145, v2.rs 186-191). -/
instance {n : Nat} : Writes v (Arr n) := ⟨fun S a => writeAll S a.1⟩

/-- Slices and `Vec<T>` (sia/src/encoding/v1.rs 44-52, 100-111; v2.rs 90-98, 146-157). -/
instance [Writes v α] : Writes v (List α) :=
  ⟨fun S l => emit v S (BitVec.ofNat 64 l.length : U64) ?; forEach (emit v S) l⟩

/-- `Option<T>` (sia/src/encoding/v1.rs 54-64, v2.rs 100-110). -/
instance [Writes v α] : Writes v (Option α) where
  put S o := match o with
    | some a => emit v S true ?; emit v S a
    | none => emit v S false

/-- `String` (sia/src/encoding/v1.rs 127-131, v2.rs 173-177). -/
instance : Writes v String := ⟨fun S s => emit v S (strBytes s)⟩

/-- Two consecutive fields of a derived struct (sia_derive/src/lib.rs 5-51, 100-145). -/
instance [Writes v α] [Writes v β] : Writes v (α × β) := ⟨fun S p => emit v S p.1 ?; emit v S p.2⟩

/-- A derived encoder (sia_derive/src/lib.rs 5-51, 100-145). -/
instance (priority := low) [Struct α β] [Writes v β] : Writes v α := ⟨fun S a => emit v S (Struct.fields a)⟩

/-- `OffsetDateTime` (sia/src/encoding/v2.rs 61-65). -/
instance : Writes v DateTime := ⟨fun S t => writeAll S (leBytes 8 (BitVec.ofInt 64 t.secs).toNat)⟩

/-- `Duration` (sia/src/encoding/v2.rs 74-78). -/
instance : Writes v Duration := ⟨fun S d => writeAll S (leBytes 8 (BitVec.ofInt 64 d.ns).toNat)⟩

/-- `Currency` (sia/src/types/currency.rs 77-87, 101-106): v1 writes a slice, v2 an array. -/
instance : Writes v Currency where
  put S c := match v with
    | .v1 => emit .v1 S (stripZeros (beBytes 16 c.val.toNat))
    | .v2 => writeAll S (leBytes 16 c.val.toNat)

/-- `Work` (sia/src/types/work.rs 17-21, 31-35). -/
instance : Writes v Work := ⟨fun S w => writeAll S (beBytes 32 w.val.toNat)⟩

/-- `SiafundOutput` (sia/src/types/common.rs 313, 320-327). -/
instance : Writes v SiafundOutput where
  put S x := match v with
    | .v1 => emit .v1 S (Currency.ofU64 x.value) ?; emit .v1 S x.address ?; emit .v1 S (Currency.mk 0)
    | .v2 => emit .v2 S x.value ?; emit .v2 S x.address

instance : Writes v ChainIndex := inferInstance
instance : Writes v SiacoinOutput := inferInstance
instance : Writes v StateElement := inferInstance
instance : Writes v UnlockKey := inferInstance
instance : Writes v UnlockConditions := inferInstance
instance : Writes v V1.SiacoinInput := inferInstance
instance : Writes v V1.SiafundInput := inferInstance
instance : Writes v V1.FileContract := inferInstance
instance : Writes v V1.FileContractRevision := inferInstance
instance : Writes v V1.StorageProof := inferInstance
instance : Writes v V1.CoveredFields := inferInstance
instance : Writes v V1.TransactionSignature := inferInstance
instance : Writes v V1.Transaction := inferInstance
/-- `Block` (sia/src/types/common.rs 180-188): the id, nonce and timestamp are written with the v2 encoders, which
for these types are the v1 ones. -/
instance : Writes v Block := inferInstance

namespace SpendPolicy

variable {σ ε : Type}

mutual

/-- `encode_policy` (sia/src/types/spendpolicy.rs 318-340). -/
def putPolicy (S : Sink σ ε) : SpendPolicy → Wr σ ε
  | .above h => writeAll S [typePrefix (.above h)] ?; emit .v2 S h
  | .after t => writeAll S [typePrefix (.after t)] ?; writeAll S (leBytes 8 (BitVec.ofInt 64 t.secs).toNat)
  | .publicKey pk => writeAll S [typePrefix (.publicKey pk)] ?; emit .v2 S pk
  | .hash h => writeAll S [typePrefix (.hash h)] ?; emit .v2 S h
  | .threshold n of => writeAll S [typePrefix (.threshold n of)] ?; emit .v2 S n ?; emit .v2 S (UInt8.ofNat of.length) ?;
      putPolicies S of
  | .opaqueAddr a => writeAll S [typePrefix (.opaqueAddr a)] ?; emit .v2 S a
  | .unlockConditions uc => writeAll S [typePrefix (.unlockConditions uc)] ?; emit .v2 S uc

/-- The loop over the sub-policies (sia/src/types/spendpolicy.rs 330-332). -/
def putPolicies (S : Sink σ ε) : List SpendPolicy → Wr σ ε
  | [] => done
  | p :: ps => putPolicy S p ?; putPolicies S ps

end

end SpendPolicy

/-- `SpendPolicy` (sia/src/types/spendpolicy.rs 315-343). -/
instance : Writes v SpendPolicy := ⟨fun S p => emit .v2 S (1 : UInt8) ?; p.putPolicy S⟩

instance : Writes v SatisfiedPolicy := inferInstance
instance : Writes v V2.Attestation := inferInstance
instance : Writes v V2.FileContract := inferInstance
instance : Writes v V2.SiacoinElement := inferInstance
instance : Writes v V2.SiafundElement := inferInstance
instance : Writes v V2.FileContractElement := inferInstance
instance : Writes v V2.ChainIndexElement := inferInstance
instance : Writes v V2.SiacoinInput := inferInstance
instance : Writes v V2.SiafundInput := inferInstance
instance : Writes v V2.FileContractRevision := inferInstance
instance : Writes v V2.FileContractRenewal := inferInstance
instance : Writes v V2.StorageProof := inferInstance

/-- `FileContractResolution` (sia/src/types/v2.rs 325-340). -/
instance : Writes v V2.FileContractResolution where
  put S x := emit v S x.parent ?; match x.resolution with
    | .renewal r => emit v S (0 : UInt8) ?; emit v S r
    | .storageProof p => emit v S (1 : UInt8) ?; emit v S p
    | .expiration => emit v S (2 : UInt8)

/-- `if c { a?; }`. -/
def Wr.when {σ ε : Type} (c : Bool) (a : Wr σ ε) : Wr σ ε := if c then a else done

/-- v2 transaction (sia/src/types/v2.rs 531-590). -/
instance : Writes v V2.Transaction where
  put S t :=
    emit v S (2 : UInt8) ?;
    emit v S (V2.Transaction.fieldBits t.present) ?;
    Wr.when (!t.siacoinInputs.isEmpty) (emit v S t.siacoinInputs) ?;
    Wr.when (!t.siacoinOutputs.isEmpty) (emit v S t.siacoinOutputs) ?;
    Wr.when (!t.siafundInputs.isEmpty) (emit v S t.siafundInputs) ?;
    Wr.when (!t.siafundOutputs.isEmpty) (emit v S t.siafundOutputs) ?;
    Wr.when (!t.fileContracts.isEmpty) (emit v S t.fileContracts) ?;
    Wr.when (!t.fileContractRevisions.isEmpty) (emit v S t.fileContractRevisions) ?;
    Wr.when (!t.fileContractResolutions.isEmpty) (emit v S t.fileContractResolutions) ?;
    Wr.when (!t.attestations.isEmpty) (emit v S t.attestations) ?;
    Wr.when (!t.arbitraryData.isEmpty) (emit v S t.arbitraryData) ?;
    (match t.newFoundationAddress with
      | some a => emit v S a
      | none => done) ?;
    Wr.when (t.minerFee ≠ ⟨0⟩) (emit v S t.minerFee)

/-- The loop over the trees of the accumulator, from index `i` on (sia/src/consensus.rs 273-277). -/
def putSlots {σ ε : Type} (present : Nat → Bool) (w : α → Wr σ ε) : Nat → List α → Wr σ ε
  | _, [] => done
  | i, a :: l => Wr.when (present i) (w a) ?; putSlots present w (i + 1) l

/-- `ElementAccumulator` (sia/src/consensus.rs 270-280). -/
instance : Writes v ElementAccumulator :=
  ⟨fun S a => emit v S a.numLeaves ?; putSlots (hasTreeAtHeight a.numLeaves) (emit v S) 0 a.trees.1⟩

/-- `State::encode` (sia/src/consensus.rs 375-401): a failure while writing a timestamp is unwrapped, and
`child_height` may overflow after the index was written. -/
def State.put (m : Mode) {σ ε : Type} (S : Sink σ ε) (s : State) : Wr σ ε :=
  Verif.emit .v2 S s.index ?;
  (match State.timestampsCount m s.index with
    | .ok count => forEach (fun t => (Verif.emit .v2 S t).unwrap) (s.prevTimestamps.1.take count)
    | _ => crash) ?;
  Verif.emit .v2 S s.tail

/-- `State::encode` with `?` in place of `unwrap`, which is not the code in the repository: the repair
sia/src/consensus.rs 383-386 needs. -/
def State.putRepaired (m : Mode) {σ ε : Type} (S : Sink σ ε) (s : State) : Wr σ ε :=
  Verif.emit .v2 S s.index ?;
  (match State.timestampsCount m s.index with
    | .ok count => forEach (Verif.emit .v2 S) (s.prevTimestamps.1.take count)
    | _ => crash) ?;
  Verif.emit .v2 S s.tail

/-! ## The encoders used for hashing (`encode_no_sigs`, `encode_semantics`) -/

/-- `encode_no_sigs` (sia/src/types/v1.rs 307-317). -/
def V1.Transaction.putNoSigs {σ ε : Type} (S : Sink σ ε) (t : V1.Transaction) : Wr σ ε :=
  emit .v1 S t.siacoinInputs ?; emit .v1 S t.siacoinOutputs ?; emit .v1 S t.fileContracts ?;
  emit .v1 S t.fileContractRevisions ?; emit .v1 S t.storageProofs ?; emit .v1 S t.siafundInputs ?;
  emit .v1 S t.siafundOutputs ?; emit .v1 S t.minerFees ?; emit .v1 S t.arbitraryData

namespace V2

variable {σ ε : Type}

/-- `Attestation::encode_semantics` (sia/src/types/v2.rs 40-45). -/
def Attestation.putSemantics (S : Sink σ ε) (a : Attestation) : Wr σ ε :=
  emit .v2 S a.publicKey ?; emit .v2 S a.key ?; emit .v2 S a.value ?; emit .v2 S (Arr.zero 64)

/-- `FileContract::encode_semantics` (sia/src/types/v2.rs 86-102). -/
def FileContract.putSemantics (S : Sink σ ε) (c : FileContract) : Wr σ ε :=
  emit .v2 S c.capacity ?; emit .v2 S c.filesize ?; emit .v2 S c.fileMerkleRoot ?; emit .v2 S c.proofHeight ?;
  emit .v2 S c.expirationHeight ?; emit .v2 S c.renterOutput ?; emit .v2 S c.hostOutput ?; emit .v2 S c.missedHostValue ?;
  emit .v2 S c.totalCollateral ?; emit .v2 S c.renterPublicKey ?; emit .v2 S c.hostPublicKey ?; emit .v2 S c.revisionNumber ?;
  emit .v2 S (Arr.zero 64) ?; emit .v2 S (Arr.zero 64)

/-- `ChainIndexElement::encode_semantics` (sia/src/types/v2.rs 152-160). -/
def ChainIndexElement.putSemantics (S : Sink σ ε) (e : ChainIndexElement) : Wr σ ε :=
  emit .v2 S e.stateElement.leafIndex ?; emit .v2 S ([] : List Hash256) ?; emit .v2 S e.id ?; emit .v2 S e.chainIndex

/-- `FileContractRevision::encode_semantics` (sia/src/types/v2.rs 197-203). -/
def FileContractRevision.putSemantics (S : Sink σ ε) (r : FileContractRevision) : Wr σ ε :=
  emit .v2 S r.parent.id ?; r.revision.putSemantics S

/-- `FileContractRenewal::encode_semantics` (sia/src/types/v2.rs 220-229). -/
def FileContractRenewal.putSemantics (S : Sink σ ε) (r : FileContractRenewal) : Wr σ ε :=
  r.finalRevision.putSemantics S ?; r.newContract.putSemantics S ?; emit .v2 S r.renterRollover ?;
  emit .v2 S r.hostRollover ?; emit .v2 S (Arr.zero 64) ?; emit .v2 S (Arr.zero 64)

/-- `StorageProof::encode_semantics` (sia/src/types/v2.rs 259-266). -/
def StorageProof.putSemantics (S : Sink σ ε) (p : StorageProof) : Wr σ ε :=
  p.proofIndex.putSemantics S ?; emit .v2 S p.leaf ?; emit .v2 S p.proof

/-- `FileContractResolution::encode_semantics` (sia/src/types/v2.rs 313-323). -/
def FileContractResolution.putSemantics (S : Sink σ ε) (r : FileContractResolution) : Wr σ ε :=
  emit .v2 S r.parent.id ?; match r.resolution with
    | .renewal r => r.putSemantics S
    | .storageProof p => p.putSemantics S
    | .expiration => done

/-- `vec.len().encode(w)?; for x in &vec { .. }` (e.g. sia/src/types/v2.rs 485-488). -/
def putLenThen {α : Type} (S : Sink σ ε) (e : α → Wr σ ε) (l : List α) : Wr σ ε :=
  emit .v2 S (BitVec.ofNat 64 l.length : U64) ?; forEach e l

/-- `Transaction::encode_semantics` (sia/src/types/v2.rs 484-512). -/
def Transaction.putSemantics (S : Sink σ ε) (t : Transaction) : Wr σ ε :=
  putLenThen S (fun i => emit .v2 S i.parent.id) t.siacoinInputs ?; emit .v2 S t.siacoinOutputs ?;
  putLenThen S (fun i => emit .v2 S i.parent.id) t.siafundInputs ?; emit .v2 S t.siafundOutputs ?;
  putLenThen S (FileContract.putSemantics S) t.fileContracts ?;
  putLenThen S (FileContractRevision.putSemantics S) t.fileContractRevisions ?;
  putLenThen S (FileContractResolution.putSemantics S) t.fileContractResolutions ?;
  emit .v2 S t.attestations ?; emit .v2 S t.arbitraryData ?; emit .v2 S t.newFoundationAddress ?; emit .v2 S t.minerFee

end V2

end Verif
