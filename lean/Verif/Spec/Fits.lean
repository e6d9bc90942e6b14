import Verif.Model.V2
import Verif.Model.Consensus

/-!
# Which values are in the domain of the round-trip properties

`fits lim a`: `a` is a value for which the wire format is meant to be faithful.  For most types this only
says that vectors are not longer than `lim.cap` (the allocation limit of the decoding machine) nor than
2^64 - 1, which every Rust vector satisfies.
-/

namespace Verif

/-- Domain predicate; `lim` holds the resource limits of the decoding side. -/
class Fits (α : Type) where
  fits : Lim → α → Prop

export Fits (fits)

variable {α β : Type}

instance : Fits UInt8 := ⟨fun _ _ => True⟩
instance : Fits Bool := ⟨fun _ _ => True⟩
instance {n : Nat} : Fits (BitVec n) := ⟨fun _ _ => True⟩
instance : Fits Int16 := ⟨fun _ _ => True⟩
instance : Fits Int32 := ⟨fun _ _ => True⟩
instance : Fits Int64 := ⟨fun _ _ => True⟩
instance {n : Nat} : Fits (Arr n) := ⟨fun _ _ => True⟩
instance : Fits Currency := ⟨fun _ _ => True⟩
instance : Fits Work := ⟨fun _ _ => True⟩
instance : Fits SiafundOutput := ⟨fun _ _ => True⟩

/-- Vectors: allocatable, and so are the elements. -/
instance [Fits α] : Fits (List α) := ⟨fun lim l => l.length ≤ lim.cap ∧ l.length < 2 ^ 64 ∧ ∀ a ∈ l, fits lim a⟩

instance [Fits α] : Fits (Option α) := ⟨fun lim o => ∀ a, o = some a → fits lim a⟩

instance [Fits α] [Fits β] : Fits (α × β) := ⟨fun lim p => fits lim p.1 ∧ fits lim p.2⟩

/-- Derived structs: all fields fit. -/
instance (priority := low) [Struct α β] [Fits β] : Fits α := ⟨fun lim a => fits lim (Struct.fields a)⟩

/-- Strings: the UTF-8 byte length is allocatable. -/
instance : Fits String := ⟨fun lim s => s.utf8ByteSize ≤ lim.cap ∧ s.utf8ByteSize < 2 ^ 64⟩

/-- Timestamps: whole seconds between the years -9999 and 9999. -/
instance : Fits DateTime := ⟨fun _ t => t.nanos = 0 ∧ -377705116800 ≤ t.secs ∧ t.secs ≤ 253402300799⟩

/-- Durations: non-negative and at most `i64::MAX` nanoseconds. -/
instance : Fits Duration := ⟨fun _ d => 0 ≤ d.ns ∧ d.ns < 2 ^ 63⟩

/-! Derived structs of the shared and v1 types (shortcuts for instance search). -/

instance : Fits ChainIndex := inferInstance
instance : Fits SiacoinOutput := inferInstance
instance : Fits StateElement := inferInstance
instance : Fits UnlockKey := inferInstance
instance : Fits UnlockConditions := inferInstance
instance : Fits V1.SiacoinInput := inferInstance
instance : Fits V1.SiafundInput := inferInstance
instance : Fits V1.FileContract := inferInstance
instance : Fits V1.FileContractRevision := inferInstance
instance : Fits V1.StorageProof := inferInstance
instance : Fits V1.CoveredFields := inferInstance
instance : Fits V1.TransactionSignature := inferInstance
instance : Fits V1.Transaction := inferInstance
instance : Fits Block := inferInstance

/-- Policies: nested at most `d` deep, no threshold over more than 255 sub-policies, representable
timestamps and unlock conditions. -/
def policyFits (lim : Lim) : Nat → SpendPolicy → Prop
  | 0, _ => False
  | d + 1, .threshold _ of => of.length ≤ 255 ∧ of.length ≤ lim.cap ∧ ∀ p ∈ of, policyFits lim d p
  | _ + 1, .after t => fits lim t
  | _ + 1, .unlockConditions uc => fits lim uc
  | _ + 1, .above _ => True
  | _ + 1, .publicKey _ => True
  | _ + 1, .hash _ => True
  | _ + 1, .opaqueAddr _ => True

instance : Fits SpendPolicy := ⟨fun lim p => policyFits lim lim.stack p⟩

instance : Fits SatisfiedPolicy := inferInstance

/-! v2 types -/

instance : Fits V2.Attestation := inferInstance
instance : Fits V2.FileContract := inferInstance
instance : Fits V2.SiacoinElement := inferInstance
instance : Fits V2.SiafundElement := inferInstance
instance : Fits V2.FileContractElement := inferInstance
instance : Fits V2.ChainIndexElement := inferInstance
instance : Fits V2.SiacoinInput := inferInstance
instance : Fits V2.SiafundInput := inferInstance
instance : Fits V2.FileContractRevision := inferInstance
instance : Fits V2.FileContractRenewal := inferInstance
instance : Fits V2.StorageProof := inferInstance

instance : Fits V2.FileContractResolution := ⟨fun lim x => fits lim x.parent ∧ match x.resolution with
  | .renewal r => fits lim r
  | .storageProof p => fits lim p
  | .expiration => True⟩

/-- v2 transactions: all fields fit. -/
instance : Fits V2.Transaction := ⟨fun lim t =>
  fits lim t.siacoinInputs ∧ fits lim t.siacoinOutputs ∧ fits lim t.siafundInputs ∧ fits lim t.siafundOutputs ∧
  fits lim t.fileContracts ∧ fits lim t.fileContractRevisions ∧ fits lim t.fileContractResolutions ∧
  fits lim t.attestations ∧ fits lim t.arbitraryData⟩

/-- Element accumulators: normal form, i.e. the trees at the zero bits of the leaf count are the zero hash. -/
instance : Fits ElementAccumulator := ⟨fun _ a =>
  ∀ i (h : i < a.trees.1.length), a.numLeaves.toNat.testBit i = false → a.trees.1[i] = Arr.zero 32⟩

/-- Chain states: normal form, i.e. timestamps beyond the first `height + 1` are the epoch; the other timestamps,
the duration and the accumulator are representable; and the height has a successor. -/
def stateFits (lim : Lim) (s : State) : Prop :=
  s.index.height.toNat + 1 < 2 ^ 64 ∧
  (∀ i (h : i < s.prevTimestamps.1.length),
    if i ≤ s.index.height.toNat then fits lim s.prevTimestamps.1[i] else s.prevTimestamps.1[i] = ⟨0, 0⟩) ∧
  fits lim s.oakTime ∧ fits lim s.elements

end Verif
