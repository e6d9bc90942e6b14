import Verif.Model.Memory

/-!
# The memory that a value occupies (C71)
-/

namespace Verif

/-- What a value of a Rust type occupies: `inline` bytes where it is kept, and `heap` bytes behind its vectors and strings, none of which has room to
spare. -/
class Held (α : Type) where
  inline : Alloc → Nat := fun _ => 0
  heap : Alloc → α → Nat := fun _ _ => 0

def heap {α : Type} [Held α] (A : Alloc) (a : α) : Nat := Held.heap A a

/-- The buffer of a vector has a place for every element, and each element has its own heap. -/
def heapVec {α : Type} (inline : Nat) (heap : α → Nat) (l : List α) : Nat := l.length * inline + (l.map heap).sum

instance : Held UInt8 where inline _ := 1
instance : Held Bool where inline _ := 1
instance : Held U64 where inline _ := 8
instance : Held Currency where inline _ := 16
instance {n : Nat} : Held (Arr n) where inline _ := n
instance : Held DateTime where
instance : Held Duration where
instance : Held Work where
instance : Held ElementAccumulator where
instance {α : Type} [Held α] : Held (List α) where
  inline _ := 24
  heap A := heapVec (Held.inline α A) (heap A)
instance : Held String where
  inline _ := 24
  heap _ s := s.utf8ByteSize
instance {α : Type} [Held α] : Held (Option α) where
  heap A
    | some a => heap A a
    | none => 0

instance : Held ChainIndex where
instance : Held SiacoinOutput where
  inline A := A.size "SiacoinOutput"
instance : Held SiafundOutput where
  inline A := A.size "SiafundOutput"
instance : Held StateElement where
  heap _ e := 32 * e.merkleProof.length
instance : Held UnlockKey where
  inline A := A.size "UnlockKey"
  heap _ k := k.key.length
instance : Held UnlockConditions where
  heap A c := heap A c.publicKeys
instance : Held V1.SiacoinInput where
  inline A := A.size "v1::SiacoinInput"
  heap A i := heap A i.unlockConditions
instance : Held V1.SiafundInput where
  inline A := A.size "v1::SiafundInput"
  heap A i := heap A i.unlockConditions
instance : Held V1.FileContract where
  inline A := A.size "v1::FileContract"
  heap A c := A.size "SiacoinOutput" * (c.validProofOutputs.length + c.missedProofOutputs.length)
instance : Held V1.FileContractRevision where
  inline A := A.size "v1::FileContractRevision"
  heap A c := heap A c.unlockConditions + A.size "SiacoinOutput" * (c.validProofOutputs.length + c.missedProofOutputs.length)
instance : Held V1.StorageProof where
  inline A := A.size "v1::StorageProof"
  heap _ p := 32 * p.proof.length
instance : Held V1.CoveredFields where
  heap _ f := 8 * (f.siacoinInputs.length + f.siacoinOutputs.length + f.fileContracts.length + f.fileContractRevisions.length + f.storageProofs.length +
    f.siafundInputs.length + f.siafundOutputs.length + f.minerFees.length + f.arbitraryData.length + f.signatures.length)
instance : Held V1.TransactionSignature where
  inline A := A.size "v1::TransactionSignature"
  heap A s := heap A s.coveredFields + s.signature.length
instance : Held V1.Transaction where
  inline A := A.size "v1::Transaction"
  heap A t := heap A t.siacoinInputs + A.size "SiacoinOutput" * t.siacoinOutputs.length + heap A t.fileContracts + heap A t.fileContractRevisions +
    heap A t.storageProofs + heap A t.siafundInputs + A.size "SiafundOutput" * t.siafundOutputs.length + 16 * t.minerFees.length +
    (24 * t.arbitraryData.length + (t.arbitraryData.map List.length).sum) + heap A t.signatures
instance : Held Block where
  heap A b := A.size "SiacoinOutput" * b.minerPayouts.length + heap A b.transactions

/-- A threshold policy has a vector of policies, unlock conditions have their keys. -/
def SpendPolicy.heap (A : Alloc) : SpendPolicy → Nat
  | .threshold _ of => of.length * A.size "SpendPolicy" + (of.attach.map fun p => SpendPolicy.heap A p.1).sum
  | .unlockConditions c => Verif.heap A c
  | .above _ | .after _ | .publicKey _ | .hash _ | .opaqueAddr _ => 0
termination_by p => p
decreasing_by
  have := p.2
  decreasing_tactic

instance : Held SpendPolicy where
  inline A := A.size "SpendPolicy"
  heap := SpendPolicy.heap
instance : Held SatisfiedPolicy where
  heap A p := heap A p.policy + 64 * p.signatures.length + 32 * p.preimages.length
instance : Held V2.Attestation where
  inline A := A.size "Attestation"
  heap _ a := a.key.utf8ByteSize + a.value.length
instance : Held V2.FileContract where
  inline A := A.size "v2::FileContract"
instance : Held V2.SiacoinElement where
  heap A e := heap A e.stateElement
instance : Held V2.SiafundElement where
  heap A e := heap A e.stateElement
instance : Held V2.FileContractElement where
  heap A e := heap A e.stateElement
instance : Held V2.ChainIndexElement where
  heap A e := heap A e.stateElement
instance : Held V2.SiacoinInput where
  inline A := A.size "v2::SiacoinInput"
  heap A i := heap A i.parent + heap A i.satisfiedPolicy
instance : Held V2.SiafundInput where
  inline A := A.size "v2::SiafundInput"
  heap A i := heap A i.parent + heap A i.satisfiedPolicy
instance : Held V2.FileContractRevision where
  inline A := A.size "v2::FileContractRevision"
  heap A r := heap A r.parent
instance : Held V2.FileContractRenewal where
instance : Held V2.StorageProof where
  heap A p := heap A p.proofIndex + 32 * p.proof.length
instance : Held V2.FileContractResolution where
  inline A := A.size "v2::FileContractResolution"
  heap A r := heap A r.parent + match r.resolution with
    | .storageProof p => heap A p
    | _ => 0
instance : Held V2.Transaction where
  heap A t := heap A t.siacoinInputs + A.size "SiacoinOutput" * t.siacoinOutputs.length + heap A t.siafundInputs +
    A.size "SiafundOutput" * t.siafundOutputs.length + A.size "v2::FileContract" * t.fileContracts.length + heap A t.fileContractRevisions +
    heap A t.fileContractResolutions + heap A t.attestations + t.arbitraryData.length

/-- Decoding a value asks for what the value occupies, no more and no less. -/
def CostsItsHeap (v : Ver) (α : Type) [Metered v α] [Held α] : Prop :=
  ∀ (A : Alloc) (M : Machine) (bs rest : List UInt8) (a : α), A.grow = false →
    ((met v A : Met α) M bs).2 = .ok (a, rest) → ((met v A : Met α) M bs).1 = heap A a

end Verif
