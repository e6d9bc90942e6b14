import Verif.Model.Types

/-!
# Which v1 values a 32-bit machine can hold
-/

namespace Verif

namespace V1

/-- All the indices. -/
def CoveredFields.indices (c : CoveredFields) : List U64 :=
  c.siacoinInputs ++ c.siacoinOutputs ++ c.fileContracts ++ c.fileContractRevisions ++ c.storageProofs ++ c.siafundInputs ++
  c.siafundOutputs ++ c.minerFees ++ c.arbitraryData ++ c.signatures

/-- The same with every index changed. -/
def CoveredFields.mapIndices (f : U64 → U64) (c : CoveredFields) : CoveredFields :=
  ⟨c.wholeTransaction, c.siacoinInputs.map f, c.siacoinOutputs.map f, c.fileContracts.map f, c.fileContractRevisions.map f,
   c.storageProofs.map f, c.siafundInputs.map f, c.siafundOutputs.map f, c.minerFees.map f, c.arbitraryData.map f, c.signatures.map f⟩

def TransactionSignature.mapIndices (f : U64 → U64) (s : TransactionSignature) : TransactionSignature :=
  { s with coveredFields := s.coveredFields.mapIndices f }

def Transaction.mapIndices (f : U64 → U64) (t : Transaction) : Transaction :=
  { t with signatures := t.signatures.map (·.mapIndices f) }

/-- Every covered index is below `n`. -/
def Transaction.IndicesBelow (n : Nat) (t : Transaction) : Prop :=
  ∀ s ∈ t.signatures, ∀ i ∈ s.coveredFields.indices, i.toNat < n

end V1

def Block.mapIndices (f : U64 → U64) (b : Block) : Block := { b with transactions := b.transactions.map (·.mapIndices f) }

def Block.IndicesBelow (n : Nat) (b : Block) : Prop := ∀ t ∈ b.transactions, t.IndicesBelow n

/-- The remainder modulo 2^32. -/
def mod32 (x : U64) : U64 := BitVec.ofNat 64 (x.toNat % 2 ^ 32)

end Verif
