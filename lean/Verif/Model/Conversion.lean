import Verif.Model.Consensus
import Verif.Model.Arith

/-!
# Order, conversions and default values
-/

namespace Verif

/-- `Ord for Currency`, derived (sia/src/types/currency.rs 15-16): that of the `u128` inside. -/
def Currency.cmp (a b : Currency) : Ordering := compare a.val.toNat b.val.toNat

/-- `*c += x` through `DerefMut for Currency` (sia/src/types/currency.rs 125-129). -/
def Currency.addAssign (m : Mode) (c : Currency) (x : U128) : Res Currency := do
  let v ← addU m c.val x
  pure ⟨v⟩

/-- `From<&[u8; 32]> for Work` (sia/src/types/work.rs 11-15). -/
def Work.ofBytes (b : Arr 32) : Work := ⟨BitVec.ofNat 256 (beVal b.1)⟩

/-- `Ord for Work`, from `construct_uint!` (sia/src/types/work.rs 6-9): the order of numbers. -/
def Work.cmp (a b : Work) : Ordering := compare a.val.toNat b.val.toNat

/-- `Default` of the identifiers (sia/src/macros.rs 98-102), of `Address` (types/common.rs 214) and of `Signature` (signing.rs
157-161): zeros. -/
def Arr.default (n : Nat) : Arr n := ⟨List.replicate n 0, by simp⟩

/-- `Default for ElementAccumulator` (sia/src/consensus.rs 261-268). -/
def ElementAccumulator.default : ElementAccumulator := ⟨0, ⟨List.replicate 64 (Arr.default 32), by simp⟩⟩

/-- `Default for Currency`, derived (sia/src/types/currency.rs 15). -/
def Currency.default : Currency := ⟨0⟩

/-- `Default for CoveredFields`, derived (sia/src/types/v1.rs 230). -/
def V1.CoveredFields.default : V1.CoveredFields := ⟨false, [], [], [], [], [], [], [], [], [], []⟩

/-- `Default for v1::Transaction`, derived (sia/src/types/v1.rs 277). -/
def V1.Transaction.default : V1.Transaction := ⟨[], [], [], [], [], [], [], [], [], []⟩

/-- The loop of `Drop for PrivateKey` and `Drop for Seed` (sia/src/signing.rs 104-111, seed.rs 65-72): the buffer after the bytes
from `i` on were set to zero one by one.  Simplification: copies of the buffer made by moves, and stores a compiler
removes, are not considered. -/
def wipeFrom (i : Nat) (l : List UInt8) : List UInt8 :=
  if i < l.length then wipeFrom (i + 1) (l.set i 0) else l
termination_by l.length - i
decreasing_by simp only [List.length_set]; omega

/-- The buffer after `drop`. -/
def wipe (l : List UInt8) : List UInt8 := wipeFrom 0 l

end Verif
