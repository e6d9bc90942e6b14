import Verif.Model.Merkle

/-!
# Merkle roots

Relations between a list of leaf hashes and a root; they say nothing about how a root is computed.
-/

namespace Verif

/-- `r` is the root of the binary Merkle tree over the leaf hashes `l`, as in RFC 6962 section 2.1 with the hash of two
children being `H (1 ‖ left ‖ right)`: a single leaf is its own root, and otherwise the left subtree is over the largest power
of two of leaves smaller than the number of leaves. -/
inductive IsMerkleRoot (H : Hasher) : List Hash256 → Hash256 → Prop
  | leaf (x : Hash256) : IsMerkleRoot H [x] x
  | node (j : Nat) (l r : List Hash256) (a b : Hash256) : l.length = 2 ^ j → 0 < r.length → r.length ≤ 2 ^ j →
      IsMerkleRoot H l a → IsMerkleRoot H r b → IsMerkleRoot H (l ++ r) (H ([1] ++ a.1 ++ b.1))

/-- What `Accumulator` computes instead: a subtree over 2^(j+1) leaves is the hash of its left half and of its last leaf. -/
inductive IsAccumulatorRoot (H : Hasher) : List Hash256 → Hash256 → Prop
  | leaf (x : Hash256) : IsAccumulatorRoot H [x] x
  | node (j : Nat) (l r : List Hash256) (a b : Hash256) : l.length = 2 ^ j → 0 < r.length → r.length < 2 ^ j →
      IsAccumulatorRoot H l a → IsAccumulatorRoot H r b → IsAccumulatorRoot H (l ++ r) (H ([1] ++ a.1 ++ b.1))
  | full (j : Nat) (l r : List Hash256) (a x : Hash256) : l.length = 2 ^ j → r.length + 1 = 2 ^ j →
      IsAccumulatorRoot H l a → IsAccumulatorRoot H (l ++ (r ++ [x])) (H ([1] ++ a.1 ++ x.1))

/-- `s` is one of the strings hashed to combine children in the Merkle tree over `l`. -/
inductive NodeString (H : Hasher) : List Hash256 → List UInt8 → Prop
  | root (j : Nat) (l r : List Hash256) (a b : Hash256) : l.length = 2 ^ j → 0 < r.length → r.length ≤ 2 ^ j →
      IsMerkleRoot H l a → IsMerkleRoot H r b → NodeString H (l ++ r) ([1] ++ a.1 ++ b.1)
  | left (j : Nat) (l r : List Hash256) (s : List UInt8) : l.length = 2 ^ j → 0 < r.length → r.length ≤ 2 ^ j →
      NodeString H l s → NodeString H (l ++ r) s
  | right (j : Nat) (l r : List Hash256) (s : List UInt8) : l.length = 2 ^ j → 0 < r.length → r.length ≤ 2 ^ j →
      NodeString H r s → NodeString H (l ++ r) s

/-- The strings hashed to obtain the leaves of unlock conditions: the timelock, the keys in order, the number of required
signatures, each after a zero byte. -/
def UnlockConditions.leafStrings (uc : UnlockConditions) : List (List UInt8) :=
  [[0] ++ leBytes 8 uc.timelock.toNat] ++ uc.publicKeys.map (fun k => [0] ++ enc .v2 k) ++
  [[0] ++ leBytes 8 uc.signaturesRequired.toNat]

/-- The leaf hashes of unlock conditions. -/
def UnlockConditions.leaves (H : Hasher) (uc : UnlockConditions) : List Hash256 := uc.leafStrings.map H

/-- `s` is one of the strings that are hashed for the Merkle root of the unlock conditions. -/
def UnlockConditions.Hashed (H : Hasher) (uc : UnlockConditions) (s : List UInt8) : Prop :=
  s ∈ uc.leafStrings ∨ NodeString H (uc.leaves H) s

/-! ## The accumulator with another second argument of `sum_node`

`sel leaf node` is what is hashed with the existing tree.  The code (sia/src/merkle.rs 34) is the choice of the leaf; the
running node is what a Merkle tree needs. -/

namespace Accumulator

/-- The loop of `add_leaf` with a choice. -/
def addLoopWith (sel : Hash256 → Hash256 → Hash256) (H : Hasher) (a : Accumulator) (h : Hash256) :
    (fuel i : Nat) → Hash256 → Option (Nat × Hash256)
  | 0, _, _ => none
  | fuel + 1, i, node =>
    if hasTreeAtHeight a.numLeaves i then
      match a.trees.1[i]? with
      | some t => addLoopWith sel H a h fuel (i + 1) (sumNode H t (sel h node))
      | none => none
    else some (i, node)

def addLeafWith (sel : Hash256 → Hash256 → Hash256) (H : Hasher) (a : Accumulator) (h : Hash256) : Res Accumulator :=
  match addLoopWith sel H a h 64 0 h with
  | none => .panic
  | some (i, node) => .ok ⟨a.trees.set i node, a.numLeaves + 1⟩

def addLeavesWith (sel : Hash256 → Hash256 → Hash256) (H : Hasher) (a : Accumulator) : List Hash256 → Res Accumulator
  | [] => .ok a
  | h :: hs => do
    let a' ← a.addLeafWith sel H h
    addLeavesWith sel H a' hs

end Accumulator

end Verif
