import Verif.Model.Consensus

/-!
# Merkle accumulator (sia/src/merkle.rs) and the address of unlock conditions
-/

namespace Verif

/-- Blake2b with 32 bytes of output.  `State::update` appends to the input, so a hash is a function of the
concatenation of all updates.  The model never looks inside. -/
abbrev Hasher := List UInt8 → Hash256

/-- `sum_leaf` (sia/src/merkle.rs 58-67, prefix 5). -/
def sumLeaf (H : Hasher) (leaf : List UInt8) : Hash256 := H ([0] ++ leaf)

/-- `sum_node` (sia/src/merkle.rs 69-78, prefix 6). -/
def sumNode (H : Hasher) (left right : Hash256) : Hash256 := H ([1] ++ (left.1 ++ right.1))

/-- `Accumulator` (sia/src/merkle.rs 9-13) without its hash parameters. -/
structure Accumulator where
  trees : Vec Hash256 64
  numLeaves : U64
  deriving DecidableEq

/-- `trees[i] = x` for an index in range. -/
def Vec.set {α : Type} {n : Nat} (t : Vec α n) (i : Nat) (x : α) : Vec α n := ⟨t.1.set i x, by simp [t.2]⟩

/-- `u64::trailing_zeros`: 64 for zero. -/
def trailingZeros (x : U64) : Nat := ((List.range 64).find? fun i => x.toNat.testBit i).getD 64

namespace Accumulator

/-- `new` (sia/src/merkle.rs 16-24). -/
def new : Accumulator := ⟨Vec.fill 64 (Arr.zero 32), 0⟩

/-- The loop of `add_leaf` (sia/src/merkle.rs 33-36), `fuel = 64 - i` iterations remaining.  It sums each occupied tree
with the new leaf `h`, as the code does, not with the running node.  With all 64 heights occupied the code shifts by 64, which
panics in a checked build, and otherwise indexes out of bounds, which panics too: `none`. -/
def addLoop (H : Hasher) (a : Accumulator) (h : Hash256) : (fuel i : Nat) → Hash256 → Option (Nat × Hash256)
  | 0, _, _ => none
  | fuel + 1, i, node =>
    if hasTreeAtHeight a.numLeaves i then
      match a.trees.1[i]? with
      | some t => addLoop H a h fuel (i + 1) (sumNode H t h)
      | none => none
    else some (i, node)

/-- `add_leaf` (sia/src/merkle.rs 30-39).  The increment cannot overflow after the loop has ended. -/
def addLeaf (H : Hasher) (a : Accumulator) (h : Hash256) : Res Accumulator :=
  match addLoop H a h 64 0 h with
  | none => .panic
  | some (i, node) => .ok ⟨a.trees.set i node, a.numLeaves + 1⟩

/-- The loop of `root` (sia/src/merkle.rs 48-53) over the trees from height `i` on. -/
def rootLoop (H : Hasher) (n : U64) : (i : Nat) → List Hash256 → Hash256 → Hash256
  | _, [], root => root
  | i, t :: ts, root => rootLoop H n (i + 1) ts (if hasTreeAtHeight n i then sumNode H t root else root)

/-- `root` (sia/src/merkle.rs 41-55). -/
def root (H : Hasher) (a : Accumulator) : Hash256 :=
  let i := trailingZeros a.numLeaves
  match a.trees.1[i]? with
  | none => Arr.zero 32
  | some t => rootLoop H a.numLeaves (i + 1) (a.trees.1.drop (i + 1)) t

/-- Several leaves in order (the calls in sia/src/types/v1.rs 136-154). -/
def addLeaves (H : Hasher) (a : Accumulator) : List Hash256 → Res Accumulator
  | [] => .ok a
  | h :: hs => do
    let a' ← a.addLeaf H h
    addLeaves H a' hs

end Accumulator

/-- `UnlockConditions::address` (sia/src/types/v1.rs 125-157): leaves for the timelock, each key (v2 encoding) and the
number of required signatures. -/
def UnlockConditions.address (H : Hasher) (uc : UnlockConditions) : Res Address := do
  let a ← Accumulator.new.addLeaf H (H ([0] ++ leBytes 8 uc.timelock.toNat))
  let a ← a.addLeaves H (uc.publicKeys.map fun k => H ([0] ++ enc .v2 k))
  let a ← a.addLeaf H (H ([0] ++ leBytes 8 uc.signaturesRequired.toNat))
  pure (a.root H)

end Verif
