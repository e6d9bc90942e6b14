import Verif.Model.Arith
import Verif.Model.Types

/-!
# Chain state and its codec (sia/src/consensus.rs)
-/

namespace Verif

/-- `[T; N]`. -/
abbrev Vec (α : Type) (n : Nat) := {l : List α // l.length = n}

/-- `[x; N]`. -/
def Vec.fill {α : Type} (n : Nat) (x : α) : Vec α n := ⟨List.replicate n x, List.length_replicate⟩

/-- `ChainIndex::child_height` (sia/src/types/common.rs 155-159). -/
def ChainIndex.childHeight (m : Mode) (i : ChainIndex) : Res U64 := addU m i.height 1

/-- `has_tree_at_height` (sia/src/consensus.rs 251-253). -/
def hasTreeAtHeight (numLeaves : U64) (height : Nat) : Bool := numLeaves &&& ((1 : U64) <<< height) ≠ 0

/-- Write those array elements whose index satisfies `present`, from index `i` on. -/
def encodeSlots {α : Type} (present : Nat → Bool) (e : α → List UInt8) : Nat → List α → List UInt8
  | _, [] => []
  | i, a :: l => (if present i then e a else []) ++ encodeSlots present e (i + 1) l

/-- Fill an array of `n` elements from index `i` on: decode those whose index satisfies `present` and leave
`default` in the others. -/
def decodeSlots {α : Type} (present : Nat → Bool) (d : Dec α) (default : α) : Nat → (n : Nat) → Dec (Vec α n)
  | _, 0 => pure ⟨[], rfl⟩
  | i, n + 1 => do
    let a ← (if present i then d else pure default)
    let l ← decodeSlots present d default (i + 1) n
    pure ⟨a :: l.1, by simp [l.2]⟩

/-- `ElementAccumulator` (sia/src/consensus.rs 255-259). -/
structure ElementAccumulator where
  numLeaves : U64
  trees : Vec Hash256 64
  deriving DecidableEq

/-- ElementAccumulator (sia/src/consensus.rs 270-294): the leaf count, then the roots at set bits.  Only v2
exists. -/
instance {v : Ver} : Codec v ElementAccumulator where
  encode a := enc v a.numLeaves ++ encodeSlots (hasTreeAtHeight a.numLeaves) (enc v) 0 a.trees.1
  decode := do
    let numLeaves ← dec v
    let trees ← decodeSlots (hasTreeAtHeight numLeaves) (dec v) (Arr.zero 32) 0 64
    pure ⟨numLeaves, trees⟩

/-- `State` (sia/src/consensus.rs 348-373). -/
structure State where
  index : ChainIndex
  prevTimestamps : Vec DateTime 11
  depth : BlockID
  childTarget : BlockID
  siafundPool : Currency
  oakTime : Duration
  oakTarget : BlockID
  foundationPrimaryAddress : Address
  foundationFailsafeAddress : Address
  totalWork : Work
  difficulty : Work
  oakWork : Work
  elements : ElementAccumulator
  attestations : U64
  deriving DecidableEq

namespace State

/-- `timestamps_count` (sia/src/consensus.rs 378-382, 406-410). -/
def timestampsCount (m : Mode) (i : ChainIndex) : Res Nat := do
  let ch ← i.childHeight m
  pure (if ch.toNat < 11 then ch.toNat else 11)

/-- The fields after the timestamps, in order. -/
abbrev Tail := BlockID × BlockID × Currency × Duration × BlockID × Address × Address × Work × Work × Work ×
  ElementAccumulator × U64

/-- The fields after the timestamps. -/
def tail (s : State) : Tail := (s.depth, s.childTarget, s.siafundPool, s.oakTime, s.oakTarget,
  s.foundationPrimaryAddress, s.foundationFailsafeAddress, s.totalWork, s.difficulty, s.oakWork, s.elements,
  s.attestations)

/-- `State::encode` (sia/src/consensus.rs 375-401) to a writer that does not fail. -/
def encode (m : Mode) (s : State) : Res (List UInt8) := do
  let count ← timestampsCount m s.index
  pure (enc .v2 s.index ++ (encodeSlots (fun i => decide (i < count)) (enc .v2) 0 s.prevTimestamps.1 ++
    enc .v2 s.tail))

/-- `State::decode` (sia/src/consensus.rs 403-435). -/
def decode (m : Mode) : Dec State := do
  let index ← (dec .v2 : Dec ChainIndex)
  let count ← Dec.lift (timestampsCount m index)
  let prevTimestamps ← decodeSlots (fun i => decide (i < count)) (dec .v2) DateTime.epoch 0 11
  let (a, b, c, d, e, f, g, h, i, j, k, l) ← (dec .v2 : Dec Tail)
  pure ⟨index, prevTimestamps, a, b, c, d, e, f, g, h, i, j, k, l⟩

end State

/-- `HardforkDevAddr` (sia/src/consensus.rs 11-17). -/
structure HardforkDevAddr where
  height : U64
  oldAddress : Address
  newAddress : Address
  deriving DecidableEq

/-- `HardforkOak` (sia/src/consensus.rs 39-45). -/
structure HardforkOak where
  height : U64
  fixHeight : U64
  genesisTimestamp : DateTime
  deriving DecidableEq

/-- `HardforkASIC` (sia/src/consensus.rs 49-56). -/
structure HardforkASIC where
  height : U64
  oakTime : Duration
  oakTarget : BlockID
  deriving DecidableEq

/-- `HardforkFoundation` (sia/src/consensus.rs 60-66). -/
structure HardforkFoundation where
  height : U64
  primaryAddress : Address
  failsafeAddress : Address
  deriving DecidableEq

/-- `HardforkV2` (sia/src/consensus.rs 69-74). -/
structure HardforkV2 where
  allowHeight : U64
  requireHeight : U64
  deriving DecidableEq

/-- `Network` (sia/src/consensus.rs 77-96).  `HardforkTax` and `HardforkStorageProof`
(sia/src/consensus.rs 21-33) hold only a height, which is stored directly. -/
structure Network where
  name : String
  initialCoinbase : Currency
  minimumCoinbase : Currency
  initialTarget : BlockID
  blockInterval : Duration
  maturityDelay : U64
  hardforkDevAddr : HardforkDevAddr
  hardforkTax : U64
  hardforkStorageProof : U64
  hardforkOak : HardforkOak
  hardforkASIC : HardforkASIC
  hardforkFoundation : HardforkFoundation
  hardforkV2 : HardforkV2
  deriving DecidableEq

/-- `ChainState` (sia/src/consensus.rs 437-443). -/
structure ChainState where
  network : Network
  state : State
  deriving DecidableEq

namespace ChainState

/-- `child_height` (sia/src/consensus.rs 447-449). -/
def childHeight (m : Mode) (cs : ChainState) : Res U64 := cs.state.index.childHeight m

/-- `block_reward` (sia/src/consensus.rs 452-462). -/
def blockReward (m : Mode) (cs : ChainState) : Res Currency := do
  let h ← cs.childHeight m
  let s ← Currency.siacoins m h
  match cs.network.initialCoinbase.checkedSub s with
  | some reward =>
    if cs.network.minimumCoinbase.val.toNat ≤ reward.val.toNat then pure reward
    else pure cs.network.minimumCoinbase
  | none => pure cs.network.minimumCoinbase

/-- `maturity_height` (sia/src/consensus.rs 465-467). -/
def maturityHeight (m : Mode) (cs : ChainState) : Res U64 := do
  let h ← cs.childHeight m
  addU m h cs.network.maturityDelay

/-- `siafund_count` (sia/src/consensus.rs 470-472). -/
def siafundCount (_ : ChainState) : U64 := 10000

/-- `blocks_per_month` (sia/src/consensus.rs 480-484): `i128` division truncates towards zero and panics on
a zero interval; `as u64` truncates.  365 days are 31536000000000000 nanoseconds. -/
def blocksPerMonth (cs : ChainState) : Res U64 :=
  if cs.network.blockInterval.ns = 0 then .panic
  else .ok (BitVec.ofInt 64 (Int.tdiv (Int.tdiv 31536000000000000 12) cs.network.blockInterval.ns))

/-- `foundation_subsidy` (sia/src/consensus.rs 488-506). -/
def foundationSubsidy (m : Mode) (cs : ChainState) : Res (Option SiacoinOutput) := do
  let ch ← cs.childHeight m
  if ch.toNat < cs.network.hardforkFoundation.height.toNat then pure none
  else do
    let bpm ← cs.blocksPerMonth
    let d ← subU m ch cs.network.hardforkFoundation.height
    let r ← remU d bpm
    if r ≠ 0 then pure none
    else do
      let perBlock ← Currency.siacoins m 30000
      let value ← (if ch = cs.network.hardforkFoundation.height then perBlock.mul m ⟨12⟩ else pure perBlock)
      pure (some ⟨value, cs.network.hardforkFoundation.primaryAddress⟩)

/-- `replay_prefix` (sia/src/consensus.rs 508-517). -/
def replayPrefix (cs : ChainState) : List UInt8 :=
  if cs.state.index.height.toNat ≥ cs.network.hardforkV2.allowHeight.toNat then [2]
  else if cs.state.index.height.toNat ≥ cs.network.hardforkFoundation.height.toNat then [1]
  else if cs.state.index.height.toNat ≥ cs.network.hardforkASIC.height.toNat then [0]
  else []

/-- `nonce_factor` (sia/src/consensus.rs 519-524). -/
def nonceFactor (m : Mode) (cs : ChainState) : Res U64 := do
  let h ← cs.childHeight m
  if h.toNat < cs.network.hardforkASIC.height.toNat then pure 1 else pure 1009

end ChainState

end Verif
