import Verif.Spec.Arith
import Verif.Spec.Network
import Verif.Spec.Consensus

/-!
# All siacoins that blocks create
-/

namespace Verif

namespace ChainState

/-- What the blocks 1 to `n` of a chain create besides moving coins: the reward of each and the foundation's subsidy where one is due, as the methods
of the crate return them for the state before the block. -/
def created (m : Mode) (cs : ChainState) : Nat → Res (List Currency)
  | 0 => .ok []
  | n + 1 => do
    let before ← cs.created m n
    let reward ← (cs.atHeight (BitVec.ofNat 64 n)).blockReward m
    let subsidy ← (cs.atHeight (BitVec.ofNat 64 n)).foundationSubsidy m
    pure (before ++ reward :: subsidy.toList.map (·.value))

/-- The siacoins the foundation has received by height `n` with a fork at `fork` and a month of `month` blocks: 360000 at the fork and 30000 every
month after it. -/
def subsidies (fork month n : Nat) : Nat := if n < fork then 0 else 360000 + 30000 * ((n - fork) / month)

/-- The siacoins created on the main network by height `n`. -/
def mainnetSupply (n : Nat) : Nat := mainnetMined n + subsidies 298000 4380 n

end ChainState

end Verif
