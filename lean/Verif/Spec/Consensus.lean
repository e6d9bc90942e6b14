import Verif.Model.Tax

/-!
# Consensus rules, stated on plain numbers
-/

namespace Verif

namespace ChainState

/-- Height of the tip. -/
abbrev tipHeight (cs : ChainState) : Nat := cs.state.index.height.toNat

/-- The same chain state with its tip at another height. -/
def atHeight (cs : ChainState) (h : U64) : ChainState :=
  { cs with state := { cs.state with index := { cs.state.index with height := h } } }

/-- The three hardforks that change the replay prefix are in order on this network. -/
def OrderedForks (cs : ChainState) : Prop :=
  cs.network.hardforkASIC.height.toNat ≤ cs.network.hardforkFoundation.height.toNat ∧
  cs.network.hardforkFoundation.height.toNat ≤ cs.network.hardforkV2.allowHeight.toNat

/-- How many of the three hardforks (ASIC, Foundation, v2) are active at the tip. -/
def activeForks (cs : ChainState) : Nat :=
  ([cs.network.hardforkASIC.height, cs.network.hardforkFoundation.height, cs.network.hardforkV2.allowHeight].filter
    fun h => h.toNat ≤ cs.tipHeight).length

end ChainState

end Verif
