import Verif.Model.Consensus
import Verif.Model.V2

/-!
# Contract taxes
-/

namespace Verif

/-- Numerator and denominator of the `f64` literal `0.039`, as `Ratio::from_float(0.039)` computes them exactly
(sia/src/types/v1.rs 195): 0x3FA3F7CED916872B is 5620492334958379 / 2^57. -/
def taxFloatNum : Nat := 5620492334958379
def taxFloatDen : Nat := 2 ^ 57

/-- `v1::FileContract::tax` (sia/src/types/v1.rs 192-201).  `BigInt` is `Nat` here (all values are non-negative).
`Ratio` products are kept in lowest terms, then `numer / denom`. `to_u128().unwrap()` panics above `u128::MAX`. -/
def V1.FileContract.tax (m : Mode) (fc : V1.FileContract) (cs : ChainState) : Res Currency := do
  let payout := fc.payout.val.toNat
  let ch ← cs.childHeight m
  let tax :=
    if ch.toNat < cs.network.hardforkTax.toNat then
      let g := Nat.gcd (payout * taxFloatNum) taxFloatDen
      (payout * taxFloatNum / g) / (taxFloatDen / g)
    else payout * 39 / 1000
  let t := tax - tax % cs.siafundCount.toNat
  if t < 2 ^ 128 then pure ⟨BitVec.ofNat 128 t⟩ else .panic

/-- `v2::FileContract::tax` (sia/src/types/v2.rs 81-84). -/
def V2.FileContract.tax (m : Mode) (fc : V2.FileContract) (cs : ChainState) : Res Currency := do
  let s ← fc.renterOutput.value.add m fc.hostOutput.value
  let tax ← s.div ⟨25⟩
  let r ← tax.rem ⟨cs.siafundCount.setWidth 128⟩
  tax.sub m r

end Verif
