import Verif.Model.Policy

/-!
# Which policies every JSON writer and reader should keep (C42)
-/

namespace Verif

/-- Policies nested at most `d` deep with whole-second timestamps in the range of `OffsetDateTime`. -/
def SpendPolicy.Timely : Nat → SpendPolicy → Prop
  | 0, _ => False
  | d + 1, .threshold _ of => ∀ p ∈ of, Timely d p
  | _ + 1, .after t => t.nanos = 0 ∧ -377705116800 ≤ t.secs ∧ t.secs ≤ 253402300799
  | _ + 1, .unlockConditions _ => True
  | _ + 1, .above _ => True
  | _ + 1, .publicKey _ => True
  | _ + 1, .hash _ => True
  | _ + 1, .opaqueAddr _ => True

end Verif
