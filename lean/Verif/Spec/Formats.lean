import Verif.Spec.Json
import Verif.Spec.Serde
import Verif.Spec.Mended

/-!
# What a repaired format keeps (C50, C63)
-/

namespace Verif

/-- `a` can be written, and is read back in whatever order the members of its objects come. -/
def Serde.Kept {α : Type} (s : Serde α) (a : α) : Prop := ∃ j, s.ser a = .ok j ∧ ∀ j', j.Reordered j' → s.de j' = .ok a

/-- v2 transactions whose policies have whole-second timestamps in range and are not nested deeper than `d`. -/
def V2.Transaction.Timely (d : Nat) (t : V2.Transaction) : Prop :=
  (∀ i ∈ t.siacoinInputs, i.satisfiedPolicy.policy.Timely d) ∧ ∀ i ∈ t.siafundInputs, i.satisfiedPolicy.policy.Timely d

end Verif
