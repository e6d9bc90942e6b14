import Verif.Model.Careful
import Verif.Spec.Fits

/-!
# What the decoders that do not panic return (C10)
-/

namespace Verif

/-- The outcome with an error in place of a panic. -/
def Res.orError {α : Type} : Res α → Res α
  | .panic => .err .custom
  | r => r

/-- With room for `D` nested policies and for twice the input, the repaired decoder returns what the decoder of the code returns on a machine that can
reserve anything, and an error where that panics. -/
def NowhereElse (v : Ver) (α : Type) [Codec v α] [Careful v α] : Prop :=
  ∀ (D : Nat) (lim : Lim) (bs : List UInt8), 2 * bs.length + 8 ≤ lim.cap → D ≤ lim.stack →
    (decSafe v D : Dec α) lim bs = ((dec v : Dec α) ⟨2 ^ 64, D⟩ bs).orError

/-- It reads every value that such a machine can hold from its encoding. -/
def StillReads (v : Ver) (α : Type) [Codec v α] [Fits α] [Careful v α] : Prop :=
  ∀ (D : Nat) (lim : Lim) (a : α) (rest : List UInt8), 2 * (enc v a ++ rest).length + 8 ≤ lim.cap → D ≤ lim.stack → fits ⟨2 ^ 64, D⟩ a →
    (decSafe v D : Dec α) lim (enc v a ++ rest) = .ok (a, rest)

end Verif
