import Verif.Model.Json

/-!
# Surviving a format
-/

namespace Verif

/-- Writing `a` and reading what was written gives `a`. -/
def Serde.Back {α : Type} (s : Serde α) (a : α) : Prop := ∃ j, s.ser a = .ok j ∧ s.de j = .ok a

/-- Whatever is written for `a` cannot be read, not even as another value. -/
def Serde.Lost {α : Type} (s : Serde α) (a : α) : Prop := ∀ j, s.ser a = .ok j → ∀ b, s.de j ≠ .ok b

/-- A byte string as an array of numbers. -/
def Json.bytes (l : List UInt8) : Json := .arr (l.map fun b => .nat (BitVec.ofNat 64 b.toNat))

end Verif
