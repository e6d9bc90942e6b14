import Verif.Model.Arith

/-!
# What a user expects of amounts
-/

namespace Verif

/-- The amount in hastings. -/
abbrev Currency.hastings (c : Currency) : Nat := c.val.toNat

/-- The outcome of an arithmetic operation whose mathematically exact result is `exact`: that amount if it is one;
otherwise a panic in an overflow-checked build and the amount modulo 2^128 in an unchecked one. -/
structure Exactly (m : Mode) (exact : Int) (r : Res Currency) : Prop where
  inRange : 0 ≤ exact ∧ exact < 2 ^ 128 → ∃ c, r = .ok c ∧ (c.hastings : Int) = exact
  panics : ¬ (0 ≤ exact ∧ exact < 2 ^ 128) → m = .checked → r = .panic
  wraps : ¬ (0 ≤ exact ∧ exact < 2 ^ 128) → m = .unchecked → ∃ c, r = .ok c ∧ (c.hastings : Int) = exact % 2 ^ 128

end Verif
