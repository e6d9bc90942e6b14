import Verif.Spec.Merkle
import Verif.Spec.Rhp

/-!
# What the roots of the accumulator commit to

Relations between lists of leaves; nothing is hashed here, except in `AccumulatorString`.
-/

namespace Verif

/-- Of `n` leaves the accumulator looks at number `i` (from 0): `n` is a sum of powers of two, the largest first, and `i` is the first of
the 2^k leaves of one of them, or the last of the first 2^j of these. -/
def Covered (n i : Nat) : Prop :=
  ∃ k s, 2 ^ (k + 1) ∣ s ∧ s + 2 ^ k ≤ n ∧ n < s + 2 ^ (k + 1) ∧ (i = s ∨ ∃ j ≤ k, i + 1 = s + 2 ^ j)

/-- Different numbers of leaves that the accumulator does not tell apart, the smaller first. -/
def Confused (n n' : Nat) : Prop := ∃ k s, 0 < k ∧ 2 ^ (k + 2) ∣ s ∧ n = s + 2 ^ k + 1 ∧ n' = s + 2 ^ (k + 1)

/-- The two lists have lengths that the accumulator does not tell apart, the same last leaf, and otherwise agree where it looks. -/
def Overlap {α : Type} (l l' : List α) : Prop :=
  (l.length = l'.length ∨ Confused l.length l'.length ∨ Confused l'.length l.length) ∧ l.getLast? = l'.getLast? ∧
    ∀ i, i + 1 < min l.length l'.length → Covered (min l.length l'.length) i → l[i]? = l'[i]?

/-- `s` is one of the strings hashed by the accumulator to combine the leaves `l`. -/
inductive AccumulatorString (H : Hasher) : List Hash256 → List UInt8 → Prop
  | node (j : Nat) (l r : List Hash256) (a b : Hash256) : l.length = 2 ^ j → 0 < r.length → r.length < 2 ^ j →
      IsAccumulatorRoot H l a → IsAccumulatorRoot H r b → AccumulatorString H (l ++ r) ([1] ++ a.1 ++ b.1)
  | full (j : Nat) (l r : List Hash256) (a x : Hash256) : l.length = 2 ^ j → r.length + 1 = 2 ^ j →
      IsAccumulatorRoot H l a → AccumulatorString H (l ++ (r ++ [x])) ([1] ++ a.1 ++ x.1)
  | left (j : Nat) (l r : List Hash256) (s : List UInt8) : l.length = 2 ^ j → 0 < r.length → r.length ≤ 2 ^ j →
      AccumulatorString H l s → AccumulatorString H (l ++ r) s
  | right (j : Nat) (l r : List Hash256) (s : List UInt8) : l.length = 2 ^ j → 0 < r.length → r.length < 2 ^ j →
      AccumulatorString H r s → AccumulatorString H (l ++ r) s

/-- The strings hashed for two accumulators do not collide, and no leaf is the hash of such a string. -/
structure NoCollision (H : Hasher) (l l' : List Hash256) : Prop where
  nodes : ∀ s s', AccumulatorString H l s → AccumulatorString H l' s' → H s = H s' → s = s'
  left : ∀ x ∈ l, ∀ s', AccumulatorString H l' s' → H s' ≠ x
  right : ∀ x ∈ l', ∀ s, AccumulatorString H l s → H s ≠ x

/-- What the address of unlock conditions does not leave out: the timelock, the number of required signatures, and some of the keys. -/
def UnlockConditions.SameAddress (uc uc' : UnlockConditions) : Prop :=
  uc.timelock = uc'.timelock ∧ uc.signaturesRequired = uc'.signaturesRequired ∧
    (uc.publicKeys.length = uc'.publicKeys.length ∨ Confused (uc.publicKeys.length + 2) (uc'.publicKeys.length + 2) ∨
      Confused (uc'.publicKeys.length + 2) (uc.publicKeys.length + 2)) ∧
    ∀ i < min uc.publicKeys.length uc'.publicKeys.length,
      Covered (min uc.publicKeys.length uc'.publicKeys.length + 2) (i + 1) → uc.publicKeys[i]? = uc'.publicKeys[i]?

/-- `s` is one of the strings that are hashed for the address of the unlock conditions. -/
def UnlockConditions.HashedFor (H : Hasher) (uc : UnlockConditions) (s : List UInt8) : Prop :=
  s ∈ uc.leafStrings ∨ AccumulatorString H (uc.leaves H) s

/-- `s` is one of the strings that are hashed for a Merkle root over 65536 segments, of which number `p` is segment `f p` of the sector. -/
def SectorHashed (H : Hasher) (f : Nat → Nat) (sector : List UInt8) (s : List UInt8) : Prop :=
  (∃ p < 65536, s = [0] ++ segment sector (f p)) ∨ NodeString H ((List.range 65536).map fun p => H ([0] ++ segment sector (f p))) s

end Verif
