import Verif.Model.Number

/-!
# What decimal text and currency strings mean
-/

namespace Verif

/-- The ten digits. -/
def digitChars : List Char := ['0', '1', '2', '3', '4', '5', '6', '7', '8', '9']

/-- One or more digits. -/
def Digits (s : List Char) : Prop := s ≠ [] ∧ ∀ c ∈ s, c ∈ digitChars

/-- The number a sequence of digits denotes. -/
def decimal : List Char → Nat
  | [] => 0
  | c :: s => digitChars.idxOf c * 10 ^ s.length + decimal s

/-- White space in the sense of Unicode. -/
def Blank (s : List Char) : Prop :=
  ∀ c ∈ s, (9 ≤ c.toNat ∧ c.toNat ≤ 13) ∨ c.toNat = 32 ∨ c.toNat = 0x85 ∨ c.toNat = 0xa0 ∨ c.toNat = 0x1680 ∨
    (0x2000 ≤ c.toNat ∧ c.toNat ≤ 0x200a) ∨ c.toNat = 0x2028 ∨ c.toNat = 0x2029 ∨ c.toNat = 0x202f ∨ c.toNat = 0x205f ∨
    c.toNat = 0x3000

/-- The units and the power of ten of hastings each stands for. -/
def units : List (List Char × Nat) :=
  [(['p', 'S'], 12), (['n', 'S'], 15), (['u', 'S'], 18), (['m', 'S'], 21), (['S', 'C'], 24), (['K', 'S'], 27), (['M', 'S'], 30),
    (['G', 'S'], 33), (['T', 'S'], 36)]

/-- `s` is a whole number of hastings: digits, then nothing or `H`. -/
def InHastings (s : List Char) (n : Nat) : Prop :=
  ∃ d w u w', s = d ++ w ++ u ++ w' ∧ Digits d ∧ Blank w ∧ (u = [] ∨ u = ['H']) ∧ Blank w' ∧ n = decimal d

/-- `s` is an amount of a unit of `10 ^ e` hastings: digits, perhaps a point and more digits, and the unit.  `frac` is empty if
there is no point. -/
def InUnits (s int frac : List Char) (e : Nat) : Prop :=
  ∃ w u w', s = int ++ (if frac = [] then [] else '.' :: frac) ++ w ++ u ++ w' ∧ Digits int ∧ (frac = [] ∨ Digits frac) ∧
    Blank w ∧ (u, e) ∈ units ∧ Blank w'

/-- The amount of hastings denoted by `int.frac` units of `10 ^ e`, if it is a whole number. -/
def Denotes (int frac : List Char) (e n : Nat) : Prop := n * 10 ^ frac.length = decimal (int ++ frac) * 10 ^ e

/-- The power of ten put to the digits after the point, as far as 32 bits tell: `e` less the number of digits. -/
def Shift (frac : List Char) (e x : Nat) : Prop := x < 2 ^ 32 ∧ (x + frac.length) % 2 ^ 32 = e

end Verif
