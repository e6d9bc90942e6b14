import Verif.Model.Codec

/-!
# Machine arithmetic and `Currency` operators
-/

namespace Verif

/-- `a + b` on an unsigned type: overflow panics in a checked build and wraps in an unchecked one. -/
def addU {n : Nat} (m : Mode) (a b : BitVec n) : Res (BitVec n) :=
  match m with
  | .checked => if a.toNat + b.toNat < 2 ^ n then .ok (a + b) else .panic
  | .unchecked => .ok (a + b)

/-- `a - b` on an unsigned type. -/
def subU {n : Nat} (m : Mode) (a b : BitVec n) : Res (BitVec n) :=
  match m with
  | .checked => if b.toNat ≤ a.toNat then .ok (a - b) else .panic
  | .unchecked => .ok (a - b)

/-- `a * b` on an unsigned type. -/
def mulU {n : Nat} (m : Mode) (a b : BitVec n) : Res (BitVec n) :=
  match m with
  | .checked => if a.toNat * b.toNat < 2 ^ n then .ok (a * b) else .panic
  | .unchecked => .ok (a * b)

/-- `a / b` on an unsigned type: division by zero panics in every build. -/
def divU {n : Nat} (a b : BitVec n) : Res (BitVec n) :=
  if b = 0 then .panic else .ok (a / b)

/-- `a % b` on an unsigned type: division by zero panics in every build. -/
def remU {n : Nat} (a b : BitVec n) : Res (BitVec n) :=
  if b = 0 then .panic else .ok (a % b)

/-- The loop of `pow`, on the bits of the exponent from the lowest. -/
def powLoop (m : Mode) : Nat → U128 → Nat → U128 → Res U128
  | 0, _, _, acc => .ok acc
  | fuel + 1, base, e, acc =>
    if e = 0 then .ok acc
    else do
      let acc ← (if e % 2 = 1 then mulU m acc base else .ok acc)
      if e / 2 = 0 then .ok acc
      else do
        let base ← mulU m base base
        powLoop m fuel base (e / 2) acc

/-- `u128::pow(10, e)` for a `u32` exponent, by squaring.  In a checked build overflow panics; in an
unchecked one every product wraps. -/
def pow10 (m : Mode) (e : U32) : Res U128 := powLoop m 33 10 e.toNat 1

namespace Currency

/-- `checked_add` (sia/src/types/currency.rs 227-230). -/
def checkedAdd (a b : Currency) : Option Currency :=
  if a.val.toNat + b.val.toNat < 2 ^ 128 then some ⟨a.val + b.val⟩ else none

/-- `checked_sub` (sia/src/types/currency.rs 232-235). -/
def checkedSub (a b : Currency) : Option Currency :=
  if b.val.toNat ≤ a.val.toNat then some ⟨a.val - b.val⟩ else none

/-- `checked_mul` (sia/src/types/currency.rs 237-240). -/
def checkedMul (a b : Currency) : Option Currency :=
  if a.val.toNat * b.val.toNat < 2 ^ 128 then some ⟨a.val * b.val⟩ else none

/-- `checked_div` (sia/src/types/currency.rs 242-245). -/
def checkedDiv (a b : Currency) : Option Currency :=
  if b.val = 0 then none else some ⟨a.val / b.val⟩

/-- `Add` (sia/src/types/currency.rs 248-254). -/
def add (m : Mode) (a b : Currency) : Res Currency := do
  let v ← addU m a.val b.val
  pure ⟨v⟩

/-- `Sub` (sia/src/types/currency.rs 256-262). -/
def sub (m : Mode) (a b : Currency) : Res Currency := do
  let v ← subU m a.val b.val
  pure ⟨v⟩

/-- `Mul` (sia/src/types/currency.rs 264-270). -/
def mul (m : Mode) (a b : Currency) : Res Currency := do
  let v ← mulU m a.val b.val
  pure ⟨v⟩

/-- `Div` (sia/src/types/currency.rs 272-278). -/
def div (a b : Currency) : Res Currency := do
  let v ← divU a.val b.val
  pure ⟨v⟩

/-- `Rem` (sia/src/types/currency.rs 286-292). -/
def rem (a b : Currency) : Res Currency := do
  let v ← remU a.val b.val
  pure ⟨v⟩

/-- The fold of `Sum` from an accumulator. -/
def sumFrom (m : Mode) (acc : Currency) : List Currency → Res Currency
  | [] => .ok acc
  | c :: cs => do
    let acc ← add m acc c
    sumFrom m acc cs

/-- `Sum` (sia/src/types/currency.rs 280-284): `iter.fold(Currency::new(0), Add::add)`. -/
def sum (m : Mode) (l : List Currency) : Res Currency := sumFrom m ⟨0⟩ l

/-- `Currency::siacoins` (sia/src/types/currency.rs 223-225); `SIACOIN_PRECISION_U32 = 24`
(sia/src/types/currency.rs 10-12). -/
def siacoins (m : Mode) (n : U64) : Res Currency := do
  let p ← pow10 m 24
  let v ← mulU m (n.setWidth 128) p
  pure ⟨v⟩

end Currency

end Verif
