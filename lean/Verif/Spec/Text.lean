import Verif.Model.Text

/-!
# What hex text is
-/

namespace Verif

/-- `c` is a hex digit, of either case, with value `v`. -/
def IsHexDigit (c : UInt8) (v : Nat) : Prop :=
  (ascii "0123456789abcdef")[v]? = some c ∨ (ascii "0123456789ABCDEF")[v]? = some c

/-- `s` is the hex text of the bytes: two digits for every byte, the more significant first. -/
inductive HexText : List UInt8 → List UInt8 → Prop
  | nil : HexText [] []
  | cons (c d b : UInt8) (x y : Nat) (s bs : List UInt8) : IsHexDigit c x → IsHexDigit d y → b.toNat = 16 * x + y →
      HexText s bs → HexText (c :: d :: s) (b :: bs)

/-- Only lower-case digits. -/
def LowerCase (s : List UInt8) : Prop := ∀ c ∈ s, c ∈ ascii "0123456789abcdef"

/-- The first byte of `s` that is not a hex digit is `c`, at index `i`. -/
def FirstBad (s : List UInt8) (c : UInt8) (i : Nat) : Prop :=
  s[i]? = some c ∧ (∀ v, ¬ IsHexDigit c v) ∧ ∀ j < i, ∀ d, s[j]? = some d → ∃ v, IsHexDigit d v

/-- `t` is what follows the first colon of `s`, or `s` if it has no colon. -/
def AfterColon (s t : List UInt8) : Prop :=
  (∃ pre, (58 : UInt8) ∉ pre ∧ s = pre ++ [58] ++ t) ∨ ((58 : UInt8) ∉ s ∧ t = s)

end Verif

namespace Verif

/-- `s` is the UTF-8 of some string. -/
def IsText (s : List UInt8) : Prop := ∃ t : String, strBytes t = s

/-- The name a specifier stands for: its bytes without the zeros at the end. -/
def Names (t : List UInt8) (x : Specifier) : Prop :=
  t.getLast? ≠ some 0 ∧ x.1 = t ++ List.replicate (16 - t.length) 0

/-- The first 16 bytes of `s`, filled up with zeros. -/
def Padded (s : List UInt8) (x : Specifier) : Prop := ∀ i < 16, x.1[i]? = some (s[i]?.getD 0)

end Verif
