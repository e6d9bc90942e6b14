import Verif.Model.Serde

/-!
# What base64 text is (RFC 4648, section 4)
-/

namespace Verif

/-- Bit `k` of a byte string, the most significant bit of the first byte first; zero after the end. -/
def bitOf (bs : List UInt8) (k : Nat) : Nat := (bs[k / 8]?.getD 0).toNat / 2 ^ (7 - k % 8) % 2

/-- The `i`-th group of six bits as a number. -/
def sixBits (bs : List UInt8) (i : Nat) : Nat :=
  32 * bitOf bs (6 * i) + 16 * bitOf bs (6 * i + 1) + 8 * bitOf bs (6 * i + 2) + 4 * bitOf bs (6 * i + 3) + 2 * bitOf bs (6 * i + 4) + bitOf bs (6 * i + 5)

/-- `s` is the base64 text of the bytes: four symbols for every three bytes or part of them; a symbol of the alphabet for every group of six bits
that has a bit of the bytes, then `=`. -/
def IsBase64 (s bs : List UInt8) : Prop :=
  s.length = (bs.length + 2) / 3 * 4 ∧ ∀ i < s.length,
    s[i]? = if 6 * i < 8 * bs.length then (ascii "ABCDEFGHIJKLMNOPQRSTUVWXYZabcdefghijklmnopqrstuvwxyz0123456789+/")[sixBits bs i]? else some 61

end Verif
