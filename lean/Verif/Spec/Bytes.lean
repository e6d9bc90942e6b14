/-!
# Byte layouts, written without the model's helpers
-/

namespace Verif

/-- The eight little-endian bytes of a number below 2^64. -/
def le64 (n : Nat) : List UInt8 := (List.range 8).map fun i => UInt8.ofNat (n / 256 ^ i)

/-- The sixteen little-endian bytes of a number below 2^128. -/
def le128 (n : Nat) : List UInt8 := (List.range 16).map fun i => UInt8.ofNat (n / 256 ^ i)

/-- The number a byte string denotes in big-endian notation. -/
def beNat (l : List UInt8) : Nat := l.foldl (fun n b => 256 * n + b.toNat) 0

/-- The number a byte string denotes in little-endian notation. -/
def leNat (l : List UInt8) : Nat := l.foldr (fun b n => b.toNat + 256 * n) 0

end Verif
