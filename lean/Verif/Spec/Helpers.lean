import Verif.Model.Prim

/-!
# What the standard address hashes
-/

namespace Verif.Standard

/-- The string hashed for the key: a zero byte, the name of the algorithm in 16 bytes, the length 32, the key. -/
def keyLeaf (k : Arr 32) : List UInt8 :=
  [0, 0x65, 0x64, 0x32, 0x35, 0x35, 0x31, 0x39, 0, 0, 0, 0, 0, 0, 0, 0, 0, 32, 0, 0, 0, 0, 0, 0, 0] ++ k.1

/-- The string hashed for the timelock, which is 0. -/
def timelockLeaf : List UInt8 := [0, 0, 0, 0, 0, 0, 0, 0, 0]

/-- The string hashed for the number of signatures, which is 1. -/
def signaturesLeaf : List UInt8 := [0, 1, 0, 0, 0, 0, 0, 0, 0]

/-- The string hashed for the node over the first two leaves. -/
def node (H : List UInt8 → Arr 32) (k : Arr 32) : List UInt8 := 1 :: ((H timelockLeaf).1 ++ (H (keyLeaf k)).1)

/-- The string hashed for the root. -/
def root (H : List UInt8 → Arr 32) (k : Arr 32) : List UInt8 := 1 :: ((H (node H k)).1 ++ (H signaturesLeaf).1)

end Verif.Standard
