import Verif.Spec.Document
import Verif.Spec.Consensus
import Verif.Model.Network

/-!
# The built-in networks in JSON, as published
-/

namespace Verif

/-- The checksum of the address with hex text `t` has hex text `c`. -/
def Env.Checks (E : Env) (t c : String) : Prop := ∀ a : Address, Document.hex a.1 = t → Document.hex ((E.hash a.1).1.take 6) = c

namespace Document

/-- The parameters of mainnet (compare sia/src/consensus.rs, `test_serialize_network`). -/
def mainnet : Json := .obj
  [("name", .str "mainnet"),
    ("initialCoinbase", .str "300000000000000000000000000000"),
    ("minimumCoinbase", .str "30000000000000000000000000000"),
    ("initialTarget", .str "0000000020000000000000000000000000000000000000000000000000000000"),
    ("blockInterval", .nat 600000000000),
    ("maturityDelay", .nat 144),
    ("hardforkDevAddr", .obj [("height", .nat 10000), ("oldAddress", .str "7d0c44f7664e2d34e53efde0661a6f628ec9264785ae8e3cd7c973e8d190c3c97b5e3ecbc567"), ("newAddress", .str "f371c70bce9eb8979cd5099f599ec4e4fcb14e0afcf31f9791e03e6496a4c0b358c98279730b")]),
    ("hardforkTax", .obj [("height", .nat 21000)]),
    ("hardforkStorageProof", .obj [("height", .nat 100000)]),
    ("hardforkOak", .obj [("height", .nat 135000), ("fixHeight", .nat 139000), ("genesisTimestamp", .str "2015-06-06T14:13:20Z")]),
    ("hardforkASIC", .obj [("height", .nat 179000), ("oakTime", .nat 120000000000000), ("oakTarget", .str "0000000000000000200000000000000000000000000000000000000000000000")]),
    ("hardforkFoundation", .obj [("height", .nat 298000), ("primaryAddress", .str "053b2def3cbdd078c19d62ce2b4f0b1a3c5e0ffbeeff01280efb1f8969b2f5bb4fdc680f0807"), ("failsafeAddress", .str "27c22a6c6e6645802a3b8fa0e5374657438ef12716d2205d3e866272de1b644dbabd53d6d560")]),
    ("hardforkV2", .obj [("allowHeight", .nat 1000000), ("requireHeight", .nat 1025000)])]

/-- The parameters of zen (compare sia/src/consensus.rs, `test_serialize_network`). -/
def zen : Json := .obj
  [("name", .str "zen"),
    ("initialCoinbase", .str "300000000000000000000000000000"),
    ("minimumCoinbase", .str "300000000000000000000000000000"),
    ("initialTarget", .str "0000000100000000000000000000000000000000000000000000000000000000"),
    ("blockInterval", .nat 600000000000),
    ("maturityDelay", .nat 144),
    ("hardforkDevAddr", .obj [("height", .nat 1), ("oldAddress", .str "000000000000000000000000000000000000000000000000000000000000000089eb0d6a8a69"), ("newAddress", .str "000000000000000000000000000000000000000000000000000000000000000089eb0d6a8a69")]),
    ("hardforkTax", .obj [("height", .nat 2)]),
    ("hardforkStorageProof", .obj [("height", .nat 5)]),
    ("hardforkOak", .obj [("height", .nat 10), ("fixHeight", .nat 12), ("genesisTimestamp", .str "2023-01-13T08:53:20Z")]),
    ("hardforkASIC", .obj [("height", .nat 20), ("oakTime", .nat 10000000000000), ("oakTarget", .str "0000000100000000000000000000000000000000000000000000000000000000")]),
    ("hardforkFoundation", .obj [("height", .nat 30), ("primaryAddress", .str "053b2def3cbdd078c19d62ce2b4f0b1a3c5e0ffbeeff01280efb1f8969b2f5bb4fdc680f0807"), ("failsafeAddress", .str "000000000000000000000000000000000000000000000000000000000000000089eb0d6a8a69")]),
    ("hardforkV2", .obj [("allowHeight", .nat 100000), ("requireHeight", .nat 102000)])]

/-- The parameters of anagami (compare sia/src/consensus.rs, `test_serialize_network`). -/
def anagami : Json := .obj
  [("name", .str "anagami"),
    ("initialCoinbase", .str "300000000000000000000000000000"),
    ("minimumCoinbase", .str "300000000000000000000000000000"),
    ("initialTarget", .str "0000000100000000000000000000000000000000000000000000000000000000"),
    ("blockInterval", .nat 600000000000),
    ("maturityDelay", .nat 144),
    ("hardforkDevAddr", .obj [("height", .nat 1), ("oldAddress", .str "000000000000000000000000000000000000000000000000000000000000000089eb0d6a8a69"), ("newAddress", .str "000000000000000000000000000000000000000000000000000000000000000089eb0d6a8a69")]),
    ("hardforkTax", .obj [("height", .nat 2)]),
    ("hardforkStorageProof", .obj [("height", .nat 5)]),
    ("hardforkOak", .obj [("height", .nat 10), ("fixHeight", .nat 12), ("genesisTimestamp", .str "2024-08-22T00:00:00Z")]),
    ("hardforkASIC", .obj [("height", .nat 20), ("oakTime", .nat 10000000000000), ("oakTarget", .str "0000000100000000000000000000000000000000000000000000000000000000")]),
    ("hardforkFoundation", .obj [("height", .nat 30), ("primaryAddress", .str "241352c83da002e61f57e96b14f3a5f8b5de22156ce83b753ea495e64f1affebae88736b2347"), ("failsafeAddress", .str "000000000000000000000000000000000000000000000000000000000000000089eb0d6a8a69")]),
    ("hardforkV2", .obj [("allowHeight", .nat 2016), ("requireHeight", .nat 2304)])]

end Document

namespace ChainState

/-- The reward in siacoins of the block at a height on the main network. -/
def mainnetReward (height : Nat) : Nat := max (300000 - height) 30000

/-- All siacoins mined in the blocks 1 to `n` of the main network. -/
def mainnetMined : Nat → Nat
  | 0 => 0
  | n + 1 => mainnetMined n + mainnetReward (n + 1)

end ChainState

end Verif
