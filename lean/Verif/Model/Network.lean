import Verif.Model.Serde

/-!
# The built-in networks (sia/src/consensus.rs)
-/

namespace Verif

/-- `unix_timestamp` (sia/src/consensus.rs 98-103). -/
def unixTimestamp (secs : Int) : Res DateTime :=
  match DateTime.fromUnix secs with
  | some t => .ok t
  | none => .panic

/-- `address!` of a literal; a failed assertion is a panic. -/
def addressOf (text : String) : Res Address :=
  match addressLit (ascii text) with
  | some a => .ok a
  | none => .panic

/-- An array literal `[a, b, .., 0, 0]` of 32 bytes, given by its elements up to the last that is not zero. -/
def target (bs : List UInt8) : BlockID := toArr 32 (bs ++ List.replicate (32 - bs.length) 0)

/-- `Duration::seconds`; `Duration::minutes(n)` is `Duration::seconds(60 * n)`. -/
def Duration.seconds (n : Int) : Duration := ⟨n * 1000000000⟩

namespace Network

/-- `Network::mainnet` (sia/src/consensus.rs 106-156). -/
def mainnet (m : Mode) : Res Network := do
  let initialCoinbase ← Currency.siacoins m 300000
  let minimumCoinbase ← Currency.siacoins m 30000
  let oldAddress ← addressOf "7d0c44f7664e2d34e53efde0661a6f628ec9264785ae8e3cd7c973e8d190c3c97b5e3ecbc567"
  let newAddress ← addressOf "f371c70bce9eb8979cd5099f599ec4e4fcb14e0afcf31f9791e03e6496a4c0b358c98279730b"
  let genesis ← unixTimestamp 1433600000
  let primary ← addressOf "053b2def3cbdd078c19d62ce2b4f0b1a3c5e0ffbeeff01280efb1f8969b2f5bb4fdc680f0807"
  let failsafe ← addressOf "27c22a6c6e6645802a3b8fa0e5374657438ef12716d2205d3e866272de1b644dbabd53d6d560"
  pure
    { name := "mainnet"
      initialCoinbase := initialCoinbase
      minimumCoinbase := minimumCoinbase
      initialTarget := target [0, 0, 0, 0, 32]
      blockInterval := Duration.seconds (60 * 10)
      maturityDelay := 144
      hardforkDevAddr := ⟨10000, oldAddress, newAddress⟩
      hardforkTax := 21000
      hardforkStorageProof := 100000
      hardforkOak := ⟨135000, 139000, genesis⟩
      hardforkASIC := ⟨179000, Duration.seconds 120000, target [0, 0, 0, 0, 0, 0, 0, 0, 32]⟩
      hardforkFoundation := ⟨298000, primary, failsafe⟩
      hardforkV2 := ⟨1000000, 1025000⟩ }

/-- `Network::zen` (sia/src/consensus.rs 158-202). -/
def zen (m : Mode) : Res Network := do
  let initialCoinbase ← Currency.siacoins m 300000
  let minimumCoinbase ← Currency.siacoins m 300000
  let genesis ← unixTimestamp 1673600000
  let primary ← addressOf "053b2def3cbdd078c19d62ce2b4f0b1a3c5e0ffbeeff01280efb1f8969b2f5bb4fdc680f0807"
  pure
    { name := "zen"
      initialCoinbase := initialCoinbase
      minimumCoinbase := minimumCoinbase
      initialTarget := target [0, 0, 0, 1]
      blockInterval := Duration.seconds (60 * 10)
      maturityDelay := 144
      hardforkDevAddr := ⟨1, Arr.zero 32, Arr.zero 32⟩
      hardforkTax := 2
      hardforkStorageProof := 5
      hardforkOak := ⟨10, 12, genesis⟩
      hardforkASIC := ⟨20, Duration.seconds 10000, target [0, 0, 0, 1]⟩
      hardforkFoundation := ⟨30, primary, Arr.zero 32⟩
      hardforkV2 := ⟨100000, 102000⟩ }

/-- `Network::anagami` (sia/src/consensus.rs 204-248). -/
def anagami (m : Mode) : Res Network := do
  let initialCoinbase ← Currency.siacoins m 300000
  let minimumCoinbase ← Currency.siacoins m 300000
  let genesis ← unixTimestamp 1724284800
  let primary ← addressOf "241352c83da002e61f57e96b14f3a5f8b5de22156ce83b753ea495e64f1affebae88736b2347"
  let requireHeight ← addU m (2016 : U64) 288
  pure
    { name := "anagami"
      initialCoinbase := initialCoinbase
      minimumCoinbase := minimumCoinbase
      initialTarget := target [0, 0, 0, 1]
      blockInterval := Duration.seconds (60 * 10)
      maturityDelay := 144
      hardforkDevAddr := ⟨1, Arr.zero 32, Arr.zero 32⟩
      hardforkTax := 2
      hardforkStorageProof := 5
      hardforkOak := ⟨10, 12, genesis⟩
      hardforkASIC := ⟨20, Duration.seconds 10000, target [0, 0, 0, 1]⟩
      hardforkFoundation := ⟨30, primary, Arr.zero 32⟩
      hardforkV2 := ⟨2016, requireHeight⟩ }

end Network

namespace ChainState

/-- `ancestor_depth` (sia/src/consensus.rs 475-477). -/
def ancestorDepth (_ : ChainState) : U64 := 1000

/-- `max_block_weight` (sia/src/consensus.rs 526-528). -/
def maxBlockWeight (_ : ChainState) : U64 := 2000000

end ChainState

end Verif
