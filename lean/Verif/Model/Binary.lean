import Verif.Model.Serde

/-!
# The types in a format that is not human-readable

`is_human_readable` is false, as for CBOR or MessagePack.  The format is one that describes itself and keeps the names of the fields (CBOR, or MessagePack
with structs as maps), so that its documents have the parts of a JSON document and `Json` stands for them; an array of bytes is an array of numbers.
Only the types that contain an identifier or an unlock key differ from JSON; the other types write and read text in every format.
-/

namespace Verif.Binary

open Serde JField Shape

/-- `<[u8; N]>::deserialize`: an array of `N` numbers below 256. -/
def readBytes (n : Nat) (j : Json) : Res (Arr n) := do
  let l ← (list u8).de j
  if h : l.length = n then pure ⟨l, h⟩ else .fail

/-- The identifier types (sia/src/macros.rs 17-35): `Serialize` writes `<[u8; 32]>` (22), `Deserialize` reads a `String` (32). -/
def id : Serde Hash256 := { ser := fun h => (list u8).ser h.1, de := Serde.id.de }

/-- `UnlockKey` (sia/src/types/v1.rs 38-57): `Serialize` writes a `String` (40), `Deserialize` reads `(Specifier, Vec<u8>)` (53). -/
def unlockKey : Serde UnlockKey where
  ser := Serde.unlockKey.ser
  de
    | .arr [a, b] => do
      let alg ← readBytes 16 a
      let key ← (list u8).de b
      pure ⟨alg, key⟩
    | _ => .fail

/-- `ChainIndex` (sia/src/types/common.rs 149-153). -/
def chainIndex : Serde ChainIndex := record (cons (req "height" u64) (one (req "id" id))) Struct.fields Struct.build

/-- `StateElement` (sia/src/types/common.rs 390-395). -/
def stateElement : Serde StateElement := record (cons (req "leafIndex" u64) (one (req "merkleProof" (list id)))) Struct.fields Struct.build

/-- `UnlockConditions` (sia/src/types/v1.rs 94-102). -/
def unlockConditions : Serde UnlockConditions :=
  record (cons (req "timelock" u64) (cons (req "publicKeys" (list unlockKey)) (one (req "signaturesRequired" u64)))) Struct.fields Struct.build

/-- `v1::SiacoinInput` (sia/src/types/v1.rs 159-165). -/
def v1SiacoinInput : Serde V1.SiacoinInput :=
  record (cons (req "parentID" id) (one (req "unlockConditions" unlockConditions))) Struct.fields Struct.build

/-- `v1::SiafundInput` (sia/src/types/v1.rs 167-174). -/
def v1SiafundInput (E : Env) : Serde V1.SiafundInput :=
  record (cons (req "parentID" id) (cons (req "unlockConditions" unlockConditions) (one (req "claimAddress" (address E))))) Struct.fields Struct.build

/-- `v1::FileContract` (sia/src/types/v1.rs 176-189). -/
def v1FileContract (E : Env) : Serde V1.FileContract :=
  record (cons (req "filesize" u64) (cons (req "fileMerkleRoot" id) (cons (req "windowStart" u64) (cons (req "windowEnd" u64)
    (cons (req "payout" (currency E)) (cons (req "validProofOutputs" (list (siacoinOutput E)))
    (cons (req "missedProofOutputs" (list (siacoinOutput E))) (cons (req "unlockHash" (address E)) (one (req "revisionNumber" u64)))))))))) 
    Struct.fields Struct.build

/-- `v1::FileContractRevision` (sia/src/types/v1.rs 204-219). -/
def v1FileContractRevision (E : Env) : Serde V1.FileContractRevision :=
  record (cons (req "parentID" id) (cons (req "unlockConditions" unlockConditions) (cons (req "revisionNumber" u64) (cons (req "filesize" u64)
    (cons (req "fileMerkleRoot" id) (cons (req "windowStart" u64) (cons (req "windowEnd" u64)
    (cons (req "validProofOutputs" (list (siacoinOutput E))) (cons (req "missedProofOutputs" (list (siacoinOutput E)))
    (one (req "unlockHash" (address E)))))))))))) Struct.fields Struct.build

/-- `v1::StorageProof` (sia/src/types/v1.rs 221-228). -/
def v1StorageProof : Serde V1.StorageProof :=
  record (cons (req "parentID" id) (cons (req "leaf" leaf) (one (req "proof" (list id))))) Struct.fields Struct.build

/-- `TransactionSignature` (sia/src/types/v1.rs 265-275). -/
def transactionSignature : Serde V1.TransactionSignature :=
  record (cons (req "parentID" id) (cons (req "publicKeyIndex" u64) (cons (req "timelock" u64) (cons (req "coveredFields" coveredFields)
    (one (req "signature" base64)))))) Struct.fields Struct.build

/-- `v1::Transaction` (sia/src/types/v1.rs 277-304). -/
def v1Transaction (E : Env) : Serde V1.Transaction :=
  record (cons (vec "siacoinInputs" (list v1SiacoinInput)) (cons (vec "siacoinOutputs" (list (siacoinOutput E)))
    (cons (vec "fileContracts" (list (v1FileContract E))) (cons (vec "fileContractRevisions" (list (v1FileContractRevision E)))
    (cons (vec "storageProofs" (list v1StorageProof)) (cons (vec "siafundInputs" (list (v1SiafundInput E)))
    (cons (vec "siafundOutputs" (list (siafundOutput E))) (cons (vec "minerFees" (list (currency E)))
    (cons (vec "arbitraryData" (list base64)) (one (vec "signatures" (list transactionSignature)))))))))))) Struct.fields Struct.build

/-- `Block` (sia/src/types/common.rs 168-178). -/
def block (E : Env) : Serde Block :=
  record (cons (req "parentID" id) (cons (req "nonce" u64) (cons (req "timestamp" (time E)) (cons (req "minerPayouts" (list (siacoinOutput E)))
    (one (req "transactions" (list (v1Transaction E)))))))) Struct.fields Struct.build

/-- `Serialize` of `SpendPolicy` (sia/src/types/spendpolicy.rs 276-313).  The policies within a threshold become a JSON value first (`json!`, 295-303), so
only the outermost policy is written in this format.  A public key and an address are text in every format. -/
def serPolicy (E : Env) : SpendPolicy → Res Json
  | .hash h => do
    let j ← id.ser h
    pure (.obj [("type", .str "h"), ("policy", j)])
  | .unlockConditions uc => do
    let j ← unlockConditions.ser uc
    pure (.obj [("type", .str "uc"), ("policy", j)])
  | p => Verif.serPolicy E p

/-- `SpendPolicy`.  `Deserialize` (sia/src/types/spendpolicy.rs 171-274) reads the member "policy" into a `serde_json::Value` and goes on with
`serde_json::from_value`, which is human-readable: the reader is the one for JSON. -/
def policy (E : Env) : Serde SpendPolicy := { ser := serPolicy E, de := dePolicy E E.stack }

/-- `SatisfiedPolicy` (sia/src/types/spendpolicy.rs 390-398). -/
def satisfiedPolicy (E : Env) : Serde SatisfiedPolicy :=
  record (cons (req "policy" (policy E)) (cons (vec "signatures" (list signature)) (one (vec "preimages" (list id))))) Struct.fields Struct.build

/-- `v2::FileContract` (sia/src/types/v2.rs 60-78). -/
def v2FileContract (E : Env) : Serde V2.FileContract :=
  record (cons (req "capacity" u64) (cons (req "filesize" u64) (cons (req "fileMerkleRoot" id) (cons (req "proofHeight" u64)
    (cons (req "expirationHeight" u64) (cons (req "renterOutput" (siacoinOutput E)) (cons (req "hostOutput" (siacoinOutput E))
    (cons (req "missedHostValue" (currency E)) (cons (req "totalCollateral" (currency E)) (cons (req "renterPublicKey" key)
    (cons (req "hostPublicKey" key) (cons (req "revisionNumber" u64) (cons (req "renterSignature" signature)
    (one (req "hostSignature" signature))))))))))))))) Struct.fields Struct.build

/-- `v2::SiacoinElement` (sia/src/types/v2.rs 113-121). -/
def siacoinElement (E : Env) : Serde V2.SiacoinElement :=
  record (cons (req "stateElement" stateElement) (cons (req "id" id) (cons (req "siacoinOutput" (siacoinOutput E)) (one (req "maturityHeight" u64)))))
    Struct.fields Struct.build

/-- `v2::SiafundElement` (sia/src/types/v2.rs 123-131). -/
def siafundElement (E : Env) : Serde V2.SiafundElement :=
  record (cons (req "stateElement" stateElement) (cons (req "id" id) (cons (req "siafundOutput" (siafundOutput E)) (one (req "claimStart" (currency E))))))
    Struct.fields Struct.build

/-- `v2::FileContractElement` (sia/src/types/v2.rs 133-141). -/
def fileContractElement (E : Env) : Serde V2.FileContractElement :=
  record (cons (req "stateElement" stateElement) (cons (req "id" id) (one (req "v2FileContract" (v2FileContract E))))) Struct.fields Struct.build

/-- `v2::ChainIndexElement` (sia/src/types/v2.rs 143-150). -/
def chainIndexElement : Serde V2.ChainIndexElement :=
  record (cons (req "stateElement" stateElement) (cons (req "id" id) (one (req "chainIndex" chainIndex)))) Struct.fields Struct.build

/-- `v2::SiacoinInput` (sia/src/types/v2.rs 170-177). -/
def v2SiacoinInput (E : Env) : Serde V2.SiacoinInput :=
  record (cons (req "parent" (siacoinElement E)) (one (req "satisfiedPolicy" (satisfiedPolicy E)))) Struct.fields Struct.build

/-- `v2::SiafundInput` (sia/src/types/v2.rs 179-187). -/
def v2SiafundInput (E : Env) : Serde V2.SiafundInput :=
  record (cons (req "parent" (siafundElement E)) (cons (req "claimAddress" (address E)) (one (req "satisfiedPolicy" (satisfiedPolicy E)))))
    Struct.fields Struct.build

/-- `v2::FileContractRevision` (sia/src/types/v2.rs 189-195). -/
def v2FileContractRevision (E : Env) : Serde V2.FileContractRevision :=
  record (cons (req "parent" (fileContractElement E)) (one (req "revision" (v2FileContract E)))) Struct.fields Struct.build

/-- `v2::FileContractRenewal` (sia/src/types/v2.rs 205-218). -/
def renewal (E : Env) : Serde V2.FileContractRenewal :=
  record (cons (req "finalRevision" (v2FileContract E)) (cons (req "newContract" (v2FileContract E)) (cons (req "renterRollover" (currency E))
    (cons (req "hostRollover" (currency E)) (cons (req "renterSignature" signature) (one (req "hostSignature" signature))))))) Struct.fields Struct.build

/-- `v2::StorageProof` (sia/src/types/v2.rs 240-257). -/
def v2StorageProof : Serde V2.StorageProof :=
  record (cons (req "proofIndex" chainIndexElement) (cons (req "leaf" leaf) (one (req "proof" (list id))))) Struct.fields Struct.build

/-- The loop of `visit_map` (sia/src/types/v2.rs 410-423): later members overwrite earlier ones, other keys are errors. -/
def resolutionMembers (E : Env) : Option V2.FileContractElement × Option String × Option Json → List (String × Json) →
    Res (Option V2.FileContractElement × Option String × Option Json)
  | x, [] => .ok x
  | x, (k, v) :: m =>
    if k = "parent" then do
      let p ← (fileContractElement E).de v
      resolutionMembers E (some p, x.2) m
    else if k = "type" then do
      let s ← string.de v
      resolutionMembers E (x.1, some s, x.2.2) m
    else if k = "resolution" then resolutionMembers E (x.1, x.2.1, some v.norm) m
    else .fail

/-- `v2::FileContractResolution` (sia/src/types/v2.rs 359-450).  The resolution itself goes through a `serde_json::Value` both ways and so is in
its JSON form. -/
def resolution (E : Env) : Serde V2.FileContractResolution where
  ser x := do
    let p ← (fileContractElement E).ser x.parent
    let (t, r) ← (match x.resolution with
      | .renewal r => do let j ← (Serde.renewal E).ser r; pure ("renewal", j.norm)
      | .storageProof s => do let j ← Serde.v2StorageProof.ser s; pure ("storageProof", j.norm)
      | .expiration => pure ("expiration", Json.obj []))
    pure (.obj [("parent", p), ("type", .str t), ("resolution", r)])
  de
    | .obj m => do
      let x ← resolutionMembers E (none, none, none) m
      resolutionOf E x
    | _ => .fail

/-- `v2::Transaction` (sia/src/types/v2.rs 452-481). -/
def v2Transaction (E : Env) : Serde V2.Transaction :=
  record (cons (vec "siacoinInputs" (list (v2SiacoinInput E))) (cons (vec "siacoinOutputs" (list (siacoinOutput E)))
    (cons (vec "siafundInputs" (list (v2SiafundInput E))) (cons (vec "siafundOutputs" (list (siafundOutput E)))
    (cons (vec "fileContracts" (list (v2FileContract E))) (cons (vec "fileContractRevisions" (list (v2FileContractRevision E)))
    (cons (vec "fileContractResolutions" (list (resolution E))) (cons (vec "attestations" (list attestation))
    (cons (vec "arbitraryData" base64) (cons (opt? "newFoundationAddress" (option (address E))) (one (req "minerFee" (currency E)))))))))))))
    (fun t => (t.siacoinInputs, t.siacoinOutputs, t.siafundInputs, t.siafundOutputs, t.fileContracts, t.fileContractRevisions,
      t.fileContractResolutions, t.attestations, t.arbitraryData, t.newFoundationAddress, t.minerFee))
    (fun (a, b, c, d, e, f, g, h, i, j, k) => ⟨a, b, c, d, e, f, g, h, i, j, k⟩)

/-- `ElementAccumulator` (sia/src/consensus.rs 296-346). -/
def accumulator : Serde ElementAccumulator where
  ser a := do
    let n ← u64.ser a.numLeaves
    let t ← (list id).ser (keepTrees (hasTreeAtHeight a.numLeaves) 0 a.trees.1)
    pure (.obj [("numLeaves", n), ("trees", t)])
  de j := do
    let inter ← (cons (req "numLeaves" u64) (one (req "trees" (list id)))).de j
    accumulatorOf inter

/-- `State` (sia/src/consensus.rs 348-373). -/
def state (E : Env) : Serde State :=
  record (cons (req "index" chainIndex) (cons (req "prevTimestamps" (times E)) (cons (req "depth" id) (cons (req "childTarget" id)
    (cons (req "siafundPool" (currency E)) (cons (req "oakTime" duration) (cons (req "oakTarget" id)
    (cons (req "foundationPrimaryAddress" (address E)) (cons (req "foundationFailsafeAddress" (address E)) (cons (req "totalWork" work)
    (cons (req "difficulty" work) (cons (req "oakWork" work) (cons (req "elements" accumulator) (one (req "attestations" u64)))))))))))))))
    (fun s => (s.index, s.prevTimestamps, s.depth, s.childTarget, s.siafundPool, s.oakTime, s.oakTarget, s.foundationPrimaryAddress,
      s.foundationFailsafeAddress, s.totalWork, s.difficulty, s.oakWork, s.elements, s.attestations))
    (fun (a, b, c, d, e, f, g, h, i, j, k, l, m, n) => ⟨a, b, c, d, e, f, g, h, i, j, k, l, m, n⟩)

/-- `HardforkASIC` (sia/src/consensus.rs 48-55). -/
def hardforkASIC : Serde HardforkASIC :=
  record (cons (req "height" u64) (cons (req "oakTime" duration) (one (req "oakTarget" id))))
    (fun x => (x.height, x.oakTime, x.oakTarget)) (fun (a, b, c) => ⟨a, b, c⟩)

/-- `Network` (sia/src/consensus.rs 76-96). -/
def network (E : Env) : Serde Network :=
  record (cons (req "name" string) (cons (req "initialCoinbase" (currency E)) (cons (req "minimumCoinbase" (currency E)) (cons (req "initialTarget" id)
    (cons (req "blockInterval" duration) (cons (req "maturityDelay" u64) (cons (req "hardforkDevAddr" (hardforkDevAddr E))
    (cons (req "hardforkTax" hardforkHeight) (cons (req "hardforkStorageProof" hardforkHeight) (cons (req "hardforkOak" (hardforkOak E))
    (cons (req "hardforkASIC" hardforkASIC) (cons (req "hardforkFoundation" (hardforkFoundation E)) (one (req "hardforkV2" hardforkV2))))))))))))))
    (fun n => (n.name, n.initialCoinbase, n.minimumCoinbase, n.initialTarget, n.blockInterval, n.maturityDelay, n.hardforkDevAddr, n.hardforkTax,
      n.hardforkStorageProof, n.hardforkOak, n.hardforkASIC, n.hardforkFoundation, n.hardforkV2))
    (fun (a, b, c, d, e, f, g, h, i, j, k, l, m) => ⟨a, b, c, d, e, f, g, h, i, j, k, l, m⟩)

/-- `ChainState` (sia/src/consensus.rs 437-443). -/
def chainState (E : Env) : Serde ChainState :=
  record (cons (req "network" (network E)) (one (req "state" (state E)))) (fun x => (x.network, x.state)) (fun (a, b) => ⟨a, b⟩)

end Verif.Binary
