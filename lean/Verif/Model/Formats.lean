import Verif.Model.Binary
import Verif.Model.Mended

/-!
# The types over any way of writing identifiers, unlock keys and policies

The same records as in the code (`Verif.Serde` for JSON, `Verif.Binary` for other formats), with the formats of identifiers, unlock keys and policies as
parameters, to say what they would do if only those were repaired (C50, C63).
-/

namespace Verif

/-- How identifiers (sia/src/macros.rs 17-35), unlock keys (sia/src/types/v1.rs 38-57) and policies (sia/src/types/spendpolicy.rs 171-313) are written. -/
structure Format where
  id : Serde Hash256
  unlockKey : Serde UnlockKey
  policy : Serde SpendPolicy

/-- As the code writes and reads them in JSON. -/
def Format.json (E : Env) : Format := ⟨Serde.id, Serde.unlockKey, Serde.policy E⟩

/-- As the code writes and reads them in a format that is not human-readable. -/
def Format.binary (E : Env) : Format := ⟨Binary.id, Binary.unlockKey, Binary.policy E⟩

/-- Repaired JSON: algorithms without a text of their own are written in hex. -/
def Format.jsonFully (E : Env) : Format := ⟨Serde.id, Serde.unlockKeyFully, Serde.policyFully E⟩

/-- Repaired formats that are not human-readable: identifiers are read as the numbers that are written (sia/src/macros.rs 22), unlock keys are written as the
pair that is read (sia/src/types/v1.rs 53), and what is inside a policy is always written as the JSON value that is read (sia/src/types/spendpolicy.rs 171-313). -/
def Format.packed (E : Env) : Format where
  id := { ser := Binary.id.ser, de := Binary.readBytes 32 }
  unlockKey := { ser := fun k => do
    let a ← (Serde.list Serde.u8).ser k.algorithm.1
    let b ← (Serde.list Serde.u8).ser k.key
    pure (.arr [a, b]), de := Binary.unlockKey.de }
  policy := Serde.policyFully E

end Verif

namespace Verif.Formats

open Serde JField Shape

/-- `ChainIndex` (sia/src/types/common.rs 149-153). -/
def chainIndex (F : Format) : Serde ChainIndex := record (cons (req "height" u64) (one (req "id" F.id))) Struct.fields Struct.build

/-- `StateElement` (sia/src/types/common.rs 390-395). -/
def stateElement (F : Format) : Serde StateElement := record (cons (req "leafIndex" u64) (one (req "merkleProof" (list F.id)))) Struct.fields Struct.build

/-- `UnlockConditions` (sia/src/types/v1.rs 94-102). -/
def unlockConditions (F : Format) : Serde UnlockConditions :=
  record (cons (req "timelock" u64) (cons (req "publicKeys" (list F.unlockKey)) (one (req "signaturesRequired" u64)))) Struct.fields Struct.build

/-- `v1::SiacoinInput` (sia/src/types/v1.rs 159-165). -/
def v1SiacoinInput (F : Format) : Serde V1.SiacoinInput :=
  record (cons (req "parentID" F.id) (one (req "unlockConditions" (unlockConditions F)))) Struct.fields Struct.build

/-- `v1::SiafundInput` (sia/src/types/v1.rs 167-174). -/
def v1SiafundInput (F : Format) (E : Env) : Serde V1.SiafundInput :=
  record (cons (req "parentID" F.id) (cons (req "unlockConditions" (unlockConditions F)) (one (req "claimAddress" (address E))))) Struct.fields Struct.build

/-- `v1::FileContract` (sia/src/types/v1.rs 176-189). -/
def v1FileContract (F : Format) (E : Env) : Serde V1.FileContract :=
  record (cons (req "filesize" u64) (cons (req "fileMerkleRoot" F.id) (cons (req "windowStart" u64) (cons (req "windowEnd" u64)
    (cons (req "payout" (currency E)) (cons (req "validProofOutputs" (list (siacoinOutput E)))
    (cons (req "missedProofOutputs" (list (siacoinOutput E))) (cons (req "unlockHash" (address E)) (one (req "revisionNumber" u64)))))))))) 
    Struct.fields Struct.build

/-- `v1::FileContractRevision` (sia/src/types/v1.rs 204-219). -/
def v1FileContractRevision (F : Format) (E : Env) : Serde V1.FileContractRevision :=
  record (cons (req "parentID" F.id) (cons (req "unlockConditions" (unlockConditions F)) (cons (req "revisionNumber" u64) (cons (req "filesize" u64)
    (cons (req "fileMerkleRoot" F.id) (cons (req "windowStart" u64) (cons (req "windowEnd" u64)
    (cons (req "validProofOutputs" (list (siacoinOutput E))) (cons (req "missedProofOutputs" (list (siacoinOutput E)))
    (one (req "unlockHash" (address E)))))))))))) Struct.fields Struct.build

/-- `v1::StorageProof` (sia/src/types/v1.rs 221-228). -/
def v1StorageProof (F : Format) : Serde V1.StorageProof :=
  record (cons (req "parentID" F.id) (cons (req "leaf" leaf) (one (req "proof" (list F.id))))) Struct.fields Struct.build

/-- `TransactionSignature` (sia/src/types/v1.rs 265-275). -/
def transactionSignature (F : Format) : Serde V1.TransactionSignature :=
  record (cons (req "parentID" F.id) (cons (req "publicKeyIndex" u64) (cons (req "timelock" u64) (cons (req "coveredFields" coveredFields)
    (one (req "signature" base64)))))) Struct.fields Struct.build

/-- `v1::Transaction` (sia/src/types/v1.rs 277-304). -/
def v1Transaction (F : Format) (E : Env) : Serde V1.Transaction :=
  record (cons (vec "siacoinInputs" (list (v1SiacoinInput F))) (cons (vec "siacoinOutputs" (list (siacoinOutput E)))
    (cons (vec "fileContracts" (list (v1FileContract F E))) (cons (vec "fileContractRevisions" (list (v1FileContractRevision F E)))
    (cons (vec "storageProofs" (list (v1StorageProof F))) (cons (vec "siafundInputs" (list (v1SiafundInput F E)))
    (cons (vec "siafundOutputs" (list (siafundOutput E))) (cons (vec "minerFees" (list (currency E)))
    (cons (vec "arbitraryData" (list base64)) (one (vec "signatures" (list (transactionSignature F))))))))))))) Struct.fields Struct.build

/-- `Block` (sia/src/types/common.rs 168-178). -/
def block (F : Format) (E : Env) : Serde Block :=
  record (cons (req "parentID" F.id) (cons (req "nonce" u64) (cons (req "timestamp" (time E)) (cons (req "minerPayouts" (list (siacoinOutput E)))
    (one (req "transactions" (list (v1Transaction F E)))))))) Struct.fields Struct.build

/-- `SatisfiedPolicy` (sia/src/types/spendpolicy.rs 390-398). -/
def satisfiedPolicy (F : Format) : Serde SatisfiedPolicy :=
  record (cons (req "policy" F.policy) (cons (vec "signatures" (list signature)) (one (vec "preimages" (list F.id))))) Struct.fields Struct.build

/-- `v2::FileContract` (sia/src/types/v2.rs 60-78). -/
def v2FileContract (F : Format) (E : Env) : Serde V2.FileContract :=
  record (cons (req "capacity" u64) (cons (req "filesize" u64) (cons (req "fileMerkleRoot" F.id) (cons (req "proofHeight" u64)
    (cons (req "expirationHeight" u64) (cons (req "renterOutput" (siacoinOutput E)) (cons (req "hostOutput" (siacoinOutput E))
    (cons (req "missedHostValue" (currency E)) (cons (req "totalCollateral" (currency E)) (cons (req "renterPublicKey" key)
    (cons (req "hostPublicKey" key) (cons (req "revisionNumber" u64) (cons (req "renterSignature" signature)
    (one (req "hostSignature" signature))))))))))))))) Struct.fields Struct.build

/-- `v2::SiacoinElement` (sia/src/types/v2.rs 113-121). -/
def siacoinElement (F : Format) (E : Env) : Serde V2.SiacoinElement :=
  record (cons (req "stateElement" (stateElement F)) (cons (req "id" F.id) (cons (req "siacoinOutput" (siacoinOutput E)) (one (req "maturityHeight" u64)))))
    Struct.fields Struct.build

/-- `v2::SiafundElement` (sia/src/types/v2.rs 123-131). -/
def siafundElement (F : Format) (E : Env) : Serde V2.SiafundElement :=
  record (cons (req "stateElement" (stateElement F)) (cons (req "id" F.id) (cons (req "siafundOutput" (siafundOutput E)) (one (req "claimStart" (currency E))))))
    Struct.fields Struct.build

/-- `v2::FileContractElement` (sia/src/types/v2.rs 133-141). -/
def fileContractElement (F : Format) (E : Env) : Serde V2.FileContractElement :=
  record (cons (req "stateElement" (stateElement F)) (cons (req "id" F.id) (one (req "v2FileContract" (v2FileContract F E))))) Struct.fields Struct.build

/-- `v2::ChainIndexElement` (sia/src/types/v2.rs 143-150). -/
def chainIndexElement (F : Format) : Serde V2.ChainIndexElement :=
  record (cons (req "stateElement" (stateElement F)) (cons (req "id" F.id) (one (req "chainIndex" (chainIndex F))))) Struct.fields Struct.build

/-- `v2::SiacoinInput` (sia/src/types/v2.rs 170-177). -/
def v2SiacoinInput (F : Format) (E : Env) : Serde V2.SiacoinInput :=
  record (cons (req "parent" (siacoinElement F E)) (one (req "satisfiedPolicy" (satisfiedPolicy F)))) Struct.fields Struct.build

/-- `v2::SiafundInput` (sia/src/types/v2.rs 179-187). -/
def v2SiafundInput (F : Format) (E : Env) : Serde V2.SiafundInput :=
  record (cons (req "parent" (siafundElement F E)) (cons (req "claimAddress" (address E)) (one (req "satisfiedPolicy" (satisfiedPolicy F)))))
    Struct.fields Struct.build

/-- `v2::FileContractRevision` (sia/src/types/v2.rs 189-195). -/
def v2FileContractRevision (F : Format) (E : Env) : Serde V2.FileContractRevision :=
  record (cons (req "parent" (fileContractElement F E)) (one (req "revision" (v2FileContract F E)))) Struct.fields Struct.build

/-- `v2::FileContractRenewal` (sia/src/types/v2.rs 205-218). -/
def renewal (F : Format) (E : Env) : Serde V2.FileContractRenewal :=
  record (cons (req "finalRevision" (v2FileContract F E)) (cons (req "newContract" (v2FileContract F E)) (cons (req "renterRollover" (currency E))
    (cons (req "hostRollover" (currency E)) (cons (req "renterSignature" signature) (one (req "hostSignature" signature))))))) Struct.fields Struct.build

/-- `v2::StorageProof` (sia/src/types/v2.rs 240-257). -/
def v2StorageProof (F : Format) : Serde V2.StorageProof :=
  record (cons (req "proofIndex" (chainIndexElement F)) (cons (req "leaf" leaf) (one (req "proof" (list F.id))))) Struct.fields Struct.build

/-- The loop of `visit_map` (sia/src/types/v2.rs 410-423): later members overwrite earlier ones, other keys are errors. -/
def resolutionMembers (F : Format) (E : Env) : Option V2.FileContractElement × Option String × Option Json → List (String × Json) →
    Res (Option V2.FileContractElement × Option String × Option Json)
  | x, [] => .ok x
  | x, (k, v) :: m =>
    if k = "parent" then do
      let p ← (fileContractElement F E).de v
      resolutionMembers F E (some p, x.2) m
    else if k = "type" then do
      let s ← string.de v
      resolutionMembers F E (x.1, some s, x.2.2) m
    else if k = "resolution" then resolutionMembers F E (x.1, x.2.1, some v.norm) m
    else .fail

/-- `v2::FileContractResolution` (sia/src/types/v2.rs 359-450).  The resolution itself goes through a `serde_json::Value` both ways and so is in
its JSON form. -/
def resolution (F : Format) (E : Env) : Serde V2.FileContractResolution where
  ser x := do
    let p ← (fileContractElement F E).ser x.parent
    let (t, r) ← (match x.resolution with
      | .renewal r => do let j ← (Serde.renewal E).ser r; pure ("renewal", j.norm)
      | .storageProof s => do let j ← Serde.v2StorageProof.ser s; pure ("storageProof", j.norm)
      | .expiration => pure ("expiration", Json.obj []))
    pure (.obj [("parent", p), ("type", .str t), ("resolution", r)])
  de
    | .obj m => do
      let x ← resolutionMembers F E (none, none, none) m
      resolutionOf E x
    | _ => .fail

/-- `v2::Transaction` (sia/src/types/v2.rs 452-481). -/
def v2Transaction (F : Format) (E : Env) : Serde V2.Transaction :=
  record (cons (vec "siacoinInputs" (list (v2SiacoinInput F E))) (cons (vec "siacoinOutputs" (list (siacoinOutput E)))
    (cons (vec "siafundInputs" (list (v2SiafundInput F E))) (cons (vec "siafundOutputs" (list (siafundOutput E)))
    (cons (vec "fileContracts" (list (v2FileContract F E))) (cons (vec "fileContractRevisions" (list (v2FileContractRevision F E)))
    (cons (vec "fileContractResolutions" (list (resolution F E))) (cons (vec "attestations" (list attestation))
    (cons (vec "arbitraryData" base64) (cons (opt? "newFoundationAddress" (option (address E))) (one (req "minerFee" (currency E)))))))))))))
    (fun t => (t.siacoinInputs, t.siacoinOutputs, t.siafundInputs, t.siafundOutputs, t.fileContracts, t.fileContractRevisions,
      t.fileContractResolutions, t.attestations, t.arbitraryData, t.newFoundationAddress, t.minerFee))
    (fun (a, b, c, d, e, f, g, h, i, j, k) => ⟨a, b, c, d, e, f, g, h, i, j, k⟩)

/-- `ElementAccumulator` (sia/src/consensus.rs 296-346). -/
def accumulator (F : Format) : Serde ElementAccumulator where
  ser a := do
    let n ← u64.ser a.numLeaves
    let t ← (list F.id).ser (keepTrees (hasTreeAtHeight a.numLeaves) 0 a.trees.1)
    pure (.obj [("numLeaves", n), ("trees", t)])
  de j := do
    let inter ← (cons (req "numLeaves" u64) (one (req "trees" (list F.id)))).de j
    accumulatorOf inter

/-- `State` (sia/src/consensus.rs 348-373). -/
def state (F : Format) (E : Env) : Serde State :=
  record (cons (req "index" (chainIndex F)) (cons (req "prevTimestamps" (times E)) (cons (req "depth" F.id) (cons (req "childTarget" F.id)
    (cons (req "siafundPool" (currency E)) (cons (req "oakTime" duration) (cons (req "oakTarget" F.id)
    (cons (req "foundationPrimaryAddress" (address E)) (cons (req "foundationFailsafeAddress" (address E)) (cons (req "totalWork" work)
    (cons (req "difficulty" work) (cons (req "oakWork" work) (cons (req "elements" (accumulator F)) (one (req "attestations" u64)))))))))))))))
    (fun s => (s.index, s.prevTimestamps, s.depth, s.childTarget, s.siafundPool, s.oakTime, s.oakTarget, s.foundationPrimaryAddress,
      s.foundationFailsafeAddress, s.totalWork, s.difficulty, s.oakWork, s.elements, s.attestations))
    (fun (a, b, c, d, e, f, g, h, i, j, k, l, m, n) => ⟨a, b, c, d, e, f, g, h, i, j, k, l, m, n⟩)

/-- `HardforkASIC` (sia/src/consensus.rs 48-55). -/
def hardforkASIC (F : Format) : Serde HardforkASIC :=
  record (cons (req "height" u64) (cons (req "oakTime" duration) (one (req "oakTarget" F.id))))
    (fun x => (x.height, x.oakTime, x.oakTarget)) (fun (a, b, c) => ⟨a, b, c⟩)

/-- `Network` (sia/src/consensus.rs 76-96). -/
def network (F : Format) (E : Env) : Serde Network :=
  record (cons (req "name" string) (cons (req "initialCoinbase" (currency E)) (cons (req "minimumCoinbase" (currency E)) (cons (req "initialTarget" F.id)
    (cons (req "blockInterval" duration) (cons (req "maturityDelay" u64) (cons (req "hardforkDevAddr" (hardforkDevAddr E))
    (cons (req "hardforkTax" hardforkHeight) (cons (req "hardforkStorageProof" hardforkHeight) (cons (req "hardforkOak" (hardforkOak E))
    (cons (req "hardforkASIC" (hardforkASIC F)) (cons (req "hardforkFoundation" (hardforkFoundation E)) (one (req "hardforkV2" hardforkV2))))))))))))))
    (fun n => (n.name, n.initialCoinbase, n.minimumCoinbase, n.initialTarget, n.blockInterval, n.maturityDelay, n.hardforkDevAddr, n.hardforkTax,
      n.hardforkStorageProof, n.hardforkOak, n.hardforkASIC, n.hardforkFoundation, n.hardforkV2))
    (fun (a, b, c, d, e, f, g, h, i, j, k, l, m) => ⟨a, b, c, d, e, f, g, h, i, j, k, l, m⟩)

/-- `ChainState` (sia/src/consensus.rs 437-443). -/
def chainState (F : Format) (E : Env) : Serde ChainState :=
  record (cons (req "network" (network F E)) (one (req "state" (state F E)))) (fun x => (x.network, x.state)) (fun (a, b) => ⟨a, b⟩)

end Verif.Formats
