import Verif.Spec.Base64
import Verif.Spec.Serde

/-!
# The JSON documents of the types

A second description of the JSON forms, written from the field lists and attributes of the types without using the writers and readers of the model.
`none` means that there is no document: a name that is not UTF-8, or a time that RFC 3339 cannot express.
-/

namespace Verif.Document

/-- Two lower-case hex digits for every byte. -/
def hex (bs : List UInt8) : String := String.ofList (bs.flatMap fun b => [Nat.digitChar (b.toNat / 16), Nat.digitChar (b.toNat % 16)])

/-- The symbols of base64. -/
def symbol (n : Nat) : Char := "ABCDEFGHIJKLMNOPQRSTUVWXYZabcdefghijklmnopqrstuvwxyz0123456789+/".toList.getD n ' '

/-- The base64 text of bytes, with padding. -/
def base64 (bs : List UInt8) : String :=
  String.ofList ((List.range ((bs.length + 2) / 3 * 4)).map fun i =>
    if 6 * i < 8 * bs.length then symbol (sixBits bs i) else '=')

/-- A text without the zero bytes at the end, if it is UTF-8. -/
def name (bs : List UInt8) : Option String := String.fromUTF8? ⟨(bs.reverse.dropWhile (· = 0)).reverse.toArray⟩

/-- The members, if all of them have a document. -/
def members : List (String × Option Json) → Option (List (String × Json))
  | [] => some []
  | (k, d) :: m => d.bind fun j => (members m).map fun r => (k, j) :: r

def object (m : List (String × Option Json)) : Option Json := (members m).map Json.obj

/-- The documents of all elements. -/
def every {α : Type} (f : α → Option Json) : List α → Option (List Json)
  | [] => some []
  | a :: l => (f a).bind fun j => (every f l).map fun js => j :: js

def array {α : Type} (f : α → Option Json) (l : List α) : Option Json := (every f l).map Json.arr

/-- A member left out when the list is empty. -/
def unlessEmpty {α : Type} (k : String) (f : List α → Option Json) (l : List α) : List (String × Option Json) :=
  match l with
  | [] => []
  | l => [(k, f l)]

/-- A member left out when there is no value. -/
def unlessNone {α : Type} (k : String) (f : α → Option Json) : Option α → List (String × Option Json)
  | none => []
  | some a => [(k, f a)]

def number (x : U64) : Option Json := some (.nat x)

def string (s : String) : Option Json := some (.str s)

def hash {n : Nat} (h : Arr n) : Option Json := string (hex h.1)

/-- The hash and the first six bytes of its hash. -/
def address (E : Env) (a : Address) : Option Json := string (hex (a.1 ++ (E.hash a.1).1.take 6))

def key (k : PublicKey) : Option Json := string ("ed25519:" ++ hex k.1)

/-- A decimal number in a string. -/
def amount (n : Nat) : Option Json := string (String.ofList (Nat.toDigits 10 n))

def bytes (bs : List UInt8) : Option Json := string (base64 bs)

def time (E : Env) (t : DateTime) : Option Json := (E.timeText t).map Json.str

/-- Nanoseconds modulo 2^64. -/
def duration (d : Duration) : Option Json := some (.nat (BitVec.ofNat 64 (d.ns % 2 ^ 64).toNat))

def unlockKey (k : UnlockKey) : Option Json := (name k.algorithm.1).map fun s => .str (s ++ ":" ++ hex k.key)

def chainIndex (x : ChainIndex) : Option Json := object [("height", number x.height), ("id", hash x.id)]

def siacoinOutput (E : Env) (x : SiacoinOutput) : Option Json := object [("value", amount x.value.val.toNat), ("address", address E x.address)]

def siafundOutput (E : Env) (x : SiafundOutput) : Option Json := object [("value", number x.value), ("address", address E x.address)]

def stateElement (x : StateElement) : Option Json := object [("leafIndex", number x.leafIndex), ("merkleProof", array hash x.merkleProof)]

def unlockConditions (x : UnlockConditions) : Option Json :=
  object [("timelock", number x.timelock), ("publicKeys", array unlockKey x.publicKeys), ("signaturesRequired", number x.signaturesRequired)]

/-! ## v1 -/

def v1SiacoinInput (x : V1.SiacoinInput) : Option Json :=
  object [("parentID", hash x.parentId), ("unlockConditions", unlockConditions x.unlockConditions)]

def v1SiafundInput (E : Env) (x : V1.SiafundInput) : Option Json :=
  object [("parentID", hash x.parentId), ("unlockConditions", unlockConditions x.unlockConditions), ("claimAddress", address E x.claimAddress)]

def v1FileContract (E : Env) (x : V1.FileContract) : Option Json :=
  object [("filesize", number x.fileSize), ("fileMerkleRoot", hash x.fileMerkleRoot), ("windowStart", number x.windowStart),
    ("windowEnd", number x.windowEnd), ("payout", amount x.payout.val.toNat), ("validProofOutputs", array (siacoinOutput E) x.validProofOutputs),
    ("missedProofOutputs", array (siacoinOutput E) x.missedProofOutputs), ("unlockHash", address E x.unlockHash),
    ("revisionNumber", number x.revisionNumber)]

def v1FileContractRevision (E : Env) (x : V1.FileContractRevision) : Option Json :=
  object [("parentID", hash x.parentId), ("unlockConditions", unlockConditions x.unlockConditions), ("revisionNumber", number x.revisionNumber),
    ("filesize", number x.fileSize), ("fileMerkleRoot", hash x.fileMerkleRoot), ("windowStart", number x.windowStart),
    ("windowEnd", number x.windowEnd), ("validProofOutputs", array (siacoinOutput E) x.validProofOutputs),
    ("missedProofOutputs", array (siacoinOutput E) x.missedProofOutputs), ("unlockHash", address E x.unlockHash)]

def v1StorageProof (x : V1.StorageProof) : Option Json :=
  object [("parentID", hash x.parentId), ("leaf", hash x.leaf), ("proof", array hash x.proof)]

/-- The index lists are left out when they are empty. -/
def coveredFields (x : V1.CoveredFields) : Option Json :=
  object ([("wholeTransaction", some (.bool x.wholeTransaction))] ++ unlessEmpty "siacoinInputs" (array number) x.siacoinInputs ++
    unlessEmpty "siacoinOutputs" (array number) x.siacoinOutputs ++ unlessEmpty "fileContracts" (array number) x.fileContracts ++
    unlessEmpty "fileContractRevisions" (array number) x.fileContractRevisions ++ unlessEmpty "storageProofs" (array number) x.storageProofs ++
    unlessEmpty "siafundInputs" (array number) x.siafundInputs ++ unlessEmpty "siafundOutputs" (array number) x.siafundOutputs ++
    unlessEmpty "minerFees" (array number) x.minerFees ++ unlessEmpty "arbitraryData" (array number) x.arbitraryData ++
    unlessEmpty "signatures" (array number) x.signatures)

def transactionSignature (x : V1.TransactionSignature) : Option Json :=
  object [("parentID", hash x.parentId), ("publicKeyIndex", number x.publicKeyIndex), ("timelock", number x.timelock),
    ("coveredFields", coveredFields x.coveredFields), ("signature", bytes x.signature)]

def v1Transaction (E : Env) (x : V1.Transaction) : Option Json :=
  object (unlessEmpty "siacoinInputs" (array v1SiacoinInput) x.siacoinInputs ++ unlessEmpty "siacoinOutputs" (array (siacoinOutput E)) x.siacoinOutputs ++
    unlessEmpty "fileContracts" (array (v1FileContract E)) x.fileContracts ++
    unlessEmpty "fileContractRevisions" (array (v1FileContractRevision E)) x.fileContractRevisions ++
    unlessEmpty "storageProofs" (array v1StorageProof) x.storageProofs ++ unlessEmpty "siafundInputs" (array (v1SiafundInput E)) x.siafundInputs ++
    unlessEmpty "siafundOutputs" (array (siafundOutput E)) x.siafundOutputs ++
    unlessEmpty "minerFees" (array fun c : Currency => amount c.val.toNat) x.minerFees ++
    unlessEmpty "arbitraryData" (array bytes) x.arbitraryData ++ unlessEmpty "signatures" (array transactionSignature) x.signatures)

def block (E : Env) (x : Block) : Option Json :=
  object [("parentID", hash x.parentId), ("nonce", number x.nonce), ("timestamp", time E x.timestamp),
    ("minerPayouts", array (siacoinOutput E) x.minerPayouts), ("transactions", array (v1Transaction E) x.transactions)]

/-! ## Policies -/

/-- The kind of a policy and what it says. -/
def tagged (type : String) (policy : Option Json) : Option Json := object [("type", string type), ("policy", policy)]

mutual

def policy (E : Env) : SpendPolicy → Option Json
  | .above h => tagged "above" (number h)
  | .after t => tagged "after" (some (.nat (BitVec.ofNat 64 (t.secs % 2 ^ 64).toNat)))
  | .publicKey k => tagged "pk" (key k)
  | .hash h => tagged "h" (hash h)
  | .threshold n of => tagged "thresh" (object [("n", some (.nat (BitVec.ofNat 64 n.toNat))), ("of", (policies E of).map Json.arr)])
  | .opaqueAddr a => tagged "opaque" (address E a)
  | .unlockConditions uc => tagged "uc" (unlockConditions uc)

def policies (E : Env) : List SpendPolicy → Option (List Json)
  | [] => some []
  | p :: ps => (policy E p).bind fun j => (policies E ps).map fun js => j :: js

end

def satisfiedPolicy (E : Env) (x : SatisfiedPolicy) : Option Json :=
  object ([("policy", policy E x.policy)] ++ unlessEmpty "signatures" (array hash) x.signatures ++ unlessEmpty "preimages" (array hash) x.preimages)

/-! ## v2 -/

def attestation (x : V2.Attestation) : Option Json :=
  object [("publicKey", key x.publicKey), ("key", string x.key), ("value", bytes x.value), ("signature", hash x.signature)]

def v2FileContract (E : Env) (x : V2.FileContract) : Option Json :=
  object [("capacity", number x.capacity), ("filesize", number x.filesize), ("fileMerkleRoot", hash x.fileMerkleRoot),
    ("proofHeight", number x.proofHeight), ("expirationHeight", number x.expirationHeight), ("renterOutput", siacoinOutput E x.renterOutput),
    ("hostOutput", siacoinOutput E x.hostOutput), ("missedHostValue", amount x.missedHostValue.val.toNat),
    ("totalCollateral", amount x.totalCollateral.val.toNat), ("renterPublicKey", key x.renterPublicKey), ("hostPublicKey", key x.hostPublicKey),
    ("revisionNumber", number x.revisionNumber), ("renterSignature", hash x.renterSignature), ("hostSignature", hash x.hostSignature)]

def siacoinElement (E : Env) (x : V2.SiacoinElement) : Option Json :=
  object [("stateElement", stateElement x.stateElement), ("id", hash x.id), ("siacoinOutput", siacoinOutput E x.siacoinOutput),
    ("maturityHeight", number x.maturityHeight)]

def siafundElement (E : Env) (x : V2.SiafundElement) : Option Json :=
  object [("stateElement", stateElement x.stateElement), ("id", hash x.id), ("siafundOutput", siafundOutput E x.siafundOutput),
    ("claimStart", amount x.claimStart.val.toNat)]

def fileContractElement (E : Env) (x : V2.FileContractElement) : Option Json :=
  object [("stateElement", stateElement x.stateElement), ("id", hash x.id), ("v2FileContract", v2FileContract E x.fileContract)]

def chainIndexElement (x : V2.ChainIndexElement) : Option Json :=
  object [("stateElement", stateElement x.stateElement), ("id", hash x.id), ("chainIndex", chainIndex x.chainIndex)]

def v2SiacoinInput (E : Env) (x : V2.SiacoinInput) : Option Json :=
  object [("parent", siacoinElement E x.parent), ("satisfiedPolicy", satisfiedPolicy E x.satisfiedPolicy)]

def v2SiafundInput (E : Env) (x : V2.SiafundInput) : Option Json :=
  object [("parent", siafundElement E x.parent), ("claimAddress", address E x.claimAddress), ("satisfiedPolicy", satisfiedPolicy E x.satisfiedPolicy)]

def v2FileContractRevision (E : Env) (x : V2.FileContractRevision) : Option Json :=
  object [("parent", fileContractElement E x.parent), ("revision", v2FileContract E x.revision)]

def renewal (E : Env) (x : V2.FileContractRenewal) : Option Json :=
  object [("finalRevision", v2FileContract E x.finalRevision), ("newContract", v2FileContract E x.newContract),
    ("renterRollover", amount x.renterRollover.val.toNat), ("hostRollover", amount x.hostRollover.val.toNat),
    ("renterSignature", hash x.renterSignature), ("hostSignature", hash x.hostSignature)]

def v2StorageProof (x : V2.StorageProof) : Option Json :=
  object [("proofIndex", chainIndexElement x.proofIndex), ("leaf", hash x.leaf), ("proof", array hash x.proof)]

def resolution (E : Env) (x : V2.FileContractResolution) : Option Json :=
  match x.resolution with
  | .renewal r => object [("parent", fileContractElement E x.parent), ("type", string "renewal"), ("resolution", renewal E r)]
  | .storageProof p => object [("parent", fileContractElement E x.parent), ("type", string "storageProof"), ("resolution", v2StorageProof p)]
  | .expiration => object [("parent", fileContractElement E x.parent), ("type", string "expiration"), ("resolution", object [])]

/-- The miner fee is always there. -/
def v2Transaction (E : Env) (x : V2.Transaction) : Option Json :=
  object (unlessEmpty "siacoinInputs" (array (v2SiacoinInput E)) x.siacoinInputs ++ unlessEmpty "siacoinOutputs" (array (siacoinOutput E)) x.siacoinOutputs ++
    unlessEmpty "siafundInputs" (array (v2SiafundInput E)) x.siafundInputs ++ unlessEmpty "siafundOutputs" (array (siafundOutput E)) x.siafundOutputs ++
    unlessEmpty "fileContracts" (array (v2FileContract E)) x.fileContracts ++
    unlessEmpty "fileContractRevisions" (array (v2FileContractRevision E)) x.fileContractRevisions ++
    unlessEmpty "fileContractResolutions" (array (resolution E)) x.fileContractResolutions ++ unlessEmpty "attestations" (array attestation) x.attestations ++
    unlessEmpty "arbitraryData" bytes x.arbitraryData ++
    unlessNone "newFoundationAddress" (address E) x.newFoundationAddress ++
    [("minerFee", amount x.minerFee.val.toNat)])

/-! ## Consensus -/

/-- The trees at the one bits of the number of leaves, smallest first. -/
def accumulator (x : ElementAccumulator) : Option Json := object [("numLeaves", number x.numLeaves), ("trees", array hash x.roots)]

def state (E : Env) (x : State) : Option Json :=
  object [("index", chainIndex x.index), ("prevTimestamps", array (time E) x.prevTimestamps.1), ("depth", hash x.depth),
    ("childTarget", hash x.childTarget), ("siafundPool", amount x.siafundPool.val.toNat), ("oakTime", duration x.oakTime),
    ("oakTarget", hash x.oakTarget), ("foundationPrimaryAddress", address E x.foundationPrimaryAddress),
    ("foundationFailsafeAddress", address E x.foundationFailsafeAddress), ("totalWork", amount x.totalWork.val.toNat),
    ("difficulty", amount x.difficulty.val.toNat), ("oakWork", amount x.oakWork.val.toNat), ("elements", accumulator x.elements),
    ("attestations", number x.attestations)]

def network (E : Env) (x : Network) : Option Json :=
  object [("name", string x.name), ("initialCoinbase", amount x.initialCoinbase.val.toNat), ("minimumCoinbase", amount x.minimumCoinbase.val.toNat),
    ("initialTarget", hash x.initialTarget), ("blockInterval", duration x.blockInterval), ("maturityDelay", number x.maturityDelay),
    ("hardforkDevAddr", object [("height", number x.hardforkDevAddr.height), ("oldAddress", address E x.hardforkDevAddr.oldAddress),
      ("newAddress", address E x.hardforkDevAddr.newAddress)]),
    ("hardforkTax", object [("height", number x.hardforkTax)]), ("hardforkStorageProof", object [("height", number x.hardforkStorageProof)]),
    ("hardforkOak", object [("height", number x.hardforkOak.height), ("fixHeight", number x.hardforkOak.fixHeight),
      ("genesisTimestamp", time E x.hardforkOak.genesisTimestamp)]),
    ("hardforkASIC", object [("height", number x.hardforkASIC.height), ("oakTime", duration x.hardforkASIC.oakTime),
      ("oakTarget", hash x.hardforkASIC.oakTarget)]),
    ("hardforkFoundation", object [("height", number x.hardforkFoundation.height), ("primaryAddress", address E x.hardforkFoundation.primaryAddress),
      ("failsafeAddress", address E x.hardforkFoundation.failsafeAddress)]),
    ("hardforkV2", object [("allowHeight", number x.hardforkV2.allowHeight), ("requireHeight", number x.hardforkV2.requireHeight)])]

def chainState (E : Env) (x : ChainState) : Option Json := object [("network", network E x.network), ("state", state E x.state)]

end Verif.Document

namespace Verif

/-- Writing succeeds exactly on the values that have a document, and the result is the document up to the order of object members. -/
def Serde.HasDocument {α : Type} (s : Serde α) (f : α → Option Json) : Prop :=
  ∀ a, (∀ d, f a = some d → ∃ j, s.ser a = .ok j ∧ d.Reordered j) ∧ (f a = none → ∀ j, s.ser a ≠ .ok j)

end Verif
