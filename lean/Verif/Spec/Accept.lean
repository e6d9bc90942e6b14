import Verif.Spec.Arith
import Verif.Spec.Base64
import Verif.Spec.Number
import Verif.Spec.Serde

/-!
# What a JSON document says

For every type the documents that stand for a value, written from the field lists and attributes of the types without using the readers of the model.  The texts
inside are described by the grammars of hex, decimal and base64 texts.
-/

namespace Verif.Says

/-- A member of an object: its name, what its value says about the whole, and what holds when it is left out. -/
structure Member (α : Type) where
  name : String
  says : Json → α → Prop
  absent : α → Prop

/-- A member that must be there. -/
def member {α β : Type} (name : String) (get : α → β) (R : Json → β → Prop) : Member α := ⟨name, fun v a => R v (get a), fun _ => False⟩

/-- A list that may be left out if it is empty. -/
def orEmpty {α β : Type} (name : String) (get : α → List β) (R : Json → List β → Prop) : Member α := ⟨name, fun v a => R v (get a), fun a => get a = []⟩

/-- A value that may be left out if there is none. -/
def orNone {α β : Type} (name : String) (get : α → Option β) (R : Json → Option β → Prop) : Member α :=
  ⟨name, fun v a => R v (get a), fun a => get a = none⟩

/-- The members by position, as the elements of an array; only members that may be left out may be missing at the end. -/
def positions {α : Type} : List (Member α) → List Json → α → Prop
  | [], l, _ => l = []
  | e :: ms, [], a => e.absent a ∧ positions ms [] a
  | e :: ms, v :: l, a => e.says v a ∧ positions ms l a

/-- A struct is an object in which every member occurs once, or not at all and may be left out, and other members are ignored; or an array of the members in
order. -/
def struct {α : Type} (ms : List (Member α)) : Json → α → Prop
  | .obj m, a => ∀ e ∈ ms, (∃ v, valuesOf e.name m = [v] ∧ e.says v a) ∨ (valuesOf e.name m = [] ∧ e.absent a)
  | .arr l, a => positions ms l a
  | _, _ => False

/-- Element by element. -/
def each {α : Type} (R : Json → α → Prop) : List Json → List α → Prop
  | [], [] => True
  | j :: js, a :: l => R j a ∧ each R js l
  | _, _ => False

/-- A list is an array. -/
def list {α : Type} (R : Json → α → Prop) (j : Json) (l : List α) : Prop := ∃ js, j = .arr js ∧ each R js l

/-- No value is null. -/
def option {α : Type} (R : Json → α → Prop) (j : Json) : Option α → Prop
  | none => j = .null
  | some a => j ≠ .null ∧ R j a

/-! ## Values -/

def u64 (j : Json) (x : U64) : Prop := j = .nat x

def u8 (j : Json) (x : UInt8) : Prop := ∃ n : U64, j = .nat n ∧ n.toNat = x.toNat

def bool (j : Json) (x : Bool) : Prop := j = .bool x

def string (j : Json) (s : String) : Prop := j = .str s

/-- 64 hex digits, perhaps after a prefix up to the first colon. -/
def id (j : Json) (h : Hash256) : Prop := ∃ s t, j = .str s ∧ AfterColon (strBytes s) t ∧ HexText t h.1

/-- The hex text of the address and the first six bytes of its hash. -/
def address (E : Env) (j : Json) (a : Address) : Prop := ∃ s, j = .str s ∧ HexText (strBytes s) (a.1 ++ (E.hash a.1).1.take 6)

/-- The prefix "ed25519:" and 64 hex digits. -/
def key (j : Json) (k : PublicKey) : Prop := ∃ s t, j = .str s ∧ strBytes s = ascii "ed25519:" ++ t ∧ HexText t k.1

def signature (j : Json) (x : Signature) : Prop := ∃ s, j = .str s ∧ HexText (strBytes s) x.1

def leaf (j : Json) (x : Leaf) : Prop := ∃ s, j = .str s ∧ HexText (strBytes s) x.1

/-- The algorithm, filled up with zeros or cut, before the first colon; the hex text of the key after it. -/
def unlockKey (j : Json) (k : UnlockKey) : Prop :=
  ∃ s pre t, j = .str s ∧ strBytes s = pre ++ [58] ++ t ∧ (58 : UInt8) ∉ pre ∧ Padded pre k.algorithm ∧ HexText t k.key

/-- An amount in a string, in hastings or with a unit.  The number of digits after the point counts modulo 2^32; without overflow checks the sum counts modulo
2^128. -/
def amount (m : Mode) (s : List Char) (n : Nat) : Prop :=
  InHastings s n ∨ ∃ int frac e x, InUnits s int frac e ∧ Shift frac e x ∧
    match m with
    | .checked => x ≤ 38 ∧ n = decimal int * 10 ^ e + decimal frac * 10 ^ x
    | .unchecked => decimal int < 2 ^ 128 ∧ decimal frac < 2 ^ 128 ∧ n = (decimal int * 10 ^ e + decimal frac * 10 ^ x) % 2 ^ 128

/-- A number that is not negative, or an amount in a string. -/
def currency (E : Env) (j : Json) (c : Currency) : Prop :=
  (∃ n : U64, j = .nat n ∧ c.hastings = n.toNat) ∨ ∃ s, j = .str s ∧ amount E.mode s.toList c.hastings

/-- Digits in a string, perhaps none. -/
def work (j : Json) (w : Work) : Prop := ∃ s, j = .str s ∧ (∀ c ∈ s.toList, c ∈ digitChars) ∧ decimal s.toList = w.val.toNat

def bytes (j : Json) (bs : List UInt8) : Prop := ∃ s, j = .str s ∧ IsBase64 (strBytes s) bs

def time (E : Env) (j : Json) (t : DateTime) : Prop := ∃ s, j = .str s ∧ E.timeRead s = some t

/-- At most eleven times; the epoch for those that are missing. -/
def times (E : Env) (j : Json) (ts : Vec DateTime 11) : Prop :=
  ∃ js l, j = .arr js ∧ each (time E) js l ∧ l.length ≤ 11 ∧ ts.1 = l ++ List.replicate (11 - l.length) DateTime.epoch

/-- A number modulo 2^64, taken as signed. -/
def duration (j : Json) (d : Duration) : Prop := ∃ n : U64, j = .nat n ∧ d.ns = n.toInt

/-! ## Structs -/

def chainIndex : Json → ChainIndex → Prop := struct [member "height" (·.height) u64, member "id" (·.id) id]

def siacoinOutput (E : Env) : Json → SiacoinOutput → Prop := struct [member "value" (·.value) (currency E), member "address" (·.address) (address E)]

def siafundOutput (E : Env) : Json → SiafundOutput → Prop := struct [member "value" (·.value) u64, member "address" (·.address) (address E)]

def stateElement : Json → StateElement → Prop := struct [member "leafIndex" (·.leafIndex) u64, member "merkleProof" (·.merkleProof) (list id)]

def unlockConditions : Json → UnlockConditions → Prop :=
  struct [member "timelock" (·.timelock) u64, member "publicKeys" (·.publicKeys) (list unlockKey), member "signaturesRequired" (·.signaturesRequired) u64]

/-! ## v1 -/

def v1SiacoinInput : Json → V1.SiacoinInput → Prop :=
  struct [member "parentID" (·.parentId) id, member "unlockConditions" (·.unlockConditions) unlockConditions]

def v1SiafundInput (E : Env) : Json → V1.SiafundInput → Prop :=
  struct [member "parentID" (·.parentId) id, member "unlockConditions" (·.unlockConditions) unlockConditions,
    member "claimAddress" (·.claimAddress) (address E)]

def v1FileContract (E : Env) : Json → V1.FileContract → Prop :=
  struct [member "filesize" (·.fileSize) u64, member "fileMerkleRoot" (·.fileMerkleRoot) id, member "windowStart" (·.windowStart) u64,
    member "windowEnd" (·.windowEnd) u64, member "payout" (·.payout) (currency E), member "validProofOutputs" (·.validProofOutputs) (list (siacoinOutput E)),
    member "missedProofOutputs" (·.missedProofOutputs) (list (siacoinOutput E)), member "unlockHash" (·.unlockHash) (address E),
    member "revisionNumber" (·.revisionNumber) u64]

def v1FileContractRevision (E : Env) : Json → V1.FileContractRevision → Prop :=
  struct [member "parentID" (·.parentId) id, member "unlockConditions" (·.unlockConditions) unlockConditions,
    member "revisionNumber" (·.revisionNumber) u64, member "filesize" (·.fileSize) u64, member "fileMerkleRoot" (·.fileMerkleRoot) id,
    member "windowStart" (·.windowStart) u64, member "windowEnd" (·.windowEnd) u64, member "validProofOutputs" (·.validProofOutputs) (list (siacoinOutput E)),
    member "missedProofOutputs" (·.missedProofOutputs) (list (siacoinOutput E)), member "unlockHash" (·.unlockHash) (address E)]

def v1StorageProof : Json → V1.StorageProof → Prop :=
  struct [member "parentID" (·.parentId) id, member "leaf" (·.leaf) leaf, member "proof" (·.proof) (list id)]

def coveredFields : Json → V1.CoveredFields → Prop :=
  struct [member "wholeTransaction" (·.wholeTransaction) bool, orEmpty "siacoinInputs" (·.siacoinInputs) (list u64),
    orEmpty "siacoinOutputs" (·.siacoinOutputs) (list u64), orEmpty "fileContracts" (·.fileContracts) (list u64),
    orEmpty "fileContractRevisions" (·.fileContractRevisions) (list u64), orEmpty "storageProofs" (·.storageProofs) (list u64),
    orEmpty "siafundInputs" (·.siafundInputs) (list u64), orEmpty "siafundOutputs" (·.siafundOutputs) (list u64),
    orEmpty "minerFees" (·.minerFees) (list u64), orEmpty "arbitraryData" (·.arbitraryData) (list u64), orEmpty "signatures" (·.signatures) (list u64)]

def transactionSignature : Json → V1.TransactionSignature → Prop :=
  struct [member "parentID" (·.parentId) id, member "publicKeyIndex" (·.publicKeyIndex) u64, member "timelock" (·.timelock) u64,
    member "coveredFields" (·.coveredFields) coveredFields, member "signature" (·.signature) bytes]

def v1Transaction (E : Env) : Json → V1.Transaction → Prop :=
  struct [orEmpty "siacoinInputs" (·.siacoinInputs) (list v1SiacoinInput), orEmpty "siacoinOutputs" (·.siacoinOutputs) (list (siacoinOutput E)),
    orEmpty "fileContracts" (·.fileContracts) (list (v1FileContract E)),
    orEmpty "fileContractRevisions" (·.fileContractRevisions) (list (v1FileContractRevision E)),
    orEmpty "storageProofs" (·.storageProofs) (list v1StorageProof), orEmpty "siafundInputs" (·.siafundInputs) (list (v1SiafundInput E)),
    orEmpty "siafundOutputs" (·.siafundOutputs) (list (siafundOutput E)), orEmpty "minerFees" (·.minerFees) (list (currency E)),
    orEmpty "arbitraryData" (·.arbitraryData) (list bytes), orEmpty "signatures" (·.signatures) (list transactionSignature)]

def block (E : Env) : Json → Block → Prop :=
  struct [member "parentID" (·.parentId) id, member "nonce" (·.nonce) u64, member "timestamp" (·.timestamp) (time E),
    member "minerPayouts" (·.minerPayouts) (list (siacoinOutput E)), member "transactions" (·.transactions) (list (v1Transaction E))]

/-! ## v2 -/

/-- The parts of a threshold. -/
def threshold (sub : Json → SpendPolicy → Prop) : Json → UInt8 × List SpendPolicy → Prop := struct [member "n" (·.1) u8, member "of" (·.2) (list sub)]

/-- What the member "policy" says; `sub` is for the policies of a threshold. -/
def condition (E : Env) (sub : Json → SpendPolicy → Prop) (v : Json) : SpendPolicy → Prop
  | .above h => u64 v h
  | .after t => ∃ n : U64, v = .nat n ∧ t = ⟨n.toInt, 0⟩ ∧ -377705116800 ≤ t.secs ∧ t.secs ≤ 253402300799
  | .publicKey k => key v k
  | .hash h => id v h
  | .opaqueAddr a => address E v a
  | .unlockConditions uc => unlockConditions v uc
  | .threshold n of => threshold sub v (n, of)

/-- A policy nested at most this deep: an object with no other members than "type" and "policy".  All types are strings; the last of each counts.  The condition
is read from a `Value`, in which of several members of the same name only the last is kept. -/
def policy (E : Env) : Nat → Json → SpendPolicy → Prop
  | 0, _, _ => False
  | d + 1, j, p => ∃ m v, j = .obj m ∧ (∀ q ∈ m, q.1 = "type" ∨ q.1 = "policy") ∧ (∀ t ∈ valuesOf "type" m, ∃ s, t = .str s) ∧
      (valuesOf "type" m).getLast? = some (.str p.kind) ∧ (valuesOf "policy" m).getLast? = some v ∧ condition E (policy E d) v.norm p

def satisfiedPolicy (E : Env) : Json → SatisfiedPolicy → Prop :=
  struct [member "policy" (·.policy) (policy E E.stack), orEmpty "signatures" (·.signatures) (list signature), orEmpty "preimages" (·.preimages) (list id)]

def attestation : Json → V2.Attestation → Prop :=
  struct [member "publicKey" (·.publicKey) key, member "key" (·.key) string, member "value" (·.value) bytes, member "signature" (·.signature) signature]

def v2FileContract (E : Env) : Json → V2.FileContract → Prop :=
  struct [member "capacity" (·.capacity) u64, member "filesize" (·.filesize) u64, member "fileMerkleRoot" (·.fileMerkleRoot) id,
    member "proofHeight" (·.proofHeight) u64, member "expirationHeight" (·.expirationHeight) u64, member "renterOutput" (·.renterOutput) (siacoinOutput E),
    member "hostOutput" (·.hostOutput) (siacoinOutput E), member "missedHostValue" (·.missedHostValue) (currency E),
    member "totalCollateral" (·.totalCollateral) (currency E), member "renterPublicKey" (·.renterPublicKey) key,
    member "hostPublicKey" (·.hostPublicKey) key, member "revisionNumber" (·.revisionNumber) u64, member "renterSignature" (·.renterSignature) signature,
    member "hostSignature" (·.hostSignature) signature]

def siacoinElement (E : Env) : Json → V2.SiacoinElement → Prop :=
  struct [member "stateElement" (·.stateElement) stateElement, member "id" (·.id) id, member "siacoinOutput" (·.siacoinOutput) (siacoinOutput E),
    member "maturityHeight" (·.maturityHeight) u64]

def siafundElement (E : Env) : Json → V2.SiafundElement → Prop :=
  struct [member "stateElement" (·.stateElement) stateElement, member "id" (·.id) id, member "siafundOutput" (·.siafundOutput) (siafundOutput E),
    member "claimStart" (·.claimStart) (currency E)]

def fileContractElement (E : Env) : Json → V2.FileContractElement → Prop :=
  struct [member "stateElement" (·.stateElement) stateElement, member "id" (·.id) id, member "v2FileContract" (·.fileContract) (v2FileContract E)]

def chainIndexElement : Json → V2.ChainIndexElement → Prop :=
  struct [member "stateElement" (·.stateElement) stateElement, member "id" (·.id) id, member "chainIndex" (·.chainIndex) chainIndex]

def v2SiacoinInput (E : Env) : Json → V2.SiacoinInput → Prop :=
  struct [member "parent" (·.parent) (siacoinElement E), member "satisfiedPolicy" (·.satisfiedPolicy) (satisfiedPolicy E)]

def v2SiafundInput (E : Env) : Json → V2.SiafundInput → Prop :=
  struct [member "parent" (·.parent) (siafundElement E), member "claimAddress" (·.claimAddress) (address E),
    member "satisfiedPolicy" (·.satisfiedPolicy) (satisfiedPolicy E)]

def v2FileContractRevision (E : Env) : Json → V2.FileContractRevision → Prop :=
  struct [member "parent" (·.parent) (fileContractElement E), member "revision" (·.revision) (v2FileContract E)]

def renewal (E : Env) : Json → V2.FileContractRenewal → Prop :=
  struct [member "finalRevision" (·.finalRevision) (v2FileContract E), member "newContract" (·.newContract) (v2FileContract E),
    member "renterRollover" (·.renterRollover) (currency E), member "hostRollover" (·.hostRollover) (currency E),
    member "renterSignature" (·.renterSignature) signature, member "hostSignature" (·.hostSignature) signature]

def v2StorageProof : Json → V2.StorageProof → Prop :=
  struct [member "proofIndex" (·.proofIndex) chainIndexElement, member "leaf" (·.leaf) leaf, member "proof" (·.proof) (list id)]

/-- The type and the value of a resolution; anything stands for an expiration. -/
def outcome (E : Env) (type : String) (v : Json) : V2.ContractResolution → Prop
  | .renewal r => type = "renewal" ∧ renewal E v r
  | .storageProof s => type = "storageProof" ∧ v2StorageProof v s
  | .expiration => type = "expiration"

/-- A resolution: an object with no other members than these three.  All parents and types must be readable; the last of each counts. -/
def resolution (E : Env) (j : Json) (r : V2.FileContractResolution) : Prop :=
  ∃ m p t v, j = .obj m ∧ (∀ q ∈ m, q.1 = "parent" ∨ q.1 = "type" ∨ q.1 = "resolution") ∧
    (∀ x ∈ valuesOf "parent" m, ∃ a, fileContractElement E x a) ∧ (∀ x ∈ valuesOf "type" m, ∃ s, x = .str s) ∧
    (valuesOf "parent" m).getLast? = some p ∧ (valuesOf "type" m).getLast? = some (.str t) ∧ (valuesOf "resolution" m).getLast? = some v ∧
    fileContractElement E p r.parent ∧ outcome E t v.norm r.resolution

/-- A resolution on its own: an object with one member, the variant; an expiration has the empty array for it. -/
def contractResolution (E : Env) (j : Json) : V2.ContractResolution → Prop
  | .renewal r => ∃ v, j = .obj [("renewal", v)] ∧ renewal E v r
  | .storageProof s => ∃ v, j = .obj [("storageProof", v)] ∧ v2StorageProof v s
  | .expiration => j = .obj [("expiration", .arr [])]

def v2Transaction (E : Env) : Json → V2.Transaction → Prop :=
  struct [orEmpty "siacoinInputs" (·.siacoinInputs) (list (v2SiacoinInput E)), orEmpty "siacoinOutputs" (·.siacoinOutputs) (list (siacoinOutput E)),
    orEmpty "siafundInputs" (·.siafundInputs) (list (v2SiafundInput E)), orEmpty "siafundOutputs" (·.siafundOutputs) (list (siafundOutput E)),
    orEmpty "fileContracts" (·.fileContracts) (list (v2FileContract E)),
    orEmpty "fileContractRevisions" (·.fileContractRevisions) (list (v2FileContractRevision E)),
    orEmpty "fileContractResolutions" (·.fileContractResolutions) (list (resolution E)), orEmpty "attestations" (·.attestations) (list attestation),
    orEmpty "arbitraryData" (·.arbitraryData) bytes, orNone "newFoundationAddress" (·.newFoundationAddress) (option (address E)),
    member "minerFee" (·.minerFee) (currency E)]

/-! ## Consensus -/

/-- The roots in the order of the one bits of the leaf count, none left over; the zero hash at the zero bits. -/
def accumulator (j : Json) (a : ElementAccumulator) : Prop :=
  ∃ roots : List Hash256, struct [member (α := U64 × List Hash256) "numLeaves" (·.1) u64, member "trees" (·.2) (list id)] j (a.numLeaves, roots) ∧
    roots = (List.range 64).filterMap (fun i => if a.numLeaves.toNat.testBit i then a.trees.1[i]? else none) ∧ a.Normal

def state (E : Env) : Json → State → Prop :=
  struct [member "index" (·.index) chainIndex, member "prevTimestamps" (·.prevTimestamps) (times E), member "depth" (·.depth) id,
    member "childTarget" (·.childTarget) id, member "siafundPool" (·.siafundPool) (currency E), member "oakTime" (·.oakTime) duration,
    member "oakTarget" (·.oakTarget) id, member "foundationPrimaryAddress" (·.foundationPrimaryAddress) (address E),
    member "foundationFailsafeAddress" (·.foundationFailsafeAddress) (address E), member "totalWork" (·.totalWork) work,
    member "difficulty" (·.difficulty) work, member "oakWork" (·.oakWork) work, member "elements" (·.elements) accumulator,
    member "attestations" (·.attestations) u64]

def hardforkDevAddr (E : Env) : Json → HardforkDevAddr → Prop :=
  struct [member "height" (·.height) u64, member "oldAddress" (·.oldAddress) (address E), member "newAddress" (·.newAddress) (address E)]

/-- `HardforkTax`, `HardforkStorageProof`. -/
def hardforkHeight : Json → U64 → Prop := struct [member "height" (fun x => x) u64]

def hardforkOak (E : Env) : Json → HardforkOak → Prop :=
  struct [member "height" (·.height) u64, member "fixHeight" (·.fixHeight) u64, member "genesisTimestamp" (·.genesisTimestamp) (time E)]

def hardforkASIC : Json → HardforkASIC → Prop :=
  struct [member "height" (·.height) u64, member "oakTime" (·.oakTime) duration, member "oakTarget" (·.oakTarget) id]

def hardforkFoundation (E : Env) : Json → HardforkFoundation → Prop :=
  struct [member "height" (·.height) u64, member "primaryAddress" (·.primaryAddress) (address E), member "failsafeAddress" (·.failsafeAddress) (address E)]

def hardforkV2 : Json → HardforkV2 → Prop := struct [member "allowHeight" (·.allowHeight) u64, member "requireHeight" (·.requireHeight) u64]

def network (E : Env) : Json → Network → Prop :=
  struct [member "name" (·.name) string, member "initialCoinbase" (·.initialCoinbase) (currency E), member "minimumCoinbase" (·.minimumCoinbase) (currency E),
    member "initialTarget" (·.initialTarget) id, member "blockInterval" (·.blockInterval) duration, member "maturityDelay" (·.maturityDelay) u64,
    member "hardforkDevAddr" (·.hardforkDevAddr) (hardforkDevAddr E), member "hardforkTax" (·.hardforkTax) hardforkHeight,
    member "hardforkStorageProof" (·.hardforkStorageProof) hardforkHeight, member "hardforkOak" (·.hardforkOak) (hardforkOak E),
    member "hardforkASIC" (·.hardforkASIC) hardforkASIC, member "hardforkFoundation" (·.hardforkFoundation) (hardforkFoundation E),
    member "hardforkV2" (·.hardforkV2) hardforkV2]

def chainState (E : Env) : Json → ChainState → Prop := struct [member "network" (·.network) (network E), member "state" (·.state) (state E)]

end Verif.Says
