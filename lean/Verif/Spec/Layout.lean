import Verif.Spec.Fits
import Verif.Spec.Bytes
import Verif.Spec.Hashing
import Verif.Spec.Merkle

/-!
# The wire formats and hashed strings, byte by byte

A second description of the formats, written from the field lists of the types and the constants of the crate without using
the encoders of the model: what a program in another language has to write to interoperate.
-/

namespace Verif.Layout

/-- The digits of a number in base 256, most significant first, without leading zeros; nothing for zero. -/
def digits (n : Nat) : List UInt8 := if n = 0 then [] else digits (n / 256) ++ [UInt8.ofNat n]
termination_by n
decreasing_by omega

/-- A signed number of at most 64 bits, in two's complement. -/
def signed (n : Int) : List UInt8 := le64 (n % 2 ^ 64).toNat

/-- The bytes of a text. -/
def text (s : String) : List UInt8 := s.toUTF8.data.toList

/-- A sequence: the number of elements, then the elements. -/
def many {α : Type} (f : α → List UInt8) (l : List α) : List UInt8 := le64 l.length ++ (l.map f).flatten

/-- A byte string: its length, then the bytes. -/
def bytes (l : List UInt8) : List UInt8 := le64 l.length ++ l

/-- A value that may be absent. -/
def maybe {α : Type} (f : α → List UInt8) : Option α → List UInt8
  | none => [0]
  | some a => 1 :: f a

/-- An amount: in v1 the length and the digits, in v2 sixteen little-endian bytes. -/
def currency : Ver → Currency → List UInt8
  | .v1, c => bytes (digits c.val.toNat)
  | .v2, c => le128 c.val.toNat

/-- 32 big-endian bytes. -/
def work (w : Work) : List UInt8 := (List.range 32).map fun i => UInt8.ofNat (w.val.toNat / 256 ^ (31 - i))

/-- Seconds since the Unix epoch. -/
def time (t : DateTime) : List UInt8 := signed t.secs

/-- Nanoseconds. -/
def duration (d : Duration) : List UInt8 := signed d.ns

def chainIndex (x : ChainIndex) : List UInt8 := [le64 x.height.toNat, x.id.1].flatten

def siacoinOutput (v : Ver) (x : SiacoinOutput) : List UInt8 := [currency v x.value, x.address.1].flatten

/-- v1: the number of siafunds as an amount, the address and an unused amount of zero. -/
def siafundOutput : Ver → SiafundOutput → List UInt8
  | .v1, x => [bytes (digits x.value.toNat), x.address.1, [0, 0, 0, 0, 0, 0, 0, 0]].flatten
  | .v2, x => [le64 x.value.toNat, x.address.1].flatten

def stateElement (x : StateElement) : List UInt8 := [le64 x.leafIndex.toNat, many (·.1) x.merkleProof].flatten

def unlockKey (x : UnlockKey) : List UInt8 := [x.algorithm.1, bytes x.key].flatten

def unlockConditions (x : UnlockConditions) : List UInt8 :=
  [le64 x.timelock.toNat, many unlockKey x.publicKeys, le64 x.signaturesRequired.toNat].flatten

/-! ## v1 -/

def v1SiacoinInput (x : V1.SiacoinInput) : List UInt8 := [x.parentId.1, unlockConditions x.unlockConditions].flatten

def v1SiafundInput (x : V1.SiafundInput) : List UInt8 :=
  [x.parentId.1, unlockConditions x.unlockConditions, x.claimAddress.1].flatten

def v1FileContract (x : V1.FileContract) : List UInt8 :=
  [le64 x.fileSize.toNat, x.fileMerkleRoot.1, le64 x.windowStart.toNat, le64 x.windowEnd.toNat, currency .v1 x.payout,
    many (siacoinOutput .v1) x.validProofOutputs, many (siacoinOutput .v1) x.missedProofOutputs, x.unlockHash.1,
    le64 x.revisionNumber.toNat].flatten

def v1FileContractRevision (x : V1.FileContractRevision) : List UInt8 :=
  [x.parentId.1, unlockConditions x.unlockConditions, le64 x.revisionNumber.toNat, le64 x.fileSize.toNat, x.fileMerkleRoot.1,
    le64 x.windowStart.toNat, le64 x.windowEnd.toNat, many (siacoinOutput .v1) x.validProofOutputs,
    many (siacoinOutput .v1) x.missedProofOutputs, x.unlockHash.1].flatten

def v1StorageProof (x : V1.StorageProof) : List UInt8 := [x.parentId.1, x.leaf.1, many (·.1) x.proof].flatten

/-- A list of positions. -/
def positions (l : List U64) : List UInt8 := many (fun i => le64 i.toNat) l

def coveredFields (x : V1.CoveredFields) : List UInt8 :=
  [[if x.wholeTransaction then 1 else 0], positions x.siacoinInputs, positions x.siacoinOutputs, positions x.fileContracts,
    positions x.fileContractRevisions, positions x.storageProofs, positions x.siafundInputs, positions x.siafundOutputs,
    positions x.minerFees, positions x.arbitraryData, positions x.signatures].flatten

def transactionSignature (x : V1.TransactionSignature) : List UInt8 :=
  [x.parentId.1, le64 x.publicKeyIndex.toNat, le64 x.timelock.toNat, coveredFields x.coveredFields, bytes x.signature].flatten

/-- Everything but the signatures: what the ID of a v1 transaction hashes. -/
def v1Unsigned (x : V1.Transaction) : List UInt8 :=
  [many v1SiacoinInput x.siacoinInputs, many (siacoinOutput .v1) x.siacoinOutputs, many v1FileContract x.fileContracts,
    many v1FileContractRevision x.fileContractRevisions, many v1StorageProof x.storageProofs,
    many v1SiafundInput x.siafundInputs, many (siafundOutput .v1) x.siafundOutputs, many (currency .v1) x.minerFees,
    many bytes x.arbitraryData].flatten

def v1Transaction (x : V1.Transaction) : List UInt8 := v1Unsigned x ++ many transactionSignature x.signatures

def block (x : Block) : List UInt8 :=
  [x.parentId.1, le64 x.nonce.toNat, time x.timestamp, many (siacoinOutput .v1) x.minerPayouts,
    many v1Transaction x.transactions].flatten

/-! ## v2 -/

mutual

/-- A policy without the version byte. -/
def subPolicy : SpendPolicy → List UInt8
  | .above h => 1 :: le64 h.toNat
  | .after t => 2 :: time t
  | .publicKey k => 3 :: k.1
  | .hash h => 4 :: h.1
  | .threshold n of => 5 :: n :: UInt8.ofNat of.length :: subPolicies of
  | .opaqueAddr a => 6 :: a.1
  | .unlockConditions uc => 7 :: unlockConditions uc

/-- Policies one after the other. -/
def subPolicies : List SpendPolicy → List UInt8
  | [] => []
  | p :: ps => subPolicy p ++ subPolicies ps

end

def policy (p : SpendPolicy) : List UInt8 := 1 :: subPolicy p

def satisfiedPolicy (x : SatisfiedPolicy) : List UInt8 :=
  [policy x.policy, many (·.1) x.signatures, many (·.1) x.preimages].flatten

def attestation (x : V2.Attestation) : List UInt8 := [x.publicKey.1, bytes (text x.key), bytes x.value, x.signature.1].flatten

/-- The fields of a contract before the signatures. -/
def contractTerms (x : V2.FileContract) : List UInt8 :=
  [le64 x.capacity.toNat, le64 x.filesize.toNat, x.fileMerkleRoot.1, le64 x.proofHeight.toNat, le64 x.expirationHeight.toNat,
    siacoinOutput .v2 x.renterOutput, siacoinOutput .v2 x.hostOutput, le128 x.missedHostValue.val.toNat,
    le128 x.totalCollateral.val.toNat, x.renterPublicKey.1, x.hostPublicKey.1, le64 x.revisionNumber.toNat].flatten

def v2FileContract (x : V2.FileContract) : List UInt8 := [contractTerms x, x.renterSignature.1, x.hostSignature.1].flatten

def siacoinElement (x : V2.SiacoinElement) : List UInt8 :=
  [stateElement x.stateElement, x.id.1, siacoinOutput .v2 x.siacoinOutput, le64 x.maturityHeight.toNat].flatten

def siafundElement (x : V2.SiafundElement) : List UInt8 :=
  [stateElement x.stateElement, x.id.1, siafundOutput .v2 x.siafundOutput, le128 x.claimStart.val.toNat].flatten

def fileContractElement (x : V2.FileContractElement) : List UInt8 :=
  [stateElement x.stateElement, x.id.1, v2FileContract x.fileContract].flatten

def chainIndexElement (x : V2.ChainIndexElement) : List UInt8 :=
  [stateElement x.stateElement, x.id.1, chainIndex x.chainIndex].flatten

def v2SiacoinInput (x : V2.SiacoinInput) : List UInt8 := [siacoinElement x.parent, satisfiedPolicy x.satisfiedPolicy].flatten

def v2SiafundInput (x : V2.SiafundInput) : List UInt8 :=
  [siafundElement x.parent, x.claimAddress.1, satisfiedPolicy x.satisfiedPolicy].flatten

def v2FileContractRevision (x : V2.FileContractRevision) : List UInt8 :=
  [fileContractElement x.parent, v2FileContract x.revision].flatten

def renewal (x : V2.FileContractRenewal) : List UInt8 :=
  [v2FileContract x.finalRevision, v2FileContract x.newContract, le128 x.renterRollover.val.toNat,
    le128 x.hostRollover.val.toNat, x.renterSignature.1, x.hostSignature.1].flatten

def v2StorageProof (x : V2.StorageProof) : List UInt8 :=
  [chainIndexElement x.proofIndex, x.leaf.1, many (·.1) x.proof].flatten

def resolution (x : V2.FileContractResolution) : List UInt8 :=
  fileContractElement x.parent ++ match x.resolution with
    | .renewal r => 0 :: renewal r
    | .storageProof p => 1 :: v2StorageProof p
    | .expiration => [2]

/-- The number whose `i`-th bit tells whether the `i`-th field is there. -/
def bitField : List Bool → Nat
  | [] => 0
  | b :: bs => (if b then 1 else 0) + 2 * bitField bs

/-- The fields of a v2 transaction in order: whether the field is there, and its bytes. -/
def v2Fields (t : V2.Transaction) : List (Bool × List UInt8) :=
  [(decide (t.siacoinInputs ≠ []), many v2SiacoinInput t.siacoinInputs),
    (decide (t.siacoinOutputs ≠ []), many (siacoinOutput .v2) t.siacoinOutputs),
    (decide (t.siafundInputs ≠ []), many v2SiafundInput t.siafundInputs),
    (decide (t.siafundOutputs ≠ []), many (siafundOutput .v2) t.siafundOutputs),
    (decide (t.fileContracts ≠ []), many v2FileContract t.fileContracts),
    (decide (t.fileContractRevisions ≠ []), many v2FileContractRevision t.fileContractRevisions),
    (decide (t.fileContractResolutions ≠ []), many resolution t.fileContractResolutions),
    (decide (t.attestations ≠ []), many attestation t.attestations),
    (decide (t.arbitraryData ≠ []), bytes t.arbitraryData),
    (decide (t.newFoundationAddress ≠ none), (t.newFoundationAddress.map (·.1)).getD []),
    (decide (t.minerFee.val ≠ 0), le128 t.minerFee.val.toNat)]

/-- A version byte 2, the bit field and the fields that are there. -/
def v2Transaction (t : V2.Transaction) : List UInt8 :=
  2 :: le64 (bitField ((v2Fields t).map (·.1))) ++ ((v2Fields t).filter (·.1)).flatMap (·.2)

/-! ## Chain state -/

/-- The leaf count and, for each of its one bits from the lowest, the root of that tree. -/
def accumulator (x : ElementAccumulator) : List UInt8 :=
  le64 x.numLeaves.toNat ++ (List.range 64).flatMap fun i =>
    if x.numLeaves.toNat.testBit i then (x.trees.1[i]?.map (·.1)).getD [] else []

/-- Of the timestamps the first `height + 1` are written, at most eleven. -/
def state (x : State) : List UInt8 :=
  [chainIndex x.index, (x.prevTimestamps.1.take (x.index.height.toNat + 1)).flatMap time, x.depth.1, x.childTarget.1,
    le128 x.siafundPool.val.toNat, duration x.oakTime, x.oakTarget.1, x.foundationPrimaryAddress.1,
    x.foundationFailsafeAddress.1, work x.totalWork, work x.difficulty, work x.oakWork, accumulator x.elements,
    le64 x.attestations.toNat].flatten

/-! ## Hashed strings -/

/-- A name of at most sixteen bytes, padded with zeros. -/
def name (s : String) : List UInt8 := text s ++ List.replicate (16 - (text s).length) 0

/-- What is hashed to derive an identifier. -/
def derivation : Derivation → List UInt8
  | .claim id => id.1
  | .v2Claim id => text "sia/id/v2siacoinclaimoutput|" ++ id.1
  | .foundation id => id.1 ++ name "foundation"
  | .miner id i => id.1 ++ le64 i.toNat
  | .v2Siacoin id i => text "sia/id/siacoinoutput|" ++ id.1 ++ le64 i.toNat
  | .v2Siafund id i => text "sia/id/siafundoutput|" ++ id.1 ++ le64 i.toNat
  | .v2FileContract id i => text "sia/id/filecontract|" ++ id.1 ++ le64 i.toNat
  | .v2Attestation id i => text "sia/id/attestation|" ++ id.1 ++ le64 i.toNat
  | .valid id i => name "storage proof" ++ id.1 ++ [1] ++ le64 i.toNat
  | .missed id i => name "storage proof" ++ id.1 ++ [0] ++ le64 i.toNat
  | .v2Renter id => text "id/v2filecontractoutput" ++ id.1 ++ [0, 0, 0, 0, 0, 0, 0, 0]
  | .v2Host id => text "id/v2filecontractoutput" ++ id.1 ++ [1, 0, 0, 0, 0, 0, 0, 0]
  | .v2Renewal id => text "id/v2filecontractrenewal" ++ id.1
  | .siacoin t i => name "siacoin output" ++ v1Unsigned t ++ le64 i.toNat
  | .siafund t i => name "siafund output" ++ v1Unsigned t ++ le64 i.toNat
  | .fileContract t i => name "file contract" ++ v1Unsigned t ++ le64 i.toNat

/-- Inputs with the replay prefix before each. -/
def prefixed {α : Type} (pre : List UInt8) (f : α → List UInt8) (l : List α) : List UInt8 := many (fun a => pre ++ f a) l

/-- What a signature over a whole v1 transaction signs the hash of. -/
def wholeTransaction (pre : List UInt8) (x : V1.Transaction) (parentId : Arr 32) (publicKeyIndex timelock : U64) : List UInt8 :=
  [prefixed pre v1SiacoinInput x.siacoinInputs, many (siacoinOutput .v1) x.siacoinOutputs,
    many v1FileContract x.fileContracts, many v1FileContractRevision x.fileContractRevisions,
    many v1StorageProof x.storageProofs, prefixed pre v1SiafundInput x.siafundInputs,
    many (siafundOutput .v1) x.siafundOutputs, many (currency .v1) x.minerFees, many bytes x.arbitraryData,
    parentId.1, le64 publicKeyIndex.toNat, le64 timelock.toNat].flatten

/-- The selected elements, in the order of the selection; positions that do not exist are left out. -/
def selected {α : Type} (f : α → List UInt8) (l : List α) (sel : List U64) : List UInt8 :=
  (sel.filterMap fun i => l[i.toNat]?).flatMap f

/-- What a signature over selected parts of a v1 transaction signs the hash of. -/
def selectedFields (pre : List UInt8) (x : V1.Transaction) (c : V1.CoveredFields) : List UInt8 :=
  [selected (fun a => pre ++ v1SiacoinInput a) x.siacoinInputs c.siacoinInputs,
    selected (siacoinOutput .v1) x.siacoinOutputs c.siacoinOutputs, selected v1FileContract x.fileContracts c.fileContracts,
    selected v1FileContractRevision x.fileContractRevisions c.fileContractRevisions,
    selected v1StorageProof x.storageProofs c.storageProofs,
    selected (fun a => pre ++ v1SiafundInput a) x.siafundInputs c.siafundInputs,
    selected (siafundOutput .v1) x.siafundOutputs c.siafundOutputs, selected (currency .v1) x.minerFees c.minerFees,
    selected bytes x.arbitraryData c.arbitraryData, selected transactionSignature x.signatures c.signatures].flatten

/-- Sixty-four zero bytes in the place of a signature. -/
def noSignature : List UInt8 := List.replicate 64 0

/-- A contract with blank signatures. -/
def unsignedContract (x : V2.FileContract) : List UInt8 := contractTerms x ++ noSignature ++ noSignature

/-- A renewal with blank signatures. -/
def unsignedRenewal (x : V2.FileContractRenewal) : List UInt8 :=
  [unsignedContract x.finalRevision, unsignedContract x.newContract, le128 x.renterRollover.val.toNat,
    le128 x.hostRollover.val.toNat, noSignature, noSignature].flatten

/-- What a resolution contributes to the hash of a v2 transaction; the Merkle proof of the chain index is blank. -/
def unsignedResolution (x : V2.FileContractResolution) : List UInt8 :=
  x.parent.id.1 ++ match x.resolution with
    | .renewal r => unsignedRenewal r
    | .storageProof p => [le64 p.proofIndex.stateElement.leafIndex.toNat, [0, 0, 0, 0, 0, 0, 0, 0], p.proofIndex.id.1,
        chainIndex p.proofIndex.chainIndex, p.leaf.1, many (·.1) p.proof].flatten
    | .expiration => []

/-- What the ID of a v2 transaction hashes. -/
def v2Effects (t : V2.Transaction) : List UInt8 :=
  [many (fun i : V2.SiacoinInput => i.parent.id.1) t.siacoinInputs, many (siacoinOutput .v2) t.siacoinOutputs,
    many (fun i : V2.SiafundInput => i.parent.id.1) t.siafundInputs, many (siafundOutput .v2) t.siafundOutputs,
    many unsignedContract t.fileContracts,
    many (fun r : V2.FileContractRevision => r.parent.id.1 ++ unsignedContract r.revision) t.fileContractRevisions,
    many unsignedResolution t.fileContractResolutions, many attestation t.attestations, bytes t.arbitraryData,
    maybe (·.1) t.newFoundationAddress, le128 t.minerFee.val.toNat].flatten

/-- What is hashed for a v2 signature. -/
def signedMessage (pre : List UInt8) : Signed → List UInt8
  | .attestation a => text "sia/sig/attestation|" ++ pre ++
      [a.publicKey.1, bytes (text a.key), bytes a.value, noSignature].flatten
  | .contract c => text "sia/sig/filecontract|" ++ pre ++ unsignedContract c
  | .renewal r => text "sia/sig/filecontractrenewal|" ++ pre ++ unsignedRenewal r
  | .input t => text "sia/sig/input|" ++ pre ++ v2Effects t

/-- The replay prefix: a byte for the latest of the three hardforks the tip has reached. -/
def replay (cs : ChainState) : List UInt8 :=
  (([(cs.network.hardforkV2.allowHeight, 2), (cs.network.hardforkFoundation.height, 1), (cs.network.hardforkASIC.height, 0)].find?
    fun p : U64 × UInt8 => p.1.toNat ≤ cs.state.index.height.toNat).map (·.2)).toList

/-- The strings hashed to obtain the leaves of the tree whose root is the address of unlock conditions. -/
def conditionLeaves (uc : UnlockConditions) : List (List UInt8) :=
  [0 :: le64 uc.timelock.toNat] ++ uc.publicKeys.map (fun k => 0 :: unlockKey k) ++ [0 :: le64 uc.signaturesRequired.toNat]

mutual

/-- The address of a policy: the hash of its encoding after a prefix, except that thresholds are hashed with their children
replaced by opaque policies, opaque policies are their address and unlock conditions have the address they have in v1. -/
inductive AddressOf (H : Hasher) : SpendPolicy → Address → Prop
  | above (h : U64) : AddressOf H (.above h) (H (text "sia/address|" ++ [1, 1] ++ le64 h.toNat))
  | after (t : DateTime) : AddressOf H (.after t) (H (text "sia/address|" ++ [1, 2] ++ signed t.secs))
  | publicKey (k : PublicKey) : AddressOf H (.publicKey k) (H (text "sia/address|" ++ [1, 3] ++ k.1))
  | hash (h : Hash256) : AddressOf H (.hash h) (H (text "sia/address|" ++ [1, 4] ++ h.1))
  | threshold (n : UInt8) (of : List SpendPolicy) (as : List Address) : AddressesOf H of as →
      AddressOf H (.threshold n of)
        (H (text "sia/address|" ++ [1, 5, n, UInt8.ofNat of.length] ++ as.flatMap fun a => 6 :: a.1))
  | opaqueAddr (a : Address) : AddressOf H (.opaqueAddr a) a
  | unlockConditions (uc : UnlockConditions) (a : Address) : uc.publicKeys.length + 2 < 2 ^ 64 →
      IsAccumulatorRoot H ((conditionLeaves uc).map H) a → AddressOf H (.unlockConditions uc) a

inductive AddressesOf (H : Hasher) : List SpendPolicy → List Address → Prop
  | nil : AddressesOf H [] []
  | cons (p : SpendPolicy) (ps : List SpendPolicy) (a : Address) (as : List Address) : AddressOf H p a → AddressesOf H ps as →
      AddressesOf H (p :: ps) (a :: as)

end

end Verif.Layout

namespace Verif

/-- Values are written in the given layout and read back from it, whatever follows. -/
def HasLayout (v : Ver) {α : Type} [Codec v α] [Fits α] (f : α → List UInt8) : Prop :=
  (∀ a : α, enc v a = f a) ∧
  ∀ (lim : Lim) (a : α) (rest : List UInt8), fits lim a → (dec v : Dec α) lim (f a ++ rest) = .ok (a, rest)

/-- Values are written in the given layout and nothing else is read as a value. -/
def HasExactLayout (v : Ver) {α : Type} [Codec v α] [Fits α] (f : α → List UInt8) : Prop :=
  HasLayout v f ∧
  ∀ (lim : Lim) (bs rest : List UInt8) (a : α), (dec v : Dec α) lim bs = .ok (a, rest) → bs = f a ++ rest

end Verif
