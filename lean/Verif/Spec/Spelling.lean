import Verif.Spec.Layout

/-!
# Every byte string that is read as a value

`Layout` tells what is written.  The readers accept more than that: amounts of the v1 format may be padded with zeros, the
last amount of a v1 siafund output may be anything, and a v2 transaction may announce fields that are empty or do not exist.
Here a value comes with all its spellings.
-/

namespace Verif.Spelling

open Layout

/-- A set of byte strings. -/
abbrev Form := List UInt8 → Prop

/-- These bytes and no others. -/
def exactly (x : List UInt8) : Form := fun bs => bs = x

/-- Something of each form, one after the other. -/
def concat : List Form → Form
  | [] => exactly []
  | P :: Ps => fun bs => ∃ x y, bs = x ++ y ∧ P x ∧ concat Ps y

/-- A v1 amount: the number of digits, at most sixteen, and the digits in base 256, which may begin with zeros. -/
def amount (n : Nat) : Form := fun bs => ∃ ds, ds.length ≤ 16 ∧ beNat ds = n ∧ bs = bytes ds

/-- A v1 amount, no matter which. -/
def anyAmount : Form := fun bs => ∃ n, amount n bs

/-- A value spelled in its layout only, provided that the reader has room for it. -/
def plain {α : Type} [Fits α] (lim : Lim) (f : α → List UInt8) (a : α) : Form := fun bs => fits lim a ∧ bs = f a

/-- A sequence with elements spelled in any of their forms. -/
def many {α : Type} (lim : Lim) (S : α → Form) (l : List α) : Form := fun bs =>
  l.length ≤ lim.cap ∧ l.length < 2 ^ 64 ∧ concat (exactly (le64 l.length) :: l.map S) bs

def siacoinOutput (x : SiacoinOutput) : Form := concat [amount x.value.val.toNat, exactly x.address.1]

def siafundOutput (x : SiafundOutput) : Form := concat [amount x.value.toNat, exactly x.address.1, anyAmount]

def fileContract (lim : Lim) (x : V1.FileContract) : Form :=
  concat [exactly (le64 x.fileSize.toNat), exactly x.fileMerkleRoot.1, exactly (le64 x.windowStart.toNat),
    exactly (le64 x.windowEnd.toNat), amount x.payout.val.toNat, many lim siacoinOutput x.validProofOutputs,
    many lim siacoinOutput x.missedProofOutputs, exactly x.unlockHash.1, exactly (le64 x.revisionNumber.toNat)]

def fileContractRevision (lim : Lim) (x : V1.FileContractRevision) : Form :=
  concat [exactly x.parentId.1, plain lim unlockConditions x.unlockConditions, exactly (le64 x.revisionNumber.toNat),
    exactly (le64 x.fileSize.toNat), exactly x.fileMerkleRoot.1, exactly (le64 x.windowStart.toNat),
    exactly (le64 x.windowEnd.toNat), many lim siacoinOutput x.validProofOutputs,
    many lim siacoinOutput x.missedProofOutputs, exactly x.unlockHash.1]

def v1Transaction (lim : Lim) (x : V1.Transaction) : Form :=
  concat [plain lim (Layout.many v1SiacoinInput) x.siacoinInputs, many lim siacoinOutput x.siacoinOutputs,
    many lim (fileContract lim) x.fileContracts, many lim (fileContractRevision lim) x.fileContractRevisions,
    plain lim (Layout.many v1StorageProof) x.storageProofs, plain lim (Layout.many v1SiafundInput) x.siafundInputs,
    many lim siafundOutput x.siafundOutputs, many lim (fun c : Currency => amount c.val.toNat) x.minerFees,
    plain lim (Layout.many bytes) x.arbitraryData, plain lim (Layout.many transactionSignature) x.signatures]

def block (lim : Lim) (x : Block) : Form :=
  concat [exactly x.parentId.1, exactly (le64 x.nonce.toNat), plain lim time x.timestamp,
    many lim siacoinOutput x.minerPayouts, many lim (v1Transaction lim) x.transactions]

/-- A field of a v2 transaction: written if it is announced, even if it is empty, and otherwise empty. -/
def field (announced : Bool) (written : Form) (isEmpty : Prop) : Form := fun bs =>
  if announced then written bs else isEmpty ∧ bs = []

/-- The fields of a v2 transaction, announced by the lowest eleven bits of a number. -/
def v2Fields (lim : Lim) (bits : Nat) (x : V2.Transaction) : List Form :=
  [field (bits.testBit 0) (plain lim (Layout.many v2SiacoinInput) x.siacoinInputs) (x.siacoinInputs = []),
    field (bits.testBit 1) (plain lim (Layout.many (Layout.siacoinOutput .v2)) x.siacoinOutputs) (x.siacoinOutputs = []),
    field (bits.testBit 2) (plain lim (Layout.many v2SiafundInput) x.siafundInputs) (x.siafundInputs = []),
    field (bits.testBit 3) (plain lim (Layout.many (Layout.siafundOutput .v2)) x.siafundOutputs) (x.siafundOutputs = []),
    field (bits.testBit 4) (plain lim (Layout.many v2FileContract) x.fileContracts) (x.fileContracts = []),
    field (bits.testBit 5) (plain lim (Layout.many v2FileContractRevision) x.fileContractRevisions)
      (x.fileContractRevisions = []),
    field (bits.testBit 6) (plain lim (Layout.many resolution) x.fileContractResolutions) (x.fileContractResolutions = []),
    field (bits.testBit 7) (plain lim (Layout.many attestation) x.attestations) (x.attestations = []),
    field (bits.testBit 8) (plain lim bytes x.arbitraryData) (x.arbitraryData = []),
    field (bits.testBit 9) (fun bs => ∃ a, x.newFoundationAddress = some a ∧ bs = a.1) (x.newFoundationAddress = none),
    field (bits.testBit 10) (exactly (le128 x.minerFee.val.toNat)) (x.minerFee = ⟨0⟩)]

/-- The byte 2, a number of 64 bits, of which those beyond the lowest eleven mean nothing, and the announced fields. -/
def v2Transaction (lim : Lim) (x : V2.Transaction) : Form := fun bs => ∃ bits, bits < 2 ^ 64 ∧
  concat (exactly [2] :: exactly (le64 bits) :: v2Fields lim bits x) bs

end Verif.Spelling

namespace Verif

/-- A byte string is read as a value, leaving some bytes, exactly if what comes before them is a spelling of the value. -/
def ReadFrom {α : Type} (lim : Lim) (d : Dec α) (S : α → Spelling.Form) : Prop :=
  ∀ bs a rest, d lim bs = .ok (a, rest) ↔ ∃ used, bs = used ++ rest ∧ S a used

end Verif

namespace Verif

/-- What is written for a value is the only shortest byte string it is read from: writing what was read gives the same bytes
or fewer. -/
def WritesShortest (v : Ver) (α : Type) [Codec v α] : Prop :=
  ∀ (lim : Lim) (bs rest : List UInt8) (a : α), (dec v : Dec α) lim bs = .ok (a, rest) →
    bs = enc v a ++ rest ∨ (enc v a ++ rest).length < bs.length

/-- No byte string from which a value is read is shorter than what is written for it. -/
def WritesShort (v : Ver) (α : Type) [Codec v α] : Prop :=
  ∀ (lim : Lim) (bs rest : List UInt8) (a : α), (dec v : Dec α) lim bs = .ok (a, rest) →
    (enc v a ++ rest).length ≤ bs.length

end Verif
