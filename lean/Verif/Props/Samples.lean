import Verif.Lemmas.Spec

/-!
# Concrete values used to show that hypotheses can be met
-/

namespace Verif.Sample

/-- A machine with a small allocation limit and stack. -/
def lim : Lim := ⟨100, 8⟩

def h (b : UInt8) : Arr 32 := ⟨List.replicate 32 b, by simp⟩
def sig (b : UInt8) : Arr 64 := ⟨List.replicate 64 b, by simp⟩
/-- The specifier "ed25519". -/
def ed25519 : Specifier := ⟨[101, 100, 50, 53, 53, 49, 57, 0, 0, 0, 0, 0, 0, 0, 0, 0], rfl⟩
def uc : UnlockConditions := ⟨7, [⟨ed25519, List.replicate 32 9⟩, ⟨ed25519, []⟩], 1⟩

def policy : SpendPolicy := .threshold 2 [.above 5, .after ⟨1700000000, 0⟩, .threshold 1 [.publicKey (h 1), .hash (h 2)],
  .opaqueAddr (h 3)]

def sco : SiacoinOutput := ⟨⟨1000000000000000000000000⟩, h 4⟩
def sfo : SiafundOutput := ⟨25, h 5⟩
def se : StateElement := ⟨12, [h 6, h 7]⟩

def v1fc : V1.FileContract := ⟨1, h 1, 2, 3, ⟨4⟩, [sco], [sco, sco], h 2, 5⟩
def v1fcr : V1.FileContractRevision := ⟨h 1, uc, 2, 3, h 4, 5, 6, [sco], [], h 7⟩
def covered : V1.CoveredFields := ⟨false, [0], [0, 1], [], [], [], [], [], [0], [], []⟩
def v1txn : V1.Transaction :=
  { siacoinInputs := [⟨h 1, uc⟩]
    siacoinOutputs := [sco, ⟨⟨0⟩, h 9⟩]
    fileContracts := [v1fc]
    fileContractRevisions := [v1fcr]
    storageProofs := [⟨h 1, sig 2, [h 3]⟩]
    siafundInputs := [⟨h 2, uc, h 3⟩]
    siafundOutputs := [sfo]
    minerFees := [⟨3⟩, ⟨340282366920938463463374607431768211455⟩]
    arbitraryData := [[1, 2, 3], []]
    signatures := [⟨h 1, 0, 0, covered, [1, 2]⟩] }

def block : Block := ⟨h 1, 2, ⟨1433600000, 0⟩, [sco], [v1txn]⟩

def v2fc : V2.FileContract := ⟨1, 2, h 3, 4, 5, sco, sco, ⟨6⟩, ⟨7⟩, h 8, h 9, 10, sig 11, sig 12⟩
def fce : V2.FileContractElement := ⟨se, h 1, v2fc⟩
def sp : SatisfiedPolicy := ⟨policy, [sig 1, sig 2], [h 3]⟩
def attestation : V2.Attestation := ⟨h 1, "HostAnnouncement", [1, 2], sig 3⟩

def v2txn : V2.Transaction :=
  { siacoinInputs := [⟨⟨se, h 1, sco, 5⟩, sp⟩]
    siacoinOutputs := [sco]
    siafundInputs := [⟨⟨se, h 1, sfo, ⟨5⟩⟩, h 2, ⟨.unlockConditions uc, [], []⟩⟩]
    siafundOutputs := [sfo]
    fileContracts := [v2fc]
    fileContractRevisions := [⟨fce, v2fc⟩]
    fileContractResolutions := [⟨fce, .renewal ⟨v2fc, v2fc, ⟨1⟩, ⟨2⟩, sig 1, sig 2⟩⟩,
      ⟨fce, .storageProof ⟨⟨se, h 1, ⟨2, h 3⟩⟩, sig 4, [h 5]⟩⟩, ⟨fce, .expiration⟩]
    attestations := [attestation]
    arbitraryData := [1, 2, 3]
    newFoundationAddress := some (h 7)
    minerFee := ⟨9⟩ }

def accumulator : ElementAccumulator := ⟨5, ⟨h 1 :: h 0 :: h 3 :: List.replicate 61 (h 0), by simp⟩⟩

def state : State :=
  { index := ⟨2, h 1⟩
    prevTimestamps := ⟨⟨1433600000, 0⟩ :: ⟨1433600600, 0⟩ :: ⟨1433601200, 0⟩ :: List.replicate 8 ⟨0, 0⟩, by simp⟩
    depth := h 1, childTarget := h 2, siafundPool := ⟨3⟩, oakTime := ⟨5⟩, oakTarget := h 4
    foundationPrimaryAddress := h 5, foundationFailsafeAddress := h 6
    totalWork := ⟨7⟩, difficulty := ⟨8⟩, oakWork := ⟨9⟩, elements := accumulator, attestations := 10 }

theorem fits_uc : fits lim uc := by simp [fits, Struct.fields, uc, lim]
theorem fits_policy : fits lim policy := by simp [fits, policyFits, policy, lim]
theorem fits_v1txn : fits lim v1txn := by
  simp [fits, Struct.fields, v1txn, lim, uc, v1fc, v1fcr, covered]
theorem fits_block : fits lim block := by
  simp [fits, Struct.fields, block, v1txn, lim, uc, v1fc, v1fcr, covered]
theorem fits_v2txn : fits lim v2txn := by
  simp [fits, Struct.fields, v2txn, lim, uc, v2fc, fce, sp, se, attestation, policyFits, policy]
  decide
theorem fits_accumulator : fits lim accumulator := by
  show ∀ i (h : i < 64), _
  decide +kernel
theorem fits_state : stateFits lim state := by
  refine ⟨by decide, ?_, by simp [fits, state], fits_accumulator⟩
  show ∀ i (h : i < 11), _
  simp [fits]
  decide +kernel

end Verif.Sample
