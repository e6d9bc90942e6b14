import Verif.Lemmas.Memory
import Verif.Lemmas.Heap
import Verif.Props.Samples

/-!
# The memory that decoding asks for (C71)
-/

namespace Verif

/-- C71: the decoders with account are the decoders. -/
theorem C71_same_decoders :
    Accounts .v2 String ∧ Accounts .v2 ChainIndex ∧ Accounts .v2 SiacoinOutput ∧ Accounts .v2 SiafundOutput ∧ Accounts .v2 StateElement ∧
    Accounts .v2 UnlockKey ∧ Accounts .v2 UnlockConditions ∧ Accounts .v2 SpendPolicy ∧ Accounts .v2 SatisfiedPolicy ∧ Accounts .v2 V2.Attestation ∧
    Accounts .v2 V2.FileContract ∧ Accounts .v2 V2.SiacoinElement ∧ Accounts .v2 V2.SiafundElement ∧ Accounts .v2 V2.FileContractElement ∧
    Accounts .v2 V2.ChainIndexElement ∧ Accounts .v2 V2.SiacoinInput ∧ Accounts .v2 V2.SiafundInput ∧ Accounts .v2 V2.FileContractRevision ∧
    Accounts .v2 V2.FileContractRenewal ∧ Accounts .v2 V2.StorageProof ∧ Accounts .v2 V2.FileContractResolution ∧ Accounts .v2 V2.Transaction ∧
    Accounts .v2 ElementAccumulator ∧ Accounts .v1 SiacoinOutput ∧ Accounts .v1 SiafundOutput ∧ Accounts .v1 UnlockKey ∧ Accounts .v1 UnlockConditions ∧
    Accounts .v1 V1.SiacoinInput ∧ Accounts .v1 V1.SiafundInput ∧ Accounts .v1 V1.FileContract ∧ Accounts .v1 V1.FileContractRevision ∧
    Accounts .v1 V1.StorageProof ∧ Accounts .v1 V1.CoveredFields ∧ Accounts .v1 V1.TransactionSignature ∧ Accounts .v1 V1.Transaction ∧ Accounts .v1 Block :=
  ⟨accounts, accounts, accounts, accounts, accounts, accounts, accounts, accounts, accounts, accounts, accounts, accounts, accounts, accounts, accounts,
    accounts, accounts, accounts, accounts, accounts, accounts, accounts, accounts, accounts, accounts, accounts, accounts, accounts, accounts, accounts,
    accounts, accounts, accounts, accounts, accounts, accounts⟩

/-- C71: decoding a value asks for no more than `S` bytes per byte of it, `S` being the size of the largest element type. -/
theorem C71_value_costs :
    CostsWhatItIs .v2 String ∧ CostsWhatItIs .v2 StateElement ∧ CostsWhatItIs .v2 UnlockKey ∧ CostsWhatItIs .v2 UnlockConditions ∧
    CostsWhatItIs .v2 SpendPolicy ∧ CostsWhatItIs .v2 SatisfiedPolicy ∧ CostsWhatItIs .v2 V2.Attestation ∧ CostsWhatItIs .v2 V2.FileContract ∧
    CostsWhatItIs .v2 V2.SiacoinElement ∧ CostsWhatItIs .v2 V2.SiafundElement ∧ CostsWhatItIs .v2 V2.FileContractElement ∧
    CostsWhatItIs .v2 V2.ChainIndexElement ∧ CostsWhatItIs .v2 V2.SiacoinInput ∧ CostsWhatItIs .v2 V2.SiafundInput ∧
    CostsWhatItIs .v2 V2.FileContractRevision ∧ CostsWhatItIs .v2 V2.FileContractRenewal ∧ CostsWhatItIs .v2 V2.StorageProof ∧
    CostsWhatItIs .v2 V2.FileContractResolution ∧ CostsWhatItIs .v2 V2.Transaction ∧ CostsWhatItIs .v1 UnlockKey ∧ CostsWhatItIs .v1 UnlockConditions ∧
    CostsWhatItIs .v1 V1.SiacoinInput ∧ CostsWhatItIs .v1 V1.SiafundInput ∧ CostsWhatItIs .v1 V1.FileContract ∧ CostsWhatItIs .v1 V1.FileContractRevision ∧
    CostsWhatItIs .v1 V1.StorageProof ∧ CostsWhatItIs .v1 V1.CoveredFields ∧ CostsWhatItIs .v1 V1.TransactionSignature ∧
    CostsWhatItIs .v1 V1.Transaction ∧ CostsWhatItIs .v1 Block :=
  ⟨costsWhatItIs, costsWhatItIs, costsWhatItIs, costsWhatItIs, costsWhatItIs, costsWhatItIs, costsWhatItIs, costsWhatItIs, costsWhatItIs, costsWhatItIs,
    costsWhatItIs, costsWhatItIs, costsWhatItIs, costsWhatItIs, costsWhatItIs, costsWhatItIs, costsWhatItIs, costsWhatItIs, costsWhatItIs, costsWhatItIs,
    costsWhatItIs, costsWhatItIs, costsWhatItIs, costsWhatItIs, costsWhatItIs, costsWhatItIs, costsWhatItIs, costsWhatItIs, costsWhatItIs, costsWhatItIs⟩

/-- C71, exactly: decoding a value asks for what the value occupies behind its vectors and strings. -/
theorem C71_exact :
    CostsItsHeap .v2 String ∧ CostsItsHeap .v2 StateElement ∧ CostsItsHeap .v2 UnlockKey ∧ CostsItsHeap .v2 UnlockConditions ∧
    CostsItsHeap .v2 SpendPolicy ∧ CostsItsHeap .v2 SatisfiedPolicy ∧ CostsItsHeap .v2 V2.Attestation ∧ CostsItsHeap .v2 V2.FileContract ∧
    CostsItsHeap .v2 V2.SiacoinElement ∧ CostsItsHeap .v2 V2.SiafundElement ∧ CostsItsHeap .v2 V2.FileContractElement ∧
    CostsItsHeap .v2 V2.ChainIndexElement ∧ CostsItsHeap .v2 V2.SiacoinInput ∧ CostsItsHeap .v2 V2.SiafundInput ∧
    CostsItsHeap .v2 V2.FileContractRevision ∧ CostsItsHeap .v2 V2.FileContractRenewal ∧ CostsItsHeap .v2 V2.StorageProof ∧
    CostsItsHeap .v2 V2.FileContractResolution ∧ CostsItsHeap .v2 V2.Transaction ∧ CostsItsHeap .v1 UnlockKey ∧ CostsItsHeap .v1 UnlockConditions ∧
    CostsItsHeap .v1 V1.SiacoinInput ∧ CostsItsHeap .v1 V1.SiafundInput ∧ CostsItsHeap .v1 V1.FileContract ∧ CostsItsHeap .v1 V1.FileContractRevision ∧
    CostsItsHeap .v1 V1.StorageProof ∧ CostsItsHeap .v1 V1.CoveredFields ∧ CostsItsHeap .v1 V1.TransactionSignature ∧ CostsItsHeap .v1 V1.Transaction ∧
    CostsItsHeap .v1 Block :=
  ⟨costsItsHeap, costsItsHeap, costsItsHeap, costsItsHeap, costsItsHeap, costsItsHeap, costsItsHeap, costsItsHeap, costsItsHeap, costsItsHeap,
    costsItsHeap, costsItsHeap, costsItsHeap, costsItsHeap, costsItsHeap, costsItsHeap, costsItsHeap, costsItsHeap, costsItsHeap, costsItsHeap,
    costsItsHeap, costsItsHeap, costsItsHeap, costsItsHeap, costsItsHeap, costsItsHeap, costsItsHeap, costsItsHeap, costsItsHeap, costsItsHeap⟩

/-- C71, exactly: a length prefix with nothing after it costs as many elements as it says, of these sizes. -/
theorem C71_element_sizes (v : Ver) (A : Alloc) (M : Machine) (n : Nat) (hg : A.grow = false) (h0 : 0 < n) (hn : n < 2 ^ 64) :
    ((met v A : Met (List UInt8)) M (leBytes 8 n)).1 = n ∧ ((met v A : Met (List U64)) M (leBytes 8 n)).1 = 8 * n ∧
    ((met v A : Met (List Hash256)) M (leBytes 8 n)).1 = 32 * n ∧ ((met v A : Met (List Signature)) M (leBytes 8 n)).1 = 64 * n ∧
    ((met v A : Met (List (List UInt8))) M (leBytes 8 n)).1 = 24 * n ∧ ((met v A : Met String) M (leBytes 8 n)).1 = n := by
  have h1 := met_list_short (v := v) (α := UInt8) (A := A) (M := M) hg h0 hn rfl
  refine ⟨?_, ?_, ?_, ?_, ?_, ?_⟩
  · rw [h1]; exact Nat.mul_one n
  · rw [met_list_short (α := U64) hg h0 hn rfl]; exact Nat.mul_comm n 8
  · rw [met_list_short (α := Arr 32) hg h0 hn rfl]; exact Nat.mul_comm n 32
  · rw [met_list_short (α := Arr 64) hg h0 hn rfl]; exact Nat.mul_comm n 64
  · rw [met_list_short (α := List UInt8) hg h0 hn (Met.bind_err rfl)]; exact Nat.mul_comm n 24
  · have h2 := Met.bind_stop (f := fun buf => match strOfBytes buf with | some s => pure s | none => Met.fail .invalidLength) h1
    exact (congrArg Prod.fst h2).trans (Nat.mul_one n)

/-- C71: what can be decoded anywhere can be decoded where `S` bytes per byte of it can be had. -/
theorem C71_room_suffices :
    DecodesInRoom .v2 String ∧ DecodesInRoom .v2 UnlockConditions ∧ DecodesInRoom .v2 SpendPolicy ∧ DecodesInRoom .v2 SatisfiedPolicy ∧
    DecodesInRoom .v2 V2.Attestation ∧ DecodesInRoom .v2 V2.FileContractElement ∧ DecodesInRoom .v2 V2.FileContractResolution ∧
    DecodesInRoom .v2 V2.Transaction ∧ DecodesInRoom .v1 UnlockConditions ∧ DecodesInRoom .v1 V1.TransactionSignature ∧
    DecodesInRoom .v1 V1.Transaction ∧ DecodesInRoom .v1 Block :=
  ⟨decodesInRoom, decodesInRoom, decodesInRoom, decodesInRoom, decodesInRoom, decodesInRoom, decodesInRoom, decodesInRoom, decodesInRoom, decodesInRoom,
    decodesInRoom, decodesInRoom⟩

/-- C71: the decoder of chain states asks for nothing. -/
theorem C71_state_costs_nothing (m : Mode) (lim lim' : Lim) (bs : List UInt8) : State.decode m lim bs = State.decode m lim' bs := by
  have h : Unasked 1 (State.decode m) := by
    unfold State.decode
    refine Unasked.bind (n := 1) (m := 0) (Unasked.weaken (Unasked.map (Unasked.bind (Unasked.num 64) fun _ => (Unasked.arr 32).map _) _) (by omega))
      fun index => ?_
    refine Unasked.bind (n := 0) (m := 0) ?_ fun count => ?_
    · cases State.timestampsCount m index with
      | ok a => exact Unasked.pure a
      | err e => exact Unasked.fail e
      | panic => exact Unasked.crash
    refine Unasked.bind (n := 0) (m := 0) (Unasked.slots (Unasked.dateTime.weaken (Nat.zero_le _)) _ _ _ _) fun _ => ?_
    exact Unasked.map (Unasked.weaken (Unasked.pair (Unasked.arr 32) (Unasked.pair (Unasked.arr 32) (Unasked.pair Unasked.currency
      (Unasked.pair Unasked.duration (Unasked.pair (Unasked.arr 32) (Unasked.pair (Unasked.arr 32) (Unasked.pair (Unasked.arr 32)
      (Unasked.pair Unasked.work (Unasked.pair Unasked.work (Unasked.pair Unasked.work (Unasked.pair Unasked.accumulator (Unasked.num 64))))))))))))
      (Nat.zero_le _)) _
  exact h.limit lim lim' bs

/-- C71 ends with the input that is accepted: eight bytes make the decoder of v1 transactions ask for as much as they say, and fail or panic. -/
theorem C71_length_alone (A : Alloc) (M : Machine) (n : Nat) (hg : A.grow = false) (h0 : 0 < n) (hn : n < 2 ^ 64) :
    (met .v1 A : Met V1.Transaction) M (leBytes 8 n) =
      (n * A.size "v1::SiacoinInput", if n * A.size "v1::SiacoinInput" ≤ M.bytes then .err .io else .panic) ∧
    (met .v2 A : Met V2.Transaction) M (2 :: leBytes 8 1 ++ leBytes 8 n) =
      (n * A.size "v2::SiacoinInput", if n * A.size "v2::SiacoinInput" ≤ M.bytes then .err .io else .panic) := by
  constructor
  · have h := met_list_short (v := .v1) (α := V1.SiacoinInput) (A := A) (M := M) hg h0 hn (Met.bind_err (Met.bind_err rfl))
    exact Met.bind_stop (Met.bind_stop h)
  · have h := met_list_short (v := .v2) (α := V2.SiacoinInput) (A := A) (M := M) hg h0 hn
      (Met.bind_err (Met.bind_err (Met.bind_err (Met.bind_err (Met.bind_err (Met.bind_err rfl))))))
    refine (Met.bind_run (a := 2) (r := leBytes 8 1 ++ leBytes 8 n) rfl).trans ?_
    refine (Met.bind_run (a := (1 : U64)) (r := leBytes 8 n) rfl).trans ?_
    exact Met.bind_stop h

/-- C71 for decoders whose vectors grow: whatever the input, at most eight times the largest size per byte of it. -/
theorem C71_input_costs_repaired :
    CostsByInput .v2 String ∧ CostsByInput .v2 StateElement ∧ CostsByInput .v2 UnlockConditions ∧ CostsByInput .v2 SpendPolicy ∧
    CostsByInput .v2 SatisfiedPolicy ∧ CostsByInput .v2 V2.Attestation ∧ CostsByInput .v2 V2.FileContractElement ∧ CostsByInput .v2 V2.SiacoinInput ∧
    CostsByInput .v2 V2.FileContractResolution ∧ CostsByInput .v2 V2.Transaction ∧ CostsByInput .v1 UnlockConditions ∧ CostsByInput .v1 V1.FileContract ∧
    CostsByInput .v1 V1.TransactionSignature ∧ CostsByInput .v1 V1.Transaction ∧ CostsByInput .v1 Block :=
  ⟨costsByInput, costsByInput, costsByInput, costsByInput, costsByInput, costsByInput, costsByInput, costsByInput, costsByInput, costsByInput, costsByInput,
    costsByInput, costsByInput, costsByInput, costsByInput⟩

/-- C71: with twice the largest size per byte of input in one piece they return what the code returns where any length can be reserved. -/
theorem C71_same_results_repaired :
    GrowsToTheSame .v2 String ∧ GrowsToTheSame .v2 StateElement ∧ GrowsToTheSame .v2 UnlockConditions ∧ GrowsToTheSame .v2 SpendPolicy ∧
    GrowsToTheSame .v2 SatisfiedPolicy ∧ GrowsToTheSame .v2 V2.Attestation ∧ GrowsToTheSame .v2 V2.FileContractElement ∧
    GrowsToTheSame .v2 V2.SiacoinInput ∧ GrowsToTheSame .v2 V2.FileContractResolution ∧ GrowsToTheSame .v2 V2.Transaction ∧
    GrowsToTheSame .v1 UnlockConditions ∧ GrowsToTheSame .v1 V1.FileContract ∧ GrowsToTheSame .v1 V1.TransactionSignature ∧
    GrowsToTheSame .v1 V1.Transaction ∧ GrowsToTheSame .v1 Block :=
  ⟨growsToTheSame, growsToTheSame, growsToTheSame, growsToTheSame, growsToTheSame, growsToTheSame, growsToTheSame, growsToTheSame, growsToTheSame,
    growsToTheSame, growsToTheSame, growsToTheSame, growsToTheSame, growsToTheSame, growsToTheSame⟩

/-! Unlock conditions with two keys of 32 and 0 bytes, an `UnlockKey` being 40 bytes: 80 bytes for the keys and 32 for the first key, from 104 bytes.  Growing
asks for four keys at once, and for 8, 16 and 32 bytes of the first key. -/

def Sample.alloc (grow : Bool) : Alloc := ⟨fun name => if name = "UnlockKey" then 40 else 1500, grow⟩

theorem Sample.alloc_within (grow : Bool) : (Sample.alloc grow).within 1500 :=
  ⟨by decide, fun name => by unfold Sample.alloc; dsimp only; split <;> omega⟩

example : (enc .v1 Sample.uc).length = 104 := by decide +kernel
example : (met .v1 (Sample.alloc false) : Met UnlockConditions) ⟨80, 0⟩ (enc .v1 Sample.uc) = (112, .ok (Sample.uc, [])) := by decide +kernel
example : heap (Sample.alloc false) Sample.uc = 112 := by decide +kernel
example : ((met .v1 (Sample.alloc false) : Met UnlockConditions) ⟨79, 0⟩ (enc .v1 Sample.uc)).2 = .panic := by decide +kernel
example : (met .v1 (Sample.alloc true) : Met UnlockConditions) ⟨160, 0⟩ (enc .v1 Sample.uc) = (216, .ok (Sample.uc, [])) := by decide +kernel
example : ((met .v1 (Sample.alloc false) : Met V1.Transaction) ⟨2 ^ 63, 0⟩ (leBytes 8 (2 ^ 40))).1 = 1500 * 2 ^ 40 := by
  rw [(C71_length_alone (Sample.alloc false) _ (2 ^ 40) rfl (by decide) (by decide)).1]
  rfl

end Verif
