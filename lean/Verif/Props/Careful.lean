import Verif.Lemmas.Careful
import Verif.Props.Codec

/-!
# Decoders that do not panic (C10)

C10 is violated by the code.  Here: decoders that differ from it in four places (`Model/Careful.lean`) and for which C10 holds.
-/

namespace Verif

/-- C10 for the repaired v2 decoders: what the code returns with memory enough for any reservation, an error where it panics. -/
theorem C10_v2_repaired :
    NowhereElse .v2 String ∧ NowhereElse .v2 DateTime ∧ NowhereElse .v2 ChainIndex ∧ NowhereElse .v2 SiacoinOutput ∧
    NowhereElse .v2 SiafundOutput ∧ NowhereElse .v2 StateElement ∧ NowhereElse .v2 UnlockKey ∧ NowhereElse .v2 UnlockConditions ∧
    NowhereElse .v2 SpendPolicy ∧ NowhereElse .v2 SatisfiedPolicy ∧ NowhereElse .v2 V2.Attestation ∧ NowhereElse .v2 V2.FileContract ∧
    NowhereElse .v2 V2.SiacoinElement ∧ NowhereElse .v2 V2.SiafundElement ∧ NowhereElse .v2 V2.FileContractElement ∧
    NowhereElse .v2 V2.ChainIndexElement ∧ NowhereElse .v2 V2.SiacoinInput ∧ NowhereElse .v2 V2.SiafundInput ∧
    NowhereElse .v2 V2.FileContractRevision ∧ NowhereElse .v2 V2.FileContractRenewal ∧ NowhereElse .v2 V2.StorageProof ∧
    NowhereElse .v2 V2.FileContractResolution ∧ NowhereElse .v2 V2.Transaction ∧ NowhereElse .v2 ElementAccumulator :=
  ⟨nowhereElse, nowhereElse, nowhereElse, nowhereElse, nowhereElse, nowhereElse, nowhereElse, nowhereElse, nowhereElse, nowhereElse,
    nowhereElse, nowhereElse, nowhereElse, nowhereElse, nowhereElse, nowhereElse, nowhereElse, nowhereElse, nowhereElse, nowhereElse,
    nowhereElse, nowhereElse, nowhereElse, nowhereElse⟩

/-- C10 for the repaired v1 decoders, blocks included. -/
theorem C10_v1_repaired :
    NowhereElse .v1 SiacoinOutput ∧ NowhereElse .v1 SiafundOutput ∧ NowhereElse .v1 UnlockKey ∧ NowhereElse .v1 UnlockConditions ∧
    NowhereElse .v1 V1.SiacoinInput ∧ NowhereElse .v1 V1.SiafundInput ∧ NowhereElse .v1 V1.FileContract ∧
    NowhereElse .v1 V1.FileContractRevision ∧ NowhereElse .v1 V1.StorageProof ∧ NowhereElse .v1 V1.CoveredFields ∧
    NowhereElse .v1 V1.TransactionSignature ∧ NowhereElse .v1 V1.Transaction ∧ NowhereElse .v1 Block :=
  ⟨nowhereElse, nowhereElse, nowhereElse, nowhereElse, nowhereElse, nowhereElse, nowhereElse, nowhereElse, nowhereElse, nowhereElse,
    nowhereElse, nowhereElse, nowhereElse⟩

/-- C10 for the repaired decoder of chain states, against the overflow-checked build. -/
theorem C10_state_repaired (D : Nat) (lim : Lim) (bs : List UInt8) (hc : 2 * bs.length + 8 ≤ lim.cap) (hs : D ≤ lim.stack) :
    State.decodeSafe D lim bs = (State.decode .checked ⟨2 ^ 64, D⟩ bs).orError :=
  (State.mirrors_decode (lim₀ := ⟨2 ^ 64, D⟩) (Nat.le_refl _) lim bs hc hs).1

theorem Res.orError_ne_panic {α : Type} (r : Res α) : r.orError ≠ .panic := by
  cases r <;> simp [Res.orError]

/-- C10: none of the repaired decoders panics when there is room for twice the input and for the nested policies allowed. -/
theorem C10_never_panics_repaired (D : Nat) (lim : Lim) (bs : List UInt8) (hc : 2 * bs.length + 8 ≤ lim.cap) (hs : D ≤ lim.stack) :
    (decSafe .v2 D : Dec SpendPolicy) lim bs ≠ .panic ∧ (decSafe .v2 D : Dec SatisfiedPolicy) lim bs ≠ .panic ∧
    (decSafe .v2 D : Dec V2.Attestation) lim bs ≠ .panic ∧ (decSafe .v2 D : Dec V2.FileContractElement) lim bs ≠ .panic ∧
    (decSafe .v2 D : Dec V2.FileContractResolution) lim bs ≠ .panic ∧ (decSafe .v2 D : Dec V2.Transaction) lim bs ≠ .panic ∧
    (decSafe .v1 D : Dec V1.Transaction) lim bs ≠ .panic ∧ (decSafe .v1 D : Dec Block) lim bs ≠ .panic ∧
    State.decodeSafe D lim bs ≠ .panic := by
  have h : ∀ {v : Ver} {α : Type} [Codec v α] [Careful v α] [Mends v α], (decSafe v D : Dec α) lim bs ≠ .panic := by
    intro v α _ _ _ he
    rw [nowhereElse D lim bs hc hs] at he
    exact Res.orError_ne_panic _ he
  refine ⟨h, h, h, h, h, h, h, h, ?_⟩
  rw [C10_state_repaired D lim bs hc hs]
  exact Res.orError_ne_panic _

/-- C10: the repaired decoders still read every value with at most `D` nested policies from its encoding. -/
theorem C10_reads_repaired :
    StillReads .v2 String ∧ StillReads .v2 DateTime ∧ StillReads .v2 UnlockConditions ∧ StillReads .v2 SpendPolicy ∧ StillReads .v2 SatisfiedPolicy ∧
    StillReads .v2 V2.Attestation ∧ StillReads .v2 V2.FileContractElement ∧ StillReads .v2 V2.FileContractResolution ∧
    StillReads .v2 V2.Transaction ∧ StillReads .v1 V1.Transaction ∧ StillReads .v1 Block :=
  ⟨stillReads, stillReads, stillReads, stillReads, stillReads, stillReads, stillReads, stillReads, stillReads, stillReads, stillReads⟩

/-- C10: and every chain state from its encoding. -/
theorem C10_state_reads_repaired (m : Mode) (D : Nat) (lim : Lim) (s : State) (e rest : List UInt8) (hc : 2 * (e ++ rest).length + 8 ≤ lim.cap)
    (hs : D ≤ lim.stack) (hf : stateFits ⟨2 ^ 64, D⟩ s) (he : s.encode m = .ok e) : State.decodeSafe D lim (e ++ rest) = .ok (s, rest) := by
  have he' : s.encode .checked = .ok e := by rw [← he, State.encode_ok hf.1, State.encode_ok hf.1]
  rw [C10_state_repaired D lim _ hc hs, (State.reads_state hf he').rt rest]
  rfl

/-! The inputs of `C10_block_panics`, `C10_state_panics`, `C10_vec_panics` and `C10_policy_panics` are errors now. -/

example : (decSafe .v1 3 : Dec Block) ⟨200, 3⟩ (List.replicate 47 0 ++ [127]) = .err .custom := rfl
example : State.decodeSafe 3 ⟨200, 3⟩ (List.replicate 8 255 ++ List.replicate 32 0) = .err .custom := rfl
example : (decSafe .v1 3 : Dec V1.Transaction) ⟨24, 3⟩ (List.replicate 8 255) = .err .io := rfl
example : (decSafe .v2 1 : Dec SpendPolicy) ⟨24, 1⟩ [1, 5, 1, 1, 5, 1, 1] = .err .custom := rfl
example : (decSafe .v2 3 : Dec SatisfiedPolicy) ⟨1000, 3⟩ (enc .v2 Sample.sp ++ []) = .ok (Sample.sp, []) :=
  C10_reads_repaired.2.2.2.2.1 3 _ Sample.sp [] (by decide +kernel) (by decide)
    (by simp [fits, Struct.fields, Sample.sp, policyFits, Sample.policy])

end Verif
