import Verif.Spec.Formats
import Verif.Lemmas.Formats
import Verif.Props.Binary
import Verif.Props.Mended

/-!
# JSON (C50) and formats that are not human-readable (C63) with repaired identifiers, unlock keys and policies
-/

namespace Verif

open Formats

/-! ## C50 -/

/-- C50 with the algorithms of unlock keys in hex where they have no text: every v1 transaction is kept. -/
theorem C50_v1_transaction_repaired (E : Env) (t : V1.Transaction) : (v1Transaction (.jsonFully E) E).Kept t :=
  (gives_v1Transaction (good_jsonFully E) t).reordered

/-- Every block whose time has a text that is read back. -/
theorem C50_block_repaired (E : Env) (b : Block) (h : E.Keeps b.timestamp) : (block (.jsonFully E) E).Kept b :=
  (gives_block (good_jsonFully E) h).reordered

/-- Every v2 transaction with whole-second timestamps. -/
theorem C50_v2_transaction_repaired (E : Env) (t : V2.Transaction) (h : t.Timely E.stack) : (v2Transaction (.jsonFully E) E).Kept t :=
  (gives_v2Transaction (good_jsonFully E) h).reordered

/-- With the formats of the code in place of the repaired ones, these are the transactions and blocks of the code. -/
theorem C50_same_repaired (E : Env) : v1Transaction (.json E) E = Serde.v1Transaction E ∧ block (.json E) E = Serde.block E ∧
    (v2Transaction (.json E) E).ser = (Serde.v2Transaction E).ser := ⟨json_v1Transaction E, json_block E, json_v2Transaction E⟩

/-- A transaction whose input has the algorithms "a:b" and a single byte that is no text: the code does not keep it. -/
example : (v1Transaction (.jsonFully Sample.env) Sample.env).Kept
      { Sample.v1txn with siacoinInputs := [⟨Sample.h 1, ⟨0, [Sample.colonKey, Sample.rawKey], 1⟩⟩] } ∧
    ¬ (Serde.v1Transaction Sample.env).Back { Sample.v1txn with siacoinInputs := [⟨Sample.h 1, ⟨0, [Sample.colonKey, Sample.rawKey], 1⟩⟩] } := by
  refine ⟨C50_v1_transaction_repaired _ _, fun h => ?_⟩
  have := ((C50_v1_transaction_exactly _ _).mp h).1 _ (by simp; rfl)
  obtain ⟨t, h1, h2, h3⟩ := this Sample.colonKey (by simp)
  have e := names_unique h2 (t' := ascii "a:b") ⟨by decide +kernel, by decide +kernel⟩
  subst e
  exact h3 (by decide +kernel)

example : (v2Transaction (.jsonFully Sample.env) Sample.env).Kept Sample.v2txn :=
  C50_v2_transaction_repaired _ _ (by
    show V2.Transaction.Timely (42 + 1) _
    simp [V2.Transaction.Timely, Sample.v2txn, Sample.sp, Sample.policy, SpendPolicy.Timely])

/-! ## C63 -/

/-- With the formats of the code in place of the repaired ones, these are the types of the code. -/
theorem C63_same_repaired (E : Env) : v1Transaction (.binary E) E = Binary.v1Transaction E ∧ block (.binary E) E = Binary.block E ∧
    v2Transaction (.binary E) E = Binary.v2Transaction E ∧ state (.binary E) E = Binary.state E ∧ network (.binary E) E = Binary.network E ∧
    chainState (.binary E) E = Binary.chainState E :=
  ⟨binary_v1Transaction E, binary_block E, binary_v2Transaction E, binary_state E, binary_network E, binary_chainState E⟩

/-- C63 with identifiers read as they are written, unlock keys written as they are read, and policies written as the JSON value that is read: all the parts
of transactions are kept. -/
theorem C63_types_repaired (E : Env) :
    (∀ x, (chainIndex (.packed E)).Kept x) ∧ (∀ x, (stateElement (.packed E)).Kept x) ∧ (∀ x, (unlockConditions (.packed E)).Kept x) ∧
    (∀ x, (v1SiacoinInput (.packed E)).Kept x) ∧ (∀ x, (v1SiafundInput (.packed E) E).Kept x) ∧ (∀ x, (v1FileContract (.packed E) E).Kept x) ∧
    (∀ x, (v1FileContractRevision (.packed E) E).Kept x) ∧ (∀ x, (v1StorageProof (.packed E)).Kept x) ∧
    (∀ x, (transactionSignature (.packed E)).Kept x) ∧ (∀ x, (v2FileContract (.packed E) E).Kept x) ∧ (∀ x, (siacoinElement (.packed E) E).Kept x) ∧
    (∀ x, (siafundElement (.packed E) E).Kept x) ∧ (∀ x, (fileContractElement (.packed E) E).Kept x) ∧ (∀ x, (chainIndexElement (.packed E)).Kept x) ∧
    (∀ x, (v2FileContractRevision (.packed E) E).Kept x) ∧ (∀ x, (resolution (.packed E) E).Kept x) :=
  have G := good_packed E
  ⟨fun _ => (gives_chainIndex G _).reordered, fun _ => (gives_stateElement G _).reordered, fun _ => (gives_unlockConditions G _).reordered,
    fun _ => (gives_v1SiacoinInput G _).reordered, fun _ => (gives_v1SiafundInput G _).reordered, fun _ => (gives_v1FileContract G _).reordered,
    fun _ => (gives_v1FileContractRevision G _).reordered, fun _ => (gives_v1StorageProof G _).reordered,
    fun _ => (gives_transactionSignature G _).reordered, fun _ => (gives_v2FileContract G _).reordered, fun _ => (gives_siacoinElement G _).reordered,
    fun _ => (gives_siafundElement G _).reordered, fun _ => (gives_fileContractElement G _).reordered, fun _ => (gives_chainIndexElement G _).reordered,
    fun _ => (gives_v2FileContractRevision G _).reordered, fun _ => (gives_resolution G _).reordered⟩

/-- Renewals and storage proofs on their own are kept too; with the formats of the code they are those of the code. -/
theorem C63_outcomes_repaired (E : Env) : (∀ x, (renewal (.packed E) E).Kept x) ∧ (∀ x, (v2StorageProof (.packed E)).Kept x) ∧
    renewal (.binary E) E = Binary.renewal E ∧ v2StorageProof (.binary E) = Binary.v2StorageProof ∧
    renewal (.json E) E = Serde.renewal E ∧ v2StorageProof (.json E) = Serde.v2StorageProof :=
  ⟨fun _ => (gives_renewal (good_packed E) _).reordered, fun _ => (gives_v2StorageProof (good_packed E) _).reordered, rfl, rfl, rfl, rfl⟩

/-- Every v1 transaction, and every block whose time has a text that is read back. -/
theorem C63_v1_repaired (E : Env) : (∀ t, (v1Transaction (.packed E) E).Kept t) ∧ ∀ b, E.Keeps b.timestamp → (block (.packed E) E).Kept b :=
  ⟨fun _ => (gives_v1Transaction (good_packed E) _).reordered, fun _ h => (gives_block (good_packed E) h).reordered⟩

/-- Every satisfied policy and v2 transaction with whole-second timestamps, not nested deeper than the stack allows. -/
theorem C63_v2_repaired (E : Env) : (∀ x, x.policy.Timely E.stack → (satisfiedPolicy (.packed E)).Kept x) ∧
    ∀ t, t.Timely E.stack → (v2Transaction (.packed E) E).Kept t :=
  ⟨fun _ h => (gives_satisfiedPolicy (good_packed E) h).reordered, fun _ h => (gives_v2Transaction (good_packed E) h).reordered⟩

/-- Accumulators, states, networks and chain states, if JSON keeps them. -/
theorem C63_state_repaired (E : Env) : (∀ a, a.Normal → (accumulator (.packed E)).Kept a) ∧ (∀ s, s.JsonFits E → (state (.packed E) E).Kept s) ∧
    (∀ n, n.JsonFits E → (network (.packed E) E).Kept n) ∧
    ∀ c, c.network.JsonFits E → c.state.JsonFits E → (chainState (.packed E) E).Kept c :=
  have G := good_packed E
  ⟨fun _ h => (gives_accumulator G h).reordered, fun _ h => (gives_state G h).reordered, fun _ h => (gives_network G h).reordered,
    fun _ h h' => (gives_chainState G h h').reordered⟩

/-- Samples the code does not keep. -/
example : (v1Transaction (.packed Sample.env) Sample.env).Kept Sample.v1txn ∧ ¬ (Binary.v1Transaction Sample.env).Back Sample.v1txn ∧
    (v2Transaction (.packed Sample.env) Sample.env).Kept Sample.v2txn ∧ ¬ (Binary.v2Transaction Sample.env).Back Sample.v2txn ∧
    (state (.packed Sample.env2) Sample.env2).Kept Sample.state ∧ ¬ (Binary.state Sample.env2).Back Sample.state := by
  refine ⟨(C63_v1_repaired _).1 _, ?_, (C63_v2_repaired _).2 _ ?_, ?_, (C63_state_repaired _).2.1 _ Sample.jsonFits_state, ?_⟩
  · rw [C63_v1_transaction_partial]
    simp [Sample.v1txn]
  · show V2.Transaction.Timely (42 + 1) _
    simp [V2.Transaction.Timely, Sample.v2txn, Sample.sp, Sample.policy, SpendPolicy.Timely]
  · rw [C63_v2_transaction_partial]
    simp [Sample.v2txn]
  · exact Binary.not_back_state _

/-- A hash in a policy and an unlock key with its algorithm as bytes. -/
example : (satisfiedPolicy (.packed Sample.env)).Kept ⟨.hash (Sample.h 1), [], [Sample.h 2]⟩ ∧
    (unlockConditions (.packed Sample.env)).Kept ⟨0, [Sample.rawKey, Sample.colonKey], 1⟩ :=
  ⟨(C63_v2_repaired _).1 _ (by
    show SpendPolicy.Timely (42 + 1) _
    simp [SpendPolicy.Timely]), (C63_types_repaired _).2.2.1 _⟩

end Verif
