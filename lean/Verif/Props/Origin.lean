import Verif.Spec.Origin
import Verif.Lemmas.Separation

/-!
# One identifier, one origin (C78)
-/

namespace Verif

open Spec Layout

namespace Origin

/-- The last step of the chain. -/
def step (H : Hasher) : Origin → Derivation
  | foundation b => .foundation b
  | miner b i => .miner b i
  | v1Siacoin t i => .siacoin t i
  | v1Siafund t i => .siafund t i
  | v1Contract t i => .fileContract t i
  | v2Siacoin t i => .v2Siacoin (t.id H) i
  | v2Siafund t i => .v2Siafund (t.id H) i
  | v2Contract t i => .v2FileContract (t.id H) i
  | v2Attestation t i => .v2Attestation (t.id H) i
  | claim o => .claim (o.id H)
  | v2Claim o => .v2Claim (o.id H)
  | valid o i => .valid (o.id H) i
  | missed o i => .missed (o.id H) i
  | v2Renter o => .v2Renter (o.id H)
  | v2Host o => .v2Host (o.id H)
  | v2Renewal o => .v2Renewal (o.id H)

theorem id_step (H : Hasher) (o : Origin) : o.id H = H (derivation (o.step H)) := by
  refine Eq.trans ?_ (C56_derived_ids H (o.step H))
  cases o <;> rfl

theorem mem_step (H : Hasher) (o : Origin) : derivation (o.step H) ∈ o.strings H := by
  cases o <;> simp [step, strings]

theorem sized_step (H : Hasher) (o : Origin) (h : o.Sized) : (o.step H).Sized := by
  cases o <;> first | exact h | trivial

theorem derivation_string (d : Derivation) : derivation d = d.pre :=
  eq_of_hashes fun H => (C56_derived_ids H d).symm.trans (Derivation.eval_pre H d)

/-- Equal identifiers: the last steps are equal, or their strings collide. -/
theorem step_of_id {H : Hasher} {o o' : Origin} (h : o.Sized) (h' : o'.Sized) (he : o.id H = o'.id H) :
    (o.step H).unsigned = (o'.step H).unsigned ∨ ∃ x ∈ o.strings H, ∃ y ∈ o'.strings H, Collide H x y := by
  rw [id_step, id_step] at he
  by_cases hs : derivation (o.step H) = derivation (o'.step H)
  · rw [derivation_string, derivation_string] at hs
    exact .inl (Derivation.pre_inj _ _ (sized_step H o h) (sized_step H o' h') hs)
  · exact .inr ⟨_, mem_step H o, _, mem_step H o', hs, he⟩

/-- Equal ids of v2 transactions: they are the same as far as the id says, or their strings collide. -/
theorem same_of_id {H : Hasher} {t t' : V2.Transaction} (h : t.Sized) (h' : t'.Sized) (he : t.id H = t'.id H) :
    SameV2 t t' ∨ Collide H (v2Effects t) (v2Effects t') := by
  by_cases hs : v2Effects t = v2Effects t'
  · rw [v2_id_string, v2_id_string] at hs
    obtain ⟨h1, h2, h3, h4, h5, h6, -, h8⟩ := V2.encodeSemantics_inj h h' hs
    exact .inl ⟨h1, h2, h3, h4, h5, h6, h8⟩
  · refine .inr ⟨hs, ?_⟩
    rw [v2_id_string, v2_id_string]
    exact he

end Origin

/-- C78.  Two outputs, contracts or attestations with the same identifier come from the same method at the same index all along the chain, back
to the same block or transaction; or two strings hashed on the way collide. -/
theorem C78_origin (H : Hasher) (o o' : Origin) (h : o.Sized) (h' : o'.Sized) (he : o.id H = o'.id H) :
    o.Same o' ∨ ∃ x ∈ o.strings H, ∃ y ∈ o'.strings H, Collide H x y := by
  induction o generalizing o' with
  | foundation b =>
    refine (Origin.step_of_id h h' he).imp_left fun hu => ?_
    cases o' <;> cases hu
    exact .foundation b
  | miner b i =>
    refine (Origin.step_of_id h h' he).imp_left fun hu => ?_
    cases o' <;> cases hu
    exact .miner b i
  | v1Siacoin t i =>
    refine (Origin.step_of_id h h' he).imp_left fun hu => ?_
    cases o' <;> simp only [Origin.step, Derivation.unsigned, reduceCtorEq, Derivation.siacoin.injEq] at hu
    exact hu.2 ▸ .v1Siacoin i hu.1
  | v1Siafund t i =>
    refine (Origin.step_of_id h h' he).imp_left fun hu => ?_
    cases o' <;> simp only [Origin.step, Derivation.unsigned, reduceCtorEq, Derivation.siafund.injEq] at hu
    exact hu.2 ▸ .v1Siafund i hu.1
  | v1Contract t i =>
    refine (Origin.step_of_id h h' he).imp_left fun hu => ?_
    cases o' <;> simp only [Origin.step, Derivation.unsigned, reduceCtorEq, Derivation.fileContract.injEq] at hu
    exact hu.2 ▸ .v1Contract i hu.1
  | v2Siacoin t i =>
    refine (Origin.step_of_id h h' he).elim (fun hu => ?_) .inr
    cases o' <;> simp only [Origin.step, Derivation.unsigned, reduceCtorEq, Derivation.v2Siacoin.injEq] at hu
    obtain ⟨hu, rfl⟩ := hu
    exact (Origin.same_of_id h h' hu).imp (.v2Siacoin i) fun hc => ⟨_, by simp [Origin.strings], _, by simp [Origin.strings], hc⟩
  | v2Siafund t i =>
    refine (Origin.step_of_id h h' he).elim (fun hu => ?_) .inr
    cases o' <;> simp only [Origin.step, Derivation.unsigned, reduceCtorEq, Derivation.v2Siafund.injEq] at hu
    obtain ⟨hu, rfl⟩ := hu
    exact (Origin.same_of_id h h' hu).imp (.v2Siafund i) fun hc => ⟨_, by simp [Origin.strings], _, by simp [Origin.strings], hc⟩
  | v2Contract t i =>
    refine (Origin.step_of_id h h' he).elim (fun hu => ?_) .inr
    cases o' <;> simp only [Origin.step, Derivation.unsigned, reduceCtorEq, Derivation.v2FileContract.injEq] at hu
    obtain ⟨hu, rfl⟩ := hu
    exact (Origin.same_of_id h h' hu).imp (.v2Contract i) fun hc => ⟨_, by simp [Origin.strings], _, by simp [Origin.strings], hc⟩
  | v2Attestation t i =>
    refine (Origin.step_of_id h h' he).elim (fun hu => ?_) .inr
    cases o' <;> simp only [Origin.step, Derivation.unsigned, reduceCtorEq, Derivation.v2Attestation.injEq] at hu
    obtain ⟨hu, rfl⟩ := hu
    exact (Origin.same_of_id h h' hu).imp (.v2Attestation i) fun hc => ⟨_, by simp [Origin.strings], _, by simp [Origin.strings], hc⟩
  | claim o ih =>
    refine (Origin.step_of_id h h' he).elim (fun hu => ?_) .inr
    cases o' <;> simp only [Origin.step, Derivation.unsigned, reduceCtorEq, Derivation.claim.injEq] at hu
    rename_i o'
    exact (ih o' h h' hu).imp .claim fun ⟨x, hx, y, hy, hc⟩ => ⟨x, .tail _ hx, y, .tail _ hy, hc⟩
  | v2Claim o ih =>
    refine (Origin.step_of_id h h' he).elim (fun hu => ?_) .inr
    cases o' <;> simp only [Origin.step, Derivation.unsigned, reduceCtorEq, Derivation.v2Claim.injEq] at hu
    rename_i o'
    exact (ih o' h h' hu).imp .v2Claim fun ⟨x, hx, y, hy, hc⟩ => ⟨x, .tail _ hx, y, .tail _ hy, hc⟩
  | valid o i ih =>
    refine (Origin.step_of_id h h' he).elim (fun hu => ?_) .inr
    cases o' <;> simp only [Origin.step, Derivation.unsigned, reduceCtorEq, Derivation.valid.injEq] at hu
    obtain ⟨hu, rfl⟩ := hu
    rename_i o'
    exact (ih o' h h' hu).imp (.valid i) fun ⟨x, hx, y, hy, hc⟩ => ⟨x, .tail _ hx, y, .tail _ hy, hc⟩
  | missed o i ih =>
    refine (Origin.step_of_id h h' he).elim (fun hu => ?_) .inr
    cases o' <;> simp only [Origin.step, Derivation.unsigned, reduceCtorEq, Derivation.missed.injEq] at hu
    obtain ⟨hu, rfl⟩ := hu
    rename_i o'
    exact (ih o' h h' hu).imp (.missed i) fun ⟨x, hx, y, hy, hc⟩ => ⟨x, .tail _ hx, y, .tail _ hy, hc⟩
  | v2Renter o ih =>
    refine (Origin.step_of_id h h' he).elim (fun hu => ?_) .inr
    cases o' <;> simp only [Origin.step, Derivation.unsigned, reduceCtorEq, Derivation.v2Renter.injEq] at hu
    rename_i o'
    exact (ih o' h h' hu).imp .v2Renter fun ⟨x, hx, y, hy, hc⟩ => ⟨x, .tail _ hx, y, .tail _ hy, hc⟩
  | v2Host o ih =>
    refine (Origin.step_of_id h h' he).elim (fun hu => ?_) .inr
    cases o' <;> simp only [Origin.step, Derivation.unsigned, reduceCtorEq, Derivation.v2Host.injEq] at hu
    rename_i o'
    exact (ih o' h h' hu).imp .v2Host fun ⟨x, hx, y, hy, hc⟩ => ⟨x, .tail _ hx, y, .tail _ hy, hc⟩
  | v2Renewal o ih =>
    refine (Origin.step_of_id h h' he).elim (fun hu => ?_) .inr
    cases o' <;> simp only [Origin.step, Derivation.unsigned, reduceCtorEq, Derivation.v2Renewal.injEq] at hu
    rename_i o'
    exact (ih o' h h' hu).imp .v2Renewal fun ⟨x, hx, y, hy, hc⟩ => ⟨x, .tail _ hx, y, .tail _ hy, hc⟩

/-- What is created under the identifier is the same for the same origin. -/
theorem Origin.Same.thing {o o' : Origin} (h : o.Same o') : o.thing = o'.thing := by
  cases h with
  | v1Siacoin i e =>
    have e := congrArg V1.Transaction.siacoinOutputs e
    simp only [V1.Transaction.unsigned] at e
    simp only [Origin.thing, e]
  | v1Siafund i e =>
    have e := congrArg V1.Transaction.siafundOutputs e
    simp only [V1.Transaction.unsigned] at e
    simp only [Origin.thing, e]
  | v1Contract i e =>
    have e := congrArg V1.Transaction.fileContracts e
    simp only [V1.Transaction.unsigned] at e
    simp only [Origin.thing, e]
  | v2Siacoin i e =>
    have e := e.2.1
    simp only [V2.Transaction.effects] at e
    simp only [Origin.thing, e]
  | v2Siafund i e =>
    have e := e.2.2.2.1
    simp only [V2.Transaction.effects] at e
    simp only [Origin.thing, e]
  | v2Contract i e =>
    rename_i t t'
    have e : t.fileContracts.map (·.unsigned) = t'.fileContracts.map (·.unsigned) := e.2.2.2.2.1
    have e := congrArg (fun l => l[i.toNat]?.map Origin.Thing.v2Contract) e
    simpa only [Origin.thing, List.getElem?_map, Option.map_map, Function.comp_def] using e
  | _ => rfl

/-- C78.  Two siacoin outputs, siafund outputs or contracts that transactions create under the same identifier are the same: of the same kind and
version, with the same value and address or the same terms; or two strings hashed on the way collide. -/
theorem C78_thing (H : Hasher) (o o' : Origin) (h : o.Sized) (h' : o'.Sized) (he : o.id H = o'.id H) :
    o.thing = o'.thing ∨ ∃ x ∈ o.strings H, ∃ y ∈ o'.strings H, Collide H x y :=
  (C78_origin H o o' h h' he).imp_left Origin.Same.thing

/-- C78.  In particular what is created under one identifier is created once: the identifiers of the outputs of a v2 transaction, of the payouts of
a contract and of the claims of siafund outputs differ for different indices, contracts and outputs, or two strings collide. -/
theorem C78_differ (H : Hasher) (o o' : Origin) (h : o.Sized) (h' : o'.Sized) (hn : ¬ o.Same o') :
    o.id H ≠ o'.id H ∨ ∃ x ∈ o.strings H, ∃ y ∈ o'.strings H, Collide H x y := by
  by_cases he : o.id H = o'.id H
  · exact .inr ((C78_origin H o o' h h' he).resolve_left hn)
  · exact .inl he

/-- C78.  It is not so for attestations: there are two transactions of which one makes an attestation under an identifier, and the other makes none
under the same identifier, whatever the hash function. -/
theorem C78_not_attestations :
    ∃ t t' : V2.Transaction, t.Sized ∧ t'.Sized ∧ t.attestations[0]? ≠ none ∧ t'.attestations[0]? = none ∧
      ∀ H : Hasher, (Origin.v2Attestation t 0).id H = (Origin.v2Attestation t' 0).id H := by
  have h : Sample.ambiguous1.encodeSemantics = Sample.ambiguous2.encodeSemantics := by decide +kernel
  refine ⟨Sample.ambiguous2, Sample.ambiguous1, Sample.sized_ambiguous2, Sample.sized_ambiguous1, by simp [Sample.ambiguous2],
    by simp [Sample.ambiguous1], fun H => ?_⟩
  simp only [Origin.id, V2.Transaction.id, h]

/-- Origins that meet the hypotheses: the claim of a siafund output of a v1 transaction, and the host's payout of the renewal of a contract of a v2
transaction; they are different, and there are things created. -/
example : (Origin.claim (.v1Siafund Sample.v1txn 0)).Sized ∧ (Origin.v2Host (.v2Renewal (.v2Contract Sample.v2txn 0))).Sized ∧
    ¬ (Origin.claim (.v1Siafund Sample.v1txn 0)).Same (.v2Host (.v2Renewal (.v2Contract Sample.v2txn 0))) ∧
    (Origin.v1Siacoin Sample.v1txn 0).thing ≠ none ∧ (Origin.v2Contract Sample.v2txn 0).thing ≠ none :=
  ⟨Sample.sized_v1txn, Sample.sized_v2txn, nofun, by simp [Origin.thing, Sample.v1txn], by simp [Origin.thing, Sample.v2txn]⟩

/-- Equal identifiers of origins that are not identical: the signatures of the transaction are others. -/
example (H : Hasher) : (Origin.claim (.v1Siafund Sample.v1txn 0)).id H = (Origin.claim (.v1Siafund { Sample.v1txn with signatures := [] } 0)).id H ∧
    Sample.v1txn.signatures ≠ [] :=
  ⟨rfl, by simp [Sample.v1txn]⟩

end Verif
