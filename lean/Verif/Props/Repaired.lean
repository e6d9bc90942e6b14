import Verif.Spec.Repaired
import Verif.Props.Hashing
import Verif.Props.Merkle

/-!
# Identifiers, addresses and partial signatures that commit to everything (C24, C32, C44)

C24, C32 and C44 are violated by the code.  Here: how far C44 holds of the code (`C44_same_counts_partial`), and programs that
differ from the code in the fields they leave out and for which the properties hold.
-/

namespace Verif

/-! ## C24 -/

namespace V2

theorem kindByte_kind {a b : ContractResolution} (h : a.kindByte = b.kindByte) : a.kind = b.kind := by
  cases a <;> cases b <;> first | rfl | (simp [ContractResolution.kindByte] at h)

theorem kindByte_effect {a b : ContractResolution} (h : a.effect = b.effect) : a.kindByte = b.kindByte := by
  cases a <;> cases b <;> first | rfl | cases h

theorem covering_step : Delim ResolutionSized (fun r : FileContractResolution => r.resolution.kindByte :: r.encodeSemantics)
    (fun r => (r.parent.id, r.resolution.effect)) := by
  intro a b x y ha hb he
  rw [List.cons_append, List.cons_append, List.cons.injEq] at he
  exact resolution_step a b x y ha hb (kindByte_kind he.1) he.2

theorem encodeCovering_inj {t t' : Transaction} (h : t.Sized) (h' : t'.Sized) (he : t.encodeCovering = t'.encodeCovering) :
    t.effects = t'.effects ∧ t.claimAddresses = t'.claimAddresses := by
  unfold Transaction.encodeCovering at he
  obtain ⟨e0, he⟩ := lenThen_delim (delim_hash fun i : SiacoinInput => i.parent.id) _ _ _ _
    ⟨h.siacoinInputs, fun _ _ => trivial⟩ ⟨h'.siacoinInputs, fun _ _ => trivial⟩ he
  obtain ⟨e1, he⟩ := selfDelimiting bigLim _ _ _ _ (fits_outputs h.siacoinOutputs) (fits_outputs h'.siacoinOutputs) he
  obtain ⟨e2, he⟩ := lenThen_delim ((delim_hash fun i : SiafundInput => i.parent.id).seq
      (delim_hash fun i : SiafundInput => i.claimAddress)) _ _ _ _
    ⟨h.siafundInputs, fun _ _ => ⟨trivial, trivial⟩⟩ ⟨h'.siafundInputs, fun _ _ => ⟨trivial, trivial⟩⟩ he
  obtain ⟨e3, he⟩ := selfDelimiting bigLim _ _ _ _ (fits_plain_list h.siafundOutputs fun _ => trivial)
    (fits_plain_list h'.siafundOutputs fun _ => trivial) he
  obtain ⟨e4, he⟩ := lenThen_delim contract_delim _ _ _ _ ⟨h.fileContracts, fun _ _ => trivial⟩
    ⟨h'.fileContracts, fun _ _ => trivial⟩ he
  obtain ⟨e5, he⟩ := lenThen_delim revision_delim _ _ _ _ ⟨h.fileContractRevisions, fun _ _ => trivial⟩
    ⟨h'.fileContractRevisions, fun _ _ => trivial⟩ he
  obtain ⟨e6, he⟩ := lenThen_delim covering_step _ _ _ _ h.fileContractResolutions h'.fileContractResolutions he
  have e8 : t.tail = t'.tail :=
    (selfDelimiting (v := .v2) bigLim t.tail t'.tail [] [] h.fits_tail h'.fits_tail (by
      rw [List.append_nil, List.append_nil]; exact he)).1
  simp only [Transaction.tail, Prod.mk.injEq] at e8
  have a1 := congrArg (List.map Prod.fst) e2
  have a2 := congrArg (List.map Prod.snd) e2
  simp only [List.map_map, Function.comp_def] at a1 a2
  refine ⟨?_, a2⟩
  simp only [Transaction.effects, e0, e1, a1, e3, e4, e5, e6, e8]

theorem encodeCovering_effects {t t' : Transaction} (h : t.effects = t'.effects) (hc : t.claimAddresses = t'.claimAddresses) :
    t.encodeCovering = t'.encodeCovering := by
  simp only [Transaction.effects, Effects.mk.injEq] at h
  obtain ⟨h0, h1, h2, h3, h4, h5, h6, h7, h8, h9, h10⟩ := h
  have h2' : (t.siafundInputs.map fun i => (i.parent.id, i.claimAddress)) = t'.siafundInputs.map fun i => (i.parent.id, i.claimAddress) := by
    have key : ∀ l : List SiafundInput, (l.map fun i => (i.parent.id, i.claimAddress)) = (l.map (·.parent.id)).zip (l.map (·.claimAddress)) := by
      intro l
      rw [List.zip_map']
    rw [key, key, h2]
    exact congrArg _ hc
  have h6' : (t.fileContractResolutions.map fun r => (r.resolution.kindByte, r.parent.id, r.resolution.effect)) =
      t'.fileContractResolutions.map fun r => (r.resolution.kindByte, r.parent.id, r.resolution.effect) := by
    have : ∀ l m : List FileContractResolution, (l.map fun r => (r.parent.id, r.resolution.effect)) = (m.map fun r => (r.parent.id, r.resolution.effect)) →
        (l.map fun r => (r.resolution.kindByte, r.parent.id, r.resolution.effect)) =
          m.map fun r => (r.resolution.kindByte, r.parent.id, r.resolution.effect) := by
      intro l
      induction l with
      | nil => intro m hm; cases m with
        | nil => rfl
        | cons _ _ => cases hm
      | cons a l ih =>
        intro m hm
        cases m with
        | nil => cases hm
        | cons b m =>
          rw [List.map_cons, List.map_cons, List.cons.injEq] at hm
          have hp := Prod.mk.inj hm.1
          rw [List.map_cons, List.map_cons, ih m hm.2, kindByte_effect hp.2, hp.1, hp.2]
    exact this _ _ h6
  unfold Transaction.encodeCovering
  rw [h1, h3, h7, h8, h9, h10, flatMap_congr_map (enc .v2) (fun _ => rfl) _ _ h0,
    flatMap_congr_map (fun p : SiafundOutputID × Address => enc .v2 p.1 ++ enc .v2 p.2) (fun _ => rfl) _ _ h2',
    flatMap_congr_map (enc .v2) contract_semantics _ _ h4,
    flatMap_congr_map (fun p : FileContractID × FileContract => enc .v2 p.1 ++ enc .v2 p.2)
      (fun r => by rw [FileContractRevision.encodeSemantics, contract_semantics]) _ _ h5,
    flatMap_congr_map (fun p : UInt8 × FileContractID × ResolutionEffect => p.1 :: effectBytes p.2)
      (fun r => by rw [effectBytes_eq]) _ _ h6']

end V2

/-- C24 holds of the id that also hashes the claim addresses of siafund inputs and the kinds of resolutions: the hashed string determines,
and is determined by, all effects and the claim addresses. -/
theorem C24_repaired :
    ∃ pre : V2.Transaction → List UInt8, (∀ (H : Hasher) (t : V2.Transaction), t.idCovering H = H (pre t)) ∧
      ∀ t t' : V2.Transaction, t.Sized → t'.Sized → (pre t = pre t' ↔ t.effects = t'.effects ∧ t.claimAddresses = t'.claimAddresses) :=
  ⟨V2.Transaction.encodeCovering, fun _ _ => rfl, fun _ _ h h' =>
    ⟨V2.encodeCovering_inj h h', fun he => V2.encodeCovering_effects he.1 he.2⟩⟩

/-- The two transactions that the code confuses (`C24_resolutions_ambiguous`), and one with its claims redirected. -/
example : Sample.ambiguous1.Sized ∧ Sample.ambiguous2.Sized ∧ Sample.ambiguous1.encodeSemantics = Sample.ambiguous2.encodeSemantics ∧
    Sample.ambiguous1.encodeCovering ≠ Sample.ambiguous2.encodeCovering ∧
    ({ Sample.v2txn with siafundInputs := Sample.v2txn.siafundInputs.map fun i =>
      { i with claimAddress := Sample.h 200 } } : V2.Transaction).encodeCovering ≠ Sample.v2txn.encodeCovering :=
  ⟨Sample.sized_ambiguous1, Sample.sized_ambiguous2, by decide +kernel, by decide +kernel, by decide +kernel⟩

/-! ## C29 -/

/-- C29 for inputs, of the signature hash over the string that also has the claim addresses and the kinds of resolutions: within an era, or between two
eras after the ASIC hardfork, the string determines the era, all effects and the claim addresses, and is determined by them. -/
theorem C29_input_repaired :
    ∃ pre : ChainState → V2.Transaction → List UInt8, (∀ (H : Hasher) (cs : ChainState) (t : V2.Transaction), t.inputSigHashCovering H cs = H (pre cs t)) ∧
      ∀ (cs cs' : ChainState) (t t' : V2.Transaction), t.Sized → t'.Sized → (cs.replayPrefix = [] ↔ cs'.replayPrefix = []) →
        (pre cs t = pre cs' t' ↔ cs.replayPrefix = cs'.replayPrefix ∧ t.effects = t'.effects ∧ t.claimAddresses = t'.claimAddresses) := by
  refine ⟨fun cs t => ascii "sia/sig/input|" ++ (cs.replayPrefix ++ t.encodeCovering), fun _ _ _ => rfl, ?_⟩
  intro cs cs' t t' h h' hr
  constructor
  · intro he
    have he := List.append_cancel_left he
    have hl : cs.replayPrefix.length = cs'.replayPrefix.length := by
      rcases V1.replayPrefix_cases cs with e | ⟨b, e⟩ <;> rcases V1.replayPrefix_cases cs' with e' | ⟨b', e'⟩ <;>
        simp [e, e'] at hr ⊢
    obtain ⟨h1, h2⟩ := List.append_inj he hl
    exact ⟨h1, V2.encodeCovering_inj h h' h2⟩
  · rintro ⟨h1, h2, h3⟩
    simp only [h1, V2.encodeCovering_effects h2 h3]

/-- What the inputs of the two confused transactions sign in one era differs, and so does what one signs in two eras. -/
example : ascii "sia/sig/input|" ++ ((Sample.chain 32).replayPrefix ++ Sample.ambiguous1.encodeCovering) ≠
      ascii "sia/sig/input|" ++ ((Sample.chain 32).replayPrefix ++ Sample.ambiguous2.encodeCovering) ∧
    ((Sample.chain 22).replayPrefix = [] ↔ (Sample.chain 32).replayPrefix = []) ∧ (Sample.chain 22).replayPrefix ≠ (Sample.chain 32).replayPrefix := by
  refine ⟨?_, by decide, by decide⟩
  intro he
  have := List.append_cancel_left (List.append_cancel_left he)
  revert this
  decide +kernel

/-! ## C32 -/

theorem addLeavesWith_append (sel : Hash256 → Hash256 → Hash256) (H : Hasher) (l m : List Hash256) :
    ∀ a : Accumulator, a.addLeavesWith sel H (l ++ m) = a.addLeavesWith sel H l >>= fun a => a.addLeavesWith sel H m := by
  induction l with
  | nil => intro a; rfl
  | cons h l ih =>
    intro a
    rw [List.cons_append, Accumulator.addLeavesWith, Accumulator.addLeavesWith]
    cases a.addLeafWith sel H h with
    | ok a' => exact ih a'
    | err e => rfl
    | panic => rfl

theorem addLeavesWith_one (sel : Hash256 → Hash256 → Hash256) (H : Hasher) (h : Hash256) (a : Accumulator) :
    a.addLeavesWith sel H [h] = a.addLeafWith sel H h := by
  rw [Accumulator.addLeavesWith]
  cases a.addLeafWith sel H h <;> rfl

theorem addressMerged_eq (H : Hasher) (uc : UnlockConditions) : uc.addressMerged H =
    Accumulator.new.addLeavesWith (fun _ node => node) H (uc.leaves H) >>= fun a => pure (a.root H) := by
  have : uc.leaves H = [H ([0] ++ leBytes 8 uc.timelock.toNat)] ++ (uc.publicKeys.map (fun k => H ([0] ++ enc .v2 k)) ++
      [H ([0] ++ leBytes 8 uc.signaturesRequired.toNat)]) := by
    simp [UnlockConditions.leaves, UnlockConditions.leafStrings, Function.comp_def]
  rw [this, addLeavesWith_append, addLeavesWith_one, UnlockConditions.addressMerged]
  cases Accumulator.new.addLeafWith (fun _ node => node) H (H ([0] ++ leBytes 8 uc.timelock.toNat)) with
  | err e => rfl
  | panic => rfl
  | ok a =>
    simp only [Res.ok_bind]
    rw [addLeavesWith_append]
    cases a.addLeavesWith (fun _ node => node) H (uc.publicKeys.map fun k => H ([0] ++ enc .v2 k)) with
    | err e => rfl
    | panic => rfl
    | ok a =>
      simp only [Res.ok_bind]
      rw [addLeavesWith_one]

/-- C32 holds of the address computed with an accumulator that merges the running node (`C33_repaired`): for any number of keys it is the
Merkle root over timelock, keys and number of signatures, and commits to them all, unless two of the strings hashed collide. -/
theorem C32_repaired (H : Hasher) (uc : UnlockConditions) (h : uc.publicKeys.length + 2 < 2 ^ 64) :
    (∃ r, uc.addressMerged H = .ok r ∧ IsMerkleRoot H (uc.leaves H) r) ∧
      ∀ uc' : UnlockConditions, uc'.publicKeys.length + 2 < 2 ^ 64 → V1.SizedConditions uc → V1.SizedConditions uc' →
        (∀ s s', uc.Hashed H s → uc'.Hashed H s' → H s = H s' → s = s') → (uc.addressMerged H = uc'.addressMerged H ↔ uc = uc') := by
  have root : ∀ uc : UnlockConditions, uc.publicKeys.length + 2 < 2 ^ 64 →
      ∃ r, uc.addressMerged H = .ok r ∧ IsMerkleRoot H (uc.leaves H) r := by
    intro uc h
    obtain ⟨a, ha, hr⟩ := C33_repaired H (uc.leaves H) (by rw [leaves_length]; exact h) (leaves_ne H uc)
    rw [addressMerged_eq, ha]
    exact ⟨_, rfl, (hr _).mp rfl⟩
  refine ⟨root uc h, fun uc' h' hs hs' hc => ⟨fun he => ?_, fun e => e ▸ rfl⟩⟩
  obtain ⟨r, h1, h2⟩ := root uc h
  obtain ⟨r', h1', h2'⟩ := root uc' h'
  rw [h1, h1', Res.ok.injEq] at he
  subst he
  exact conditions_commit H uc uc' hs hs' hc h2 h2'

/-- The second key, which the code leaves out, has an influence. -/
example : (⟨1, [⟨Sample.ed25519, [7]⟩, ⟨Sample.ed25519, [20]⟩], 2⟩ : UnlockConditions).addressMerged Sample.byteSum ≠
    (⟨1, [⟨Sample.ed25519, [7]⟩, ⟨Sample.ed25519, [21]⟩], 2⟩ : UnlockConditions).addressMerged Sample.byteSum := by
  decide +kernel

/-! ## C44 -/

namespace V1

theorem pick_same {α : Type} [Codec .v1 α] [Fits α] [Lawful .v1 α] (pre : List UInt8) (l m : List α)
    (hl : ∀ a ∈ l, fits bigLim a) (hm : ∀ a ∈ m, fits bigLim a) : ∀ (is js : List U64), is.length = js.length →
    (∀ i ∈ is, i.toNat < l.length) → (∀ i ∈ js, i.toNat < m.length) → ∀ x y : List UInt8,
    pickBytes pre l is ++ x = pickBytes pre m js ++ y → is.map (l[·.toNat]?) = js.map (m[·.toNat]?) ∧ x = y
  | [], [], _, _, _, _, _, he => ⟨rfl, by simpa [pickBytes, pick] using he⟩
  | [], _ :: _, h, _, _, _, _, _ => by cases h
  | _ :: _, [], h, _, _, _, _, _ => by cases h
  | i :: is, j :: js, h, rl, rm, x, y, he => by
    have hil := rl i (by simp)
    have him := rm j (by simp)
    have unf : ∀ (l : List α) (i : U64) (is : List U64) (h : i.toNat < l.length),
        pickBytes pre l (i :: is) = pre ++ (enc .v1 l[i.toNat] ++ pickBytes pre l is) := by
      intro l i is h
      simp [pickBytes, pick, List.getElem?_eq_getElem h]
    rw [unf l i is hil, unf m j js him] at he
    simp only [List.append_assoc] at he
    obtain ⟨e1, he⟩ := selfDelimiting bigLim _ _ _ _ (hl _ (List.getElem_mem hil)) (hm _ (List.getElem_mem him))
      (List.append_cancel_left he)
    obtain ⟨e2, he⟩ := pick_same pre l m hl hm is js (by simpa using h) (fun j hj => rl j (by simp [hj])) (fun j hj => rm j (by simp [hj])) x y he
    refine ⟨?_, he⟩
    rw [List.map_cons, List.map_cons, e2, List.getElem?_eq_getElem hil, List.getElem?_eq_getElem him, e1]

theorem partialPreimage_same {t t' : Transaction} {c c' : CoveredFields} {rp : List UInt8} (h : t.AllSized) (h' : t'.AllSized)
    (n : SameCounts c c') (r : InRange t c) (r' : InRange t' c') (he : partialPreimage rp t c = partialPreimage rp t' c') :
    SameSelected t t' c c' := by
  unfold partialPreimage at he
  obtain ⟨e0, he⟩ := pick_same _ _ _ h.1.fits_siacoinInputs.2.2 h'.1.fits_siacoinInputs.2.2 _ _ n.1 r.1 r'.1 _ _ he
  obtain ⟨e1, he⟩ := pick_same _ _ _ h.1.fits_siacoinOutputs.2.2 h'.1.fits_siacoinOutputs.2.2 _ _ n.2 r.2 r'.2 _ _ he
  obtain ⟨e2, he⟩ := pick_same _ _ _ h.1.fits_fileContracts.2.2 h'.1.fits_fileContracts.2.2 _ _ n.3 r.3 r'.3 _ _ he
  obtain ⟨e3, he⟩ := pick_same _ _ _ h.1.fits_fileContractRevisions.2.2 h'.1.fits_fileContractRevisions.2.2 _ _ n.4 r.4 r'.4 _ _ he
  obtain ⟨e4, he⟩ := pick_same _ _ _ h.1.fits_storageProofs.2.2 h'.1.fits_storageProofs.2.2 _ _ n.5 r.5 r'.5 _ _ he
  obtain ⟨e5, he⟩ := pick_same _ _ _ h.1.fits_siafundInputs.2.2 h'.1.fits_siafundInputs.2.2 _ _ n.6 r.6 r'.6 _ _ he
  obtain ⟨e6, he⟩ := pick_same _ _ _ h.1.fits_siafundOutputs.2.2 h'.1.fits_siafundOutputs.2.2 _ _ n.7 r.7 r'.7 _ _ he
  obtain ⟨e7, he⟩ := pick_same _ _ _ h.1.fits_minerFees.2.2 h'.1.fits_minerFees.2.2 _ _ n.8 r.8 r'.8 _ _ he
  obtain ⟨e8, he⟩ := pick_same _ _ _ h.1.fits_arbitraryData.2.2 h'.1.fits_arbitraryData.2.2 _ _ n.9 r.9 r'.9 _ _ he
  obtain ⟨e9, -⟩ := pick_same _ _ _ (fun s hs => (h.2 s hs).fits_sig) (fun s hs => (h'.2 s hs).fits_sig) _ _ n.10 r.10 r'.10 [] []
    (by rw [he])
  exact ⟨e0, e1, e2, e3, e4, e5, e6, e7, e8, e9⟩

theorem partialPreimage_selected {t t' : Transaction} {c c' : CoveredFields} (h : SameSelected t t' c c') (rp : List UInt8) :
    partialPreimage rp t c = partialPreimage rp t' c' := by
  unfold partialPreimage pickBytes pick
  rw [h.1, h.2, h.3, h.4, h.5, h.6, h.7, h.8, h.9, h.10]

theorem partialSigHashCovering_ok (H : Hasher) (t : Transaction) (cs : ChainState) (c : CoveredFields) (h : InRange t c) :
    t.partialSigHashCovering H cs c = .ok (H (enc .v1 c ++ partialPreimage cs.replayPrefix t c)) := by
  unfold Transaction.partialSigHashCovering
  rw [coveredBytes_ok _ _ _ h.siacoinInputs, coveredBytes_ok _ _ _ h.siacoinOutputs, coveredBytes_ok _ _ _ h.fileContracts,
    coveredBytes_ok _ _ _ h.fileContractRevisions, coveredBytes_ok _ _ _ h.storageProofs, coveredBytes_ok _ _ _ h.siafundInputs,
    coveredBytes_ok _ _ _ h.siafundOutputs, coveredBytes_ok _ _ _ h.minerFees, coveredBytes_ok _ _ _ h.arbitraryData,
    coveredBytes_ok _ _ _ h.signatures]
  rfl

theorem CoveredFields.Sized.fits_covered {c : CoveredFields} (h : c.Sized) : fits bigLim c := by
  unfold CoveredFields.Sized at h
  simp only [List.mem_cons, List.not_mem_nil, or_false, forall_eq_or_imp, forall_eq] at h
  obtain ⟨h0, h1, h2, h3, h4, h5, h6, h7, h8, h9⟩ := h
  exact ⟨trivial, fits_u64s h0, fits_u64s h1, fits_u64s h2, fits_u64s h3, fits_u64s h4,
    fits_u64s h5, fits_u64s h6, fits_u64s h7, fits_u64s h8, fits_u64s h9⟩

end V1

/-- C44, partial.  For selections with equally many indices of each kind, over any two transactions in one era, the hashed strings are equal
exactly if the selected elements are the same in the same order.  Missing: different numbers of indices (`C44_selections_ambiguous`). -/
theorem C44_same_counts_partial :
    ∃ pre : ChainState → V1.Transaction → V1.CoveredFields → List UInt8,
      (∀ (H : Hasher) (cs : ChainState) (t : V1.Transaction) (c : V1.CoveredFields), V1.InRange t c → t.partialSigHash H cs c = .ok (H (pre cs t c))) ∧
      ∀ (cs cs' : ChainState) (t t' : V1.Transaction) (c c' : V1.CoveredFields), t.AllSized → t'.AllSized → V1.InRange t c →
        V1.InRange t' c' → V1.SameCounts c c' → cs.replayPrefix = cs'.replayPrefix →
        (pre cs t c = pre cs' t' c' ↔ V1.SameSelected t t' c c') := by
  refine ⟨fun cs t c => V1.partialPreimage cs.replayPrefix t c, fun H cs t c => V1.partialSigHash_ok H t cs c, ?_⟩
  intro cs cs' t t' c c' h h' r r' n hr
  simp only [hr]
  exact ⟨V1.partialPreimage_same h h' n r r', fun ha => V1.partialPreimage_selected ha _⟩

/-- Different selections of equally many elements. -/
example : V1.SameCounts { Sample.noFields with minerFees := [0] } { Sample.noFields with minerFees := [1] } ∧
    V1.InRange { Sample.v1txn with minerFees := [⟨4⟩, ⟨5⟩] } { Sample.noFields with minerFees := [1] } ∧
    ¬ V1.SameSelected { Sample.v1txn with minerFees := [⟨4⟩, ⟨5⟩] } { Sample.v1txn with minerFees := [⟨4⟩, ⟨5⟩] }
      { Sample.noFields with minerFees := [0] } { Sample.noFields with minerFees := [1] } := by
  refine ⟨⟨rfl, rfl, rfl, rfl, rfl, rfl, rfl, rfl, rfl, rfl⟩, ⟨?_, ?_, ?_, ?_, ?_, ?_, ?_, ?_, ?_, ?_⟩, fun h => absurd h.minerFees ?_⟩
  all_goals simp [Sample.noFields]

/-- C44 holds of the partial signature hash that hashes the selection too: in one era, the hashed strings are equal exactly if the selections
are equal and the transactions agree on what they select. -/
theorem C44_repaired :
    ∃ pre : ChainState → V1.Transaction → V1.CoveredFields → List UInt8,
      (∀ (H : Hasher) (cs : ChainState) (t : V1.Transaction) (c : V1.CoveredFields), V1.InRange t c →
        t.partialSigHashCovering H cs c = .ok (H (pre cs t c))) ∧
      ∀ (cs cs' : ChainState) (t t' : V1.Transaction) (c c' : V1.CoveredFields), t.AllSized → t'.AllSized → c.Sized → c'.Sized →
        V1.InRange t c → V1.InRange t' c' → cs.replayPrefix = cs'.replayPrefix →
        (pre cs t c = pre cs' t' c' ↔ c = c' ∧ V1.AgreeOn c t t') := by
  refine ⟨fun cs t c => enc .v1 c ++ V1.partialPreimage cs.replayPrefix t c, fun H cs t c => V1.partialSigHashCovering_ok H t cs c, ?_⟩
  intro cs cs' t t' c c' h h' hc hc' r r' hr
  simp only [hr]
  constructor
  · intro he
    obtain ⟨rfl, he⟩ := selfDelimiting bigLim _ _ _ _ hc.fits_covered hc'.fits_covered he
    exact ⟨rfl, V1.partialPreimage_inj h h' r r' he⟩
  · rintro ⟨rfl, ha⟩
    rw [V1.partialPreimage_congr ha]

/-- The selections that the code confuses (`C44_selections_ambiguous`). -/
example : V1.CoveredFields.Sized { Sample.noFields with minerFees := [0] } ∧ V1.CoveredFields.Sized { Sample.noFields with arbitraryData := [0] } ∧
    V1.InRange Sample.feeTxn { Sample.noFields with minerFees := [0] } ∧ V1.InRange Sample.feeTxn { Sample.noFields with arbitraryData := [0] } := by
  refine ⟨?_, ?_, ⟨?_, ?_, ?_, ?_, ?_, ?_, ?_, ?_, ?_, ?_⟩, ⟨?_, ?_, ?_, ?_, ?_, ?_, ?_, ?_, ?_, ?_⟩⟩
  all_goals simp [V1.CoveredFields.Sized, Sample.noFields, Sample.feeTxn]

end Verif
