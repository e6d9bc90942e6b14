import Verif.Lemmas.Delim

/-!
# Injectivity of the hashed byte strings
-/

namespace Verif

theorem fits_list {α : Type} [Fits α] {l : List α} (h : l.length < 2 ^ 64) (h' : ∀ a ∈ l, fits bigLim a) : fits bigLim l :=
  ⟨Nat.le_of_lt h, h, h'⟩

theorem fits_plain_list {α : Type} [Fits α] {l : List α} (h : l.length < 2 ^ 64) (h' : ∀ a : α, fits bigLim a) : fits bigLim l :=
  ⟨Nat.le_of_lt h, h, fun a _ => h' a⟩

theorem fits_byteList {l : List UInt8} (h : l.length < 2 ^ 64) : fits bigLim l := fits_plain_list h fun _ => trivial
theorem fits_outputs {l : List SiacoinOutput} (h : l.length < 2 ^ 64) : fits bigLim l := fits_plain_list h fun _ => ⟨trivial, trivial⟩
theorem fits_hashes {l : List Hash256} (h : l.length < 2 ^ 64) : fits bigLim l := fits_plain_list h fun _ => trivial
theorem fits_u64s {l : List U64} (h : l.length < 2 ^ 64) : fits bigLim l := fits_plain_list h fun _ => trivial

theorem fits_conditions {u : UnlockConditions} (h : V1.SizedConditions u) : fits bigLim u :=
  ⟨trivial, fits_list h.1 fun k hk => ⟨trivial, fits_byteList (h.2 k hk)⟩, trivial⟩

namespace V1

variable {t t' : Transaction}

theorem Transaction.Sized.fits_siacoinInputs (h : t.Sized) : fits bigLim t.siacoinInputs :=
  fits_list h.siacoinInputs.1 fun i hi => ⟨trivial, fits_conditions (h.siacoinInputs.2 i hi)⟩
theorem Transaction.Sized.fits_siacoinOutputs (h : t.Sized) : fits bigLim t.siacoinOutputs := fits_outputs h.siacoinOutputs
theorem Transaction.Sized.fits_fileContracts (h : t.Sized) : fits bigLim t.fileContracts :=
  fits_list h.fileContracts.1 fun c hc => ⟨trivial, trivial, trivial, trivial, trivial, fits_outputs (h.fileContracts.2 c hc).1,
    fits_outputs (h.fileContracts.2 c hc).2, trivial, trivial⟩
theorem Transaction.Sized.fits_fileContractRevisions (h : t.Sized) : fits bigLim t.fileContractRevisions :=
  fits_list h.fileContractRevisions.1 fun c hc => ⟨trivial, fits_conditions (h.fileContractRevisions.2 c hc).1, trivial,
    trivial, trivial, trivial, trivial, fits_outputs (h.fileContractRevisions.2 c hc).2.1,
    fits_outputs (h.fileContractRevisions.2 c hc).2.2, trivial⟩
theorem Transaction.Sized.fits_storageProofs (h : t.Sized) : fits bigLim t.storageProofs :=
  fits_list h.storageProofs.1 fun c hc => ⟨trivial, trivial, fits_hashes (h.storageProofs.2 c hc)⟩
theorem Transaction.Sized.fits_siafundInputs (h : t.Sized) : fits bigLim t.siafundInputs :=
  fits_list h.siafundInputs.1 fun i hi => ⟨trivial, fits_conditions (h.siafundInputs.2 i hi), trivial⟩
theorem Transaction.Sized.fits_siafundOutputs (h : t.Sized) : fits bigLim t.siafundOutputs :=
  fits_plain_list h.siafundOutputs fun _ => trivial
theorem Transaction.Sized.fits_minerFees (h : t.Sized) : fits bigLim t.minerFees :=
  fits_plain_list h.minerFees fun _ => trivial
theorem Transaction.Sized.fits_arbitraryData (h : t.Sized) : fits bigLim t.arbitraryData :=
  fits_list h.arbitraryData.1 fun d hd => fits_byteList (h.arbitraryData.2 d hd)

theorem TransactionSignature.Sized.fits_sig {s : TransactionSignature} (h : s.Sized) : fits bigLim s := by
  have hc := h.covered
  simp only [List.mem_cons, List.not_mem_nil, or_false, forall_eq_or_imp, forall_eq] at hc
  obtain ⟨h0, h1, h2, h3, h4, h5, h6, h7, h8, h9⟩ := hc
  exact ⟨trivial, trivial, trivial, ⟨trivial, fits_u64s h0, fits_u64s h1, fits_u64s h2, fits_u64s h3, fits_u64s h4,
    fits_u64s h5, fits_u64s h6, fits_u64s h7, fits_u64s h8, fits_u64s h9⟩, fits_byteList h.signature⟩

/-- The fields other than the signatures. -/
abbrev Body := List SiacoinInput × List SiacoinOutput × List FileContract × List FileContractRevision ×
  List StorageProof × List SiafundInput × List SiafundOutput × List Currency × List (List UInt8)

def Transaction.body (t : Transaction) : Body := (t.siacoinInputs, t.siacoinOutputs, t.fileContracts, t.fileContractRevisions,
  t.storageProofs, t.siafundInputs, t.siafundOutputs, t.minerFees, t.arbitraryData)

theorem encodeNoSigs_eq (t : Transaction) : t.encodeNoSigs = enc .v1 t.body := rfl

theorem Transaction.Sized.fits_body (h : t.Sized) : fits bigLim t.body :=
  ⟨h.fits_siacoinInputs, h.fits_siacoinOutputs, h.fits_fileContracts, h.fits_fileContractRevisions, h.fits_storageProofs,
    h.fits_siafundInputs, h.fits_siafundOutputs, h.fits_minerFees, h.fits_arbitraryData⟩

instance : Lawful .v1 Body := inferInstance

theorem unsigned_eq_iff : t.unsigned = t'.unsigned ↔ t.body = t'.body := by
  simp only [Transaction.unsigned, Transaction.body, Transaction.mk.injEq, Prod.mk.injEq, and_true]

theorem encodeNoSigs_inj (h : t.Sized) (h' : t'.Sized) {x y : List UInt8}
    (he : t.encodeNoSigs ++ x = t'.encodeNoSigs ++ y) : t.unsigned = t'.unsigned ∧ x = y := by
  rw [encodeNoSigs_eq, encodeNoSigs_eq] at he
  obtain ⟨h1, h2⟩ := selfDelimiting bigLim _ _ _ _ h.fits_body h'.fits_body he
  exact ⟨unsigned_eq_iff.mpr h1, h2⟩

theorem encodeNoSigs_unsigned (t : Transaction) : t.unsigned.encodeNoSigs = t.encodeNoSigs := rfl

theorem encodeNoSigs_length (t : Transaction) : 72 ≤ t.encodeNoSigs.length := by
  have h : ∀ {α : Type} [Codec .v1 α] (l : List α), 8 ≤ (enc .v1 l).length := by
    intro α _ l
    rw [enc_list, List.length_append, leBytes_length]
    omega
  simp only [Transaction.encodeNoSigs, List.length_append]
  have h0 := h t.siacoinInputs; have h1 := h t.siacoinOutputs; have h2 := h t.fileContracts
  have h3 := h t.fileContractRevisions; have h4 := h t.storageProofs; have h5 := h t.siafundInputs
  have h6 := h t.siafundOutputs; have h7 := h t.minerFees; have h8 := h t.arbitraryData
  omega

end V1

namespace V1

variable {t t' : Transaction}

theorem prefixed_delim {α : Type} [Codec .v1 α] [Fits α] [Lawful .v1 α] (pre : List UInt8) :
    Delim (fun l : List α => l.length < 2 ^ 64 ∧ ∀ a ∈ l, fits bigLim a) (Transaction.prefixedInputs pre) (fun l => l) := by
  have h := ((Delim.const (c := pre) (α := α)).seq (Delim.ofCodec (v := .v1) (α := α))).counted
  intro l m x y hl hm he
  obtain ⟨h1, h2⟩ := h l m x y ⟨hl.1, fun a ha => ⟨trivial, hl.2 a ha⟩⟩ ⟨hm.1, fun a ha => ⟨trivial, hm.2 a ha⟩⟩ he
  refine ⟨?_, h2⟩
  have := congrArg (List.map Prod.snd) h1
  simpa [List.map_map, Function.comp_def] using this

/-- The string hashed by `whole_sig_hash`. -/
def wholePreimage (t : Transaction) (rp : List UInt8) (parentId : Arr 32) (publicKeyIndex timelock : U64) : List UInt8 :=
  Transaction.prefixedInputs rp t.siacoinInputs ++ (enc .v1 t.siacoinOutputs ++ (enc .v1 t.fileContracts ++
    (enc .v1 t.fileContractRevisions ++ (enc .v1 t.storageProofs ++ (Transaction.prefixedInputs rp t.siafundInputs ++
    (enc .v1 t.siafundOutputs ++ (enc .v1 t.minerFees ++ (enc .v1 t.arbitraryData ++ (parentId.1 ++
    (enc .v1 publicKeyIndex ++ enc .v1 timelock))))))))))

theorem wholePreimage_inj (h : t.Sized) (h' : t'.Sized) {rp : List UInt8} {p p' : Arr 32} {k k' l l' : U64}
    (he : wholePreimage t rp p k l = wholePreimage t' rp p' k' l') :
    t.unsigned = t'.unsigned ∧ p = p' ∧ k = k' ∧ l = l' := by
  unfold wholePreimage at he
  obtain ⟨e0, he⟩ := prefixed_delim rp _ _ _ _ ⟨h.siacoinInputs.1, h.fits_siacoinInputs.2.2⟩
    ⟨h'.siacoinInputs.1, h'.fits_siacoinInputs.2.2⟩ he
  obtain ⟨e1, he⟩ := selfDelimiting bigLim _ _ _ _ h.fits_siacoinOutputs h'.fits_siacoinOutputs he
  obtain ⟨e2, he⟩ := selfDelimiting bigLim _ _ _ _ h.fits_fileContracts h'.fits_fileContracts he
  obtain ⟨e3, he⟩ := selfDelimiting bigLim _ _ _ _ h.fits_fileContractRevisions h'.fits_fileContractRevisions he
  obtain ⟨e4, he⟩ := selfDelimiting bigLim _ _ _ _ h.fits_storageProofs h'.fits_storageProofs he
  obtain ⟨e5, he⟩ := prefixed_delim rp _ _ _ _ ⟨h.siafundInputs.1, h.fits_siafundInputs.2.2⟩
    ⟨h'.siafundInputs.1, h'.fits_siafundInputs.2.2⟩ he
  obtain ⟨e6, he⟩ := selfDelimiting bigLim _ _ _ _ h.fits_siafundOutputs h'.fits_siafundOutputs he
  obtain ⟨e7, he⟩ := selfDelimiting bigLim _ _ _ _ h.fits_minerFees h'.fits_minerFees he
  obtain ⟨e8, he⟩ := selfDelimiting bigLim _ _ _ _ h.fits_arbitraryData h'.fits_arbitraryData he
  obtain ⟨e9, he⟩ := List.append_inj he (by rw [p.2, p'.2])
  obtain ⟨e10, he⟩ := selfDelimiting bigLim _ _ _ _ trivial trivial he
  obtain ⟨e11, -⟩ := selfDelimiting (α := U64) (v := .v1) bigLim l l' [] [] trivial trivial (by rw [he])
  refine ⟨unsigned_eq_iff.mpr ?_, Subtype.ext e9, e10, e11⟩
  simp only [Transaction.body, e0, e1, e2, e3, e4, e5, e6, e7, e8]

/-! ### Replay prefixes -/

theorem flatMap_prefix_length {α : Type} [Codec .v1 α] (pre : List UInt8) (l : List α) :
    (l.flatMap fun a => pre ++ enc .v1 a).length = l.length * pre.length + (l.flatMap (enc .v1)).length := by
  induction l with
  | nil => simp
  | cons a l ih =>
    simp only [List.flatMap_cons, List.length_append, ih, List.length_cons, Nat.add_mul, Nat.one_mul]
    omega

theorem prefixed_length {α : Type} [Codec .v1 α] (pre : List UInt8) (l : List α) :
    (Transaction.prefixedInputs pre l).length = 8 + l.length * pre.length + (l.flatMap (enc .v1)).length := by
  rw [Transaction.prefixedInputs, List.length_append, flatMap_prefix_length]
  simp
  omega

theorem prefixed_head {α : Type} [Codec .v1 α] (b : UInt8) (a : α) (l : List α) (x : List UInt8) :
    (Transaction.prefixedInputs [b] (a :: l) ++ x)[8]? = some b := by
  rw [Transaction.prefixedInputs, List.append_assoc, List.getElem?_append_right (by simp)]
  simp

theorem replayPrefix_cases (cs : ChainState) : cs.replayPrefix = [] ∨ ∃ b, cs.replayPrefix = [b] := by
  unfold ChainState.replayPrefix
  split
  · exact .inr ⟨_, rfl⟩
  · split
    · exact .inr ⟨_, rfl⟩
    · split
      · exact .inr ⟨_, rfl⟩
      · exact .inl rfl

theorem wholePreimage_replay (t : Transaction) (hin : t.siacoinInputs ≠ [] ∨ t.siafundInputs ≠ []) {rp rp' : List UInt8}
    (hr : rp = [] ∨ ∃ b, rp = [b]) (hr' : rp' = [] ∨ ∃ b, rp' = [b]) (hne : rp ≠ rp') (p : Arr 32) (k l : U64) :
    wholePreimage t rp p k l ≠ wholePreimage t rp' p k l := by
  intro he
  have hlen : rp.length = rp'.length := by
    have := congrArg List.length he
    simp only [wholePreimage, List.length_append, prefixed_length] at this
    have hn : t.siacoinInputs.length + t.siafundInputs.length ≠ 0 := by
      rcases hin with h | h <;> have := List.length_pos_iff.mpr h <;> omega
    have h2 : (t.siacoinInputs.length + t.siafundInputs.length) * rp.length =
        (t.siacoinInputs.length + t.siafundInputs.length) * rp'.length := by
      rw [Nat.add_mul, Nat.add_mul]; omega
    exact Nat.eq_of_mul_eq_mul_left (Nat.pos_of_ne_zero hn) h2
  rcases hr with rfl | ⟨b, rfl⟩
  · exact hne (List.eq_nil_of_length_eq_zero hlen.symm).symm
  · rcases hr' with rfl | ⟨b', rfl⟩
    · simp at hlen
    · apply hne
      unfold wholePreimage at he
      cases hs : t.siacoinInputs with
      | cons a as =>
        rw [hs] at he
        have := congrArg (·[8]?) he
        simp only [prefixed_head] at this
        rw [Option.some.inj this]
      | nil =>
        rw [hs] at he
        have he := List.append_cancel_left he
        have he := List.append_cancel_left he
        have he := List.append_cancel_left he
        have he := List.append_cancel_left he
        have he := List.append_cancel_left he
        cases hf : t.siafundInputs with
        | nil => simp [hs, hf] at hin
        | cons a as =>
          rw [hf] at he
          have := congrArg (·[8]?) he
          simp only [prefixed_head] at this
          rw [Option.some.inj this]

end V1

/-! ## v2 -/

namespace V2

theorem contract_semantics (c : FileContract) : c.encodeSemantics = enc .v2 c.unsigned := rfl

theorem contract_delim : Delim (fun _ : FileContract => True) FileContract.encodeSemantics FileContract.unsigned := by
  intro a b x y _ _ he
  rw [contract_semantics, contract_semantics] at he
  refine selfDelimiting bigLim _ _ _ _ ?_ ?_ he <;> simp [fits]

theorem delim_hash {α : Type} (g : α → Arr 32) : Delim (fun _ : α => True) (fun a => enc .v2 (g a)) g :=
  fun _ _ _ _ _ _ he => selfDelimiting bigLim _ _ _ _ trivial trivial he

theorem revision_delim : Delim (fun _ : FileContractRevision => True) FileContractRevision.encodeSemantics
    (fun r => (r.parent.id, r.revision.unsigned)) := by
  have := (delim_hash fun r : FileContractRevision => r.parent.id).seq
    ((contract_delim).comap fun r : FileContractRevision => r.revision)
  exact this.mono fun _ _ => ⟨trivial, trivial⟩

/-- The renewal with all signatures blanked. -/
def FileContractRenewal.blank (r : FileContractRenewal) : FileContractRenewal :=
  { r with finalRevision := r.finalRevision.unsigned, newContract := r.newContract.unsigned,
           renterSignature := Arr.zero 64, hostSignature := Arr.zero 64 }

theorem renewal_semantics (r : FileContractRenewal) : r.encodeSemantics = enc .v2 r.blank := by
  unfold FileContractRenewal.encodeSemantics
  rw [contract_semantics, contract_semantics]
  rfl

theorem renewal_delim : Delim (fun _ : FileContractRenewal => True) FileContractRenewal.encodeSemantics
    FileContractRenewal.blank := by
  intro a b x y _ _ he
  rw [renewal_semantics, renewal_semantics] at he
  refine selfDelimiting bigLim _ _ _ _ ?_ ?_ he <;> simp [fits]

/-- The storage proof without the Merkle proof of the chain index. -/
def StorageProof.blank (p : StorageProof) : StorageProof :=
  { p with proofIndex := { p.proofIndex with stateElement := { p.proofIndex.stateElement with merkleProof := [] } } }

theorem proof_semantics (p : StorageProof) : p.encodeSemantics = enc .v2 p.blank := by
  unfold StorageProof.encodeSemantics ChainIndexElement.encodeSemantics
  have : enc .v2 p.blank = ((enc .v2 p.proofIndex.stateElement.leafIndex ++ enc .v2 ([] : List Hash256)) ++
      (enc .v2 p.proofIndex.id ++ enc .v2 p.proofIndex.chainIndex)) ++ (enc .v2 p.leaf ++ enc .v2 p.proof) := rfl
  rw [this]
  simp only [List.append_assoc]

theorem proof_delim : Delim (fun p : StorageProof => p.proof.length < 2 ^ 64) StorageProof.encodeSemantics
    StorageProof.blank := by
  intro a b x y ha hb he
  rw [proof_semantics, proof_semantics] at he
  refine selfDelimiting bigLim _ _ _ _ ?_ ?_ he
  · exact ⟨⟨⟨trivial, fits_hashes (show 0 < 2 ^ 64 by decide)⟩, trivial, trivial, trivial⟩, trivial, fits_hashes ha⟩
  · exact ⟨⟨⟨trivial, fits_hashes (show 0 < 2 ^ 64 by decide)⟩, trivial, trivial, trivial⟩, trivial, fits_hashes hb⟩

/-- The size condition on a resolution. -/
def ResolutionSized (r : FileContractResolution) : Prop := ∀ p, r.resolution = .storageProof p → p.proof.length < 2 ^ 64

theorem resolution_step (a b : FileContractResolution) (x y : List UInt8) (ha : ResolutionSized a) (hb : ResolutionSized b)
    (hk : a.resolution.kind = b.resolution.kind) (he : a.encodeSemantics ++ x = b.encodeSemantics ++ y) :
    (a.parent.id, a.resolution.effect) = (b.parent.id, b.resolution.effect) ∧ x = y := by
  obtain ⟨pa, ra⟩ := a
  obtain ⟨pb, rb⟩ := b
  simp only [FileContractResolution.encodeSemantics, List.append_assoc] at he
  obtain ⟨e1, he⟩ := selfDelimiting bigLim _ _ _ _ trivial trivial he
  simp only [e1, Prod.mk.injEq, true_and]
  cases ra <;> cases rb <;> simp only [ContractResolution.kind, reduceCtorEq] at hk
  · obtain ⟨e2, e3⟩ := renewal_delim _ _ _ _ trivial trivial he
    refine ⟨?_, e3⟩
    simp only [FileContractRenewal.blank, FileContractRenewal.mk.injEq] at e2
    simp only [ContractResolution.effect, e2]
  · rename_i p p' _
    obtain ⟨e2, e3⟩ := proof_delim _ _ _ _ (ha p rfl) (hb p' rfl) he
    refine ⟨?_, e3⟩
    simp only [StorageProof.blank, StorageProof.mk.injEq, ChainIndexElement.mk.injEq, StateElement.mk.injEq] at e2
    simp only [ContractResolution.effect, e2]
  · exact ⟨rfl, he⟩

theorem resolutions_step : ∀ (l m : List FileContractResolution) (x y : List UInt8), (∀ r ∈ l, ResolutionSized r) →
    (∀ r ∈ m, ResolutionSized r) → l.map (·.resolution.kind) = m.map (·.resolution.kind) →
    l.flatMap FileContractResolution.encodeSemantics ++ x = m.flatMap FileContractResolution.encodeSemantics ++ y →
    (l.map fun r => (r.parent.id, r.resolution.effect)) = (m.map fun r => (r.parent.id, r.resolution.effect)) ∧ x = y
  | [], [], _, _, _, _, _, he => ⟨rfl, by simpa using he⟩
  | a :: l, b :: m, x, y, hl, hm, hk, he => by
    simp only [List.map_cons, List.cons.injEq] at hk
    simp only [List.flatMap_cons, List.append_assoc] at he
    obtain ⟨e1, he⟩ := resolution_step a b _ _ (hl a (by simp)) (hm b (by simp)) hk.1 he
    obtain ⟨e2, he⟩ := resolutions_step l m x y (fun r hr => hl r (by simp [hr])) (fun r hr => hm r (by simp [hr])) hk.2 he
    exact ⟨by simp only [List.map_cons, e1, e2], he⟩
  | [], _ :: _, _, _, _, _, hk, _ => by simp at hk
  | _ :: _, [], _, _, _, _, hk, _ => by simp at hk

/-- What follows the resolutions. -/
abbrev Tail := List Attestation × List UInt8 × Option Address × Currency
instance : Lawful .v2 Tail := inferInstance

def Transaction.tail (t : Transaction) : Tail := (t.attestations, t.arbitraryData, t.newFoundationAddress, t.minerFee)

theorem Transaction.Sized.fits_tail {t : Transaction} (h : t.Sized) : fits bigLim t.tail :=
  ⟨fits_list h.attestations.1 fun a ha => ⟨trivial, ⟨Nat.le_of_lt (h.attestations.2 a ha).1, (h.attestations.2 a ha).1⟩,
    fits_byteList (h.attestations.2 a ha).2, trivial⟩, fits_byteList h.arbitraryData, fun _ _ => trivial, trivial⟩

theorem lenThen_eq {α : Type} (e : α → List UInt8) (l : List α) :
    lenThen e l = leBytes 8 (BitVec.ofNat 64 l.length).toNat ++ l.flatMap e := by
  simp [lenThen, enc_u64]

theorem lenThen_delim {α β : Type} {P : α → Prop} {e : α → List UInt8} {f : α → β} (h : Delim P e f) :
    Delim (fun l : List α => l.length < 2 ^ 64 ∧ ∀ a ∈ l, P a) (lenThen e) (fun l => l.map f) := by
  intro l m x y hl hm he
  rw [lenThen_eq, lenThen_eq] at he
  exact h.counted l m x y hl hm he

theorem encodeSemantics_inj {t t' : Transaction} (h : t.Sized) (h' : t'.Sized) (he : t.encodeSemantics = t'.encodeSemantics) :
    t.effects.siacoinsSpent = t'.effects.siacoinsSpent ∧ t.effects.siacoinOutputs = t'.effects.siacoinOutputs ∧
    t.effects.siafundsSpent = t'.effects.siafundsSpent ∧ t.effects.siafundOutputs = t'.effects.siafundOutputs ∧
    t.effects.contracts = t'.effects.contracts ∧ t.effects.revisions = t'.effects.revisions ∧
    t.fileContractResolutions.length = t'.fileContractResolutions.length ∧
    (t.resolutionKinds = t'.resolutionKinds → t.effects = t'.effects) := by
  unfold Transaction.encodeSemantics at he
  obtain ⟨e0, he⟩ := lenThen_delim (delim_hash fun i : SiacoinInput => i.parent.id) _ _ _ _
    ⟨h.siacoinInputs, fun _ _ => trivial⟩ ⟨h'.siacoinInputs, fun _ _ => trivial⟩ he
  obtain ⟨e1, he⟩ := selfDelimiting bigLim _ _ _ _ (fits_outputs h.siacoinOutputs) (fits_outputs h'.siacoinOutputs) he
  obtain ⟨e2, he⟩ := lenThen_delim (delim_hash fun i : SiafundInput => i.parent.id) _ _ _ _
    ⟨h.siafundInputs, fun _ _ => trivial⟩ ⟨h'.siafundInputs, fun _ _ => trivial⟩ he
  obtain ⟨e3, he⟩ := selfDelimiting bigLim _ _ _ _ (fits_plain_list h.siafundOutputs fun _ => trivial)
    (fits_plain_list h'.siafundOutputs fun _ => trivial) he
  obtain ⟨e4, he⟩ := lenThen_delim contract_delim _ _ _ _ ⟨h.fileContracts, fun _ _ => trivial⟩
    ⟨h'.fileContracts, fun _ _ => trivial⟩ he
  obtain ⟨e5, he⟩ := lenThen_delim revision_delim _ _ _ _ ⟨h.fileContractRevisions, fun _ _ => trivial⟩
    ⟨h'.fileContractRevisions, fun _ _ => trivial⟩ he
  rw [lenThen_eq, lenThen_eq, List.append_assoc, List.append_assoc, toNat_ofNat64 h.fileContractResolutions.1,
    toNat_ofNat64 h'.fileContractResolutions.1] at he
  obtain ⟨e6, he⟩ := leBytes8_append h.fileContractResolutions.1 h'.fileContractResolutions.1 he
  refine ⟨e0, e1, e2, e3, e4, e5, e6, fun hk => ?_⟩
  obtain ⟨e7, he⟩ := resolutions_step _ _ _ _ h.fileContractResolutions.2 h'.fileContractResolutions.2 hk he
  have e8 : t.tail = t'.tail :=
    (selfDelimiting (v := .v2) bigLim t.tail t'.tail [] [] h.fits_tail h'.fits_tail (by
      rw [List.append_nil, List.append_nil]; exact he)).1
  simp only [Transaction.tail, Prod.mk.injEq] at e8
  simp only [Transaction.effects, e0, e1, e2, e3, e4, e5, e7, e8]

theorem flatMap_congr_map {α β : Type} {e : α → List UInt8} {f : α → β} (g : β → List UInt8) (hg : ∀ a, e a = g (f a)) :
    ∀ l m : List α, l.map f = m.map f → lenThen e l = lenThen e m := by
  intro l m h
  have hl : l.length = m.length := by simpa using congrArg List.length h
  have : ∀ l : List α, l.flatMap e = (l.map f).flatMap g := by
    intro l
    induction l with
    | nil => rfl
    | cons a l ih => simp only [List.flatMap_cons, List.map_cons, ih, hg]
  rw [lenThen_eq, lenThen_eq, hl, this l, this m, h]

/-- The bytes written for the effect of a resolution. -/
def effectBytes : FileContractID × ResolutionEffect → List UInt8
  | (id, .renewal f n r h) => enc .v2 id ++ (enc .v2 f ++ (enc .v2 n ++ (enc .v2 r ++ (enc .v2 h ++
      (enc .v2 (Arr.zero 64) ++ enc .v2 (Arr.zero 64))))))
  | (id, .storageProof i b c l p) => enc .v2 id ++ ((enc .v2 i ++ (enc .v2 ([] : List Hash256) ++ (enc .v2 b ++ enc .v2 c))) ++
      (enc .v2 l ++ enc .v2 p))
  | (id, .expiration) => enc .v2 id

theorem effectBytes_eq (r : FileContractResolution) : r.encodeSemantics = effectBytes (r.parent.id, r.resolution.effect) := by
  obtain ⟨p, r⟩ := r
  cases r
  · simp only [FileContractResolution.encodeSemantics, ContractResolution.encodeSemantics, FileContractRenewal.encodeSemantics,
      contract_semantics, ContractResolution.effect, effectBytes]
  · rfl
  · simp [FileContractResolution.encodeSemantics, ContractResolution.encodeSemantics, ContractResolution.effect, effectBytes]

theorem encodeSemantics_effects {t t' : Transaction} (h : t.effects = t'.effects) : t.encodeSemantics = t'.encodeSemantics := by
  simp only [Transaction.effects, Effects.mk.injEq] at h
  obtain ⟨h0, h1, h2, h3, h4, h5, h6, h7, h8, h9, h10⟩ := h
  unfold Transaction.encodeSemantics
  rw [h1, h3, h7, h8, h9, h10, flatMap_congr_map (enc .v2) (fun _ => rfl) _ _ h0, flatMap_congr_map (enc .v2) (fun _ => rfl) _ _ h2,
    flatMap_congr_map (enc .v2) contract_semantics _ _ h4,
    flatMap_congr_map (fun p : FileContractID × FileContract => enc .v2 p.1 ++ enc .v2 p.2)
      (fun r => by rw [FileContractRevision.encodeSemantics, contract_semantics]) _ _ h5,
    flatMap_congr_map effectBytes effectBytes_eq _ _ h6]

end V2

/-! ## Derived identifiers -/

namespace Derivation

/-- The string hashed. -/
def pre : Derivation → List UInt8
  | claim id => id.1
  | v2Claim id => ascii "sia/id/v2siacoinclaimoutput|" ++ id.1
  | foundation id => id.1 ++ (specifier (ascii "foundation")).1
  | miner id i => id.1 ++ le8 i
  | v2Siacoin id i => ascii "sia/id/siacoinoutput|" ++ (id.1 ++ le8 i)
  | v2Siafund id i => ascii "sia/id/siafundoutput|" ++ (id.1 ++ le8 i)
  | v2FileContract id i => ascii "sia/id/filecontract|" ++ (id.1 ++ le8 i)
  | v2Attestation id i => ascii "sia/id/attestation|" ++ (id.1 ++ le8 i)
  | valid id i => (specifier (ascii "storage proof")).1 ++ (id.1 ++ ([1] ++ le8 i))
  | missed id i => (specifier (ascii "storage proof")).1 ++ (id.1 ++ ([0] ++ le8 i))
  | v2Renter id => ascii "id/v2filecontractoutput" ++ (id.1 ++ le8 0)
  | v2Host id => ascii "id/v2filecontractoutput" ++ (id.1 ++ le8 1)
  | v2Renewal id => ascii "id/v2filecontractrenewal" ++ id.1
  | siacoin t i => (specifier (ascii "siacoin output")).1 ++ (t.encodeNoSigs ++ le8 i)
  | siafund t i => (specifier (ascii "siafund output")).1 ++ (t.encodeNoSigs ++ le8 i)
  | fileContract t i => (specifier (ascii "file contract")).1 ++ (t.encodeNoSigs ++ le8 i)

theorem eval_pre (H : Hasher) (d : Derivation) : d.eval H = H d.pre := by cases d <;> rfl

theorem pre_unsigned (d : Derivation) : d.unsigned.pre = d.pre := by cases d <;> rfl

theorem le8_length (i : U64) : (le8 i).length = 8 := by simp [le8]
theorem le8_inj {i j : U64} (h : le8 i = le8 j) : i = j := by
  have := (leBytes8_append i.isLt j.isLt (x := []) (y := []) (by simpa [le8] using h)).1
  exact BitVec.eq_of_toNat_eq this

/-- Length and first bytes: what tells the derivations apart, except for the last three. -/
def shape : Derivation → Nat × List UInt8
  | claim _ => (32, [])
  | v2Claim _ => (60, ascii "sia/id/v2")
  | foundation _ => (48, [])
  | miner _ _ => (40, [])
  | v2Siacoin _ _ => (61, ascii "sia/id/siac")
  | v2Siafund _ _ => (61, ascii "sia/id/siaf")
  | v2FileContract _ _ => (60, ascii "sia/id/fi")
  | v2Attestation _ _ => (59, [])
  | valid _ _ => (57, [])
  | missed _ _ => (57, [])
  | v2Renter _ => (63, [])
  | v2Host _ => (63, [])
  | v2Renewal _ => (56, [])
  | siacoin t _ => (24 + t.encodeNoSigs.length, ascii "siac")
  | siafund t _ => (24 + t.encodeNoSigs.length, ascii "siaf")
  | fileContract t _ => (24 + t.encodeNoSigs.length, ascii "file")

theorem take_append_closed {p q : List UInt8} {n : Nat} (x : List UInt8) (h : p.take n = q) (hn : n ≤ p.length) :
    (p ++ x).take n = q := by rw [List.take_append_of_le_length hn, h]

theorem arr_len {n : Nat} (x : Arr n) : x.1.length = n := x.2

theorem pre_shape (d : Derivation) : d.pre.length = d.shape.1 ∧ d.pre.take d.shape.2.length = d.shape.2 := by
  constructor
  · cases d <;> simp only [pre, shape, List.length_append, le8_length, arr_len, List.length_cons, List.length_nil] <;>
      first | done | decide | omega
  · cases d <;> simp only [pre, shape] <;>
      first | rfl | exact take_append_closed _ (by decide) (by decide)

/-- Same parent and index once the kind is known. -/
theorem id_index_inj {a b : Arr 32} {i j : U64} (h : a.1 ++ le8 i = b.1 ++ le8 j) : a = b ∧ i = j := by
  obtain ⟨h1, h2⟩ := List.append_inj h (by rw [a.2, b.2])
  exact ⟨Subtype.ext h1, le8_inj h2⟩

theorem txn_index_inj {t t' : V1.Transaction} (hs : t.Sized) (hs' : t'.Sized) {i j : U64}
    (h : t.encodeNoSigs ++ le8 i = t'.encodeNoSigs ++ le8 j) : t.unsigned = t'.unsigned ∧ i = j := by
  obtain ⟨h1, h2⟩ := V1.encodeNoSigs_inj hs hs' h
  exact ⟨h1, le8_inj h2⟩

theorem flag_inj {a b : Arr 32} {f g : UInt8} {i j : U64} (h : a.1 ++ ([f] ++ le8 i) = b.1 ++ ([g] ++ le8 j)) :
    a = b ∧ f = g ∧ i = j := by
  obtain ⟨h1, h2⟩ := List.append_inj h (by rw [a.2, b.2])
  simp only [List.cons_append, List.nil_append, List.cons.injEq] at h2
  exact ⟨Subtype.ext h1, h2.1, le8_inj h2.2⟩

theorem pre_inj (d d' : Derivation) (hs : d.Sized) (hs' : d'.Sized) (h : d.pre = d'.pre) : d.unsigned = d'.unsigned := by
  have hl := (pre_shape d).1.symm.trans ((congrArg List.length h).trans (pre_shape d').1)
  have ht := (pre_shape d).2
  rw [h] at ht
  have ht' := (pre_shape d').2
  have htt : d.shape.2.length = d'.shape.2.length → d.shape.2 = d'.shape.2 := by
    intro e; rw [← ht, ← ht', e]
  clear ht ht'
  cases d <;> cases d' <;>
    first
    | (exfalso; simp only [shape] at hl; omega; done)
    | (exfalso; simp only [shape] at htt; exact absurd (htt (by decide)) (by decide))
    | (exfalso; simp only [shape] at hl; have h1 := V1.encodeNoSigs_length ‹_›; omega)
    | skip
  case claim a b => exact congrArg claim (Subtype.ext h)
  case v2Claim a b => exact congrArg v2Claim (Subtype.ext (List.append_cancel_left h))
  case foundation a b => exact congrArg foundation (Subtype.ext (List.append_cancel_right h))
  case miner a i b j => obtain ⟨rfl, rfl⟩ := id_index_inj h; rfl
  case v2Siacoin a i b j => obtain ⟨rfl, rfl⟩ := id_index_inj (List.append_cancel_left h); rfl
  case v2Siafund a i b j => obtain ⟨rfl, rfl⟩ := id_index_inj (List.append_cancel_left h); rfl
  case v2FileContract a i b j => obtain ⟨rfl, rfl⟩ := id_index_inj (List.append_cancel_left h); rfl
  case v2Attestation a i b j => obtain ⟨rfl, rfl⟩ := id_index_inj (List.append_cancel_left h); rfl
  case valid.valid a i b j => obtain ⟨rfl, -, rfl⟩ := flag_inj (List.append_cancel_left h); rfl
  case missed.missed a i b j => obtain ⟨rfl, -, rfl⟩ := flag_inj (List.append_cancel_left h); rfl
  case valid.missed a i b j => obtain ⟨-, h, -⟩ := flag_inj (List.append_cancel_left h); exact absurd h (by decide)
  case missed.valid a i b j => obtain ⟨-, h, -⟩ := flag_inj (List.append_cancel_left h); exact absurd h (by decide)
  case v2Renter.v2Renter a b => obtain ⟨rfl, -⟩ := id_index_inj (List.append_cancel_left h); rfl
  case v2Host.v2Host a b => obtain ⟨rfl, -⟩ := id_index_inj (List.append_cancel_left h); rfl
  case v2Renter.v2Host a b => obtain ⟨-, h⟩ := id_index_inj (List.append_cancel_left h); exact absurd h (by decide)
  case v2Host.v2Renter a b => obtain ⟨-, h⟩ := id_index_inj (List.append_cancel_left h); exact absurd h (by decide)
  case v2Renewal a b => exact congrArg v2Renewal (Subtype.ext (List.append_cancel_left h))
  case siacoin t i t' j =>
    obtain ⟨e, rfl⟩ := txn_index_inj hs hs' (List.append_cancel_left h); exact congrArg (siacoin · i) e
  case siafund t i t' j =>
    obtain ⟨e, rfl⟩ := txn_index_inj hs hs' (List.append_cancel_left h); exact congrArg (siafund · i) e
  case fileContract t i t' j =>
    obtain ⟨e, rfl⟩ := txn_index_inj hs hs' (List.append_cancel_left h); exact congrArg (fileContract · i) e

end Derivation

/-! ## Signed messages of v2 -/

namespace Signed

/-- The constant at the start. -/
def Purpose.tag : Purpose → List UInt8
  | .attestation => ascii "sia/sig/attestation|"
  | .contract => ascii "sia/sig/filecontract|"
  | .renewal => ascii "sia/sig/filecontractrenewal|"
  | .input => ascii "sia/sig/input|"

theorem tag_inj (p p' : Purpose) (x y : List UInt8) (h : p.tag ++ x = p'.tag ++ y) : p = p' := by
  have h1 := congrArg (List.take 9) h
  have h2 := congrArg (List.take 21) h
  have l9 : ∀ p : Purpose, 9 ≤ p.tag.length := by intro p; cases p <;> decide
  rw [List.take_append_of_le_length (l9 p), List.take_append_of_le_length (l9 p')] at h1
  cases p <;> cases p' <;> first | rfl | exact absurd h1 (by decide) | skip
  · rw [List.take_append_of_le_length (by decide), List.take_append_of_le_length (by decide)] at h2
    exact absurd h2 (by decide)
  · rw [List.take_append_of_le_length (by decide), List.take_append_of_le_length (by decide)] at h2
    exact absurd h2 (by decide)

/-- What follows the tag and the replay prefix. -/
def message : Signed → List UInt8
  | attestation a => a.encodeSemantics
  | contract c => c.encodeSemantics
  | renewal r => r.encodeSemantics
  | input t => t.encodeSemantics

/-- The string hashed. -/
def pre (cs : ChainState) (s : Signed) : List UInt8 := s.purpose.tag ++ (cs.replayPrefix ++ s.message)

theorem sigHash_pre (H : Hasher) (cs : ChainState) (s : Signed) : s.sigHash H cs = H (s.pre cs) := by cases s <;> rfl

theorem pre_purpose {cs cs' : ChainState} {s s' : Signed} (h : s.pre cs = s'.pre cs') : s.purpose = s'.purpose :=
  tag_inj _ _ _ _ h

theorem pre_parts {cs cs' : ChainState} {s s' : Signed} (he : cs.replayPrefix = [] ↔ cs'.replayPrefix = [])
    (h : s.pre cs = s'.pre cs') :
    s.purpose = s'.purpose ∧ cs.replayPrefix = cs'.replayPrefix ∧ s.message = s'.message := by
  have hp := pre_purpose h
  rw [pre, pre, hp] at h
  have h := List.append_cancel_left h
  have hl : cs.replayPrefix.length = cs'.replayPrefix.length := by
    rcases V1.replayPrefix_cases cs with e | ⟨b, e⟩ <;> rcases V1.replayPrefix_cases cs' with e' | ⟨b', e'⟩ <;>
      simp [e, e'] at he ⊢
  obtain ⟨h1, h2⟩ := List.append_inj h hl
  exact ⟨hp, h1, h2⟩

theorem message_unsigned (s : Signed) : s.unsigned.message = s.message := by
  cases s
  · rfl
  · simp only [unsigned, message, V2.contract_semantics]; rfl
  · simp only [unsigned, message, V2.renewal_semantics]; rfl
  · rfl

theorem attestation_semantics (a : V2.Attestation) :
    a.encodeSemantics = enc .v2 ({ a with signature := Arr.zero 64 } : V2.Attestation) := rfl

theorem fits_attestation {a : V2.Attestation} (h : (attestation a).Sized) :
    fits bigLim ({ a with signature := Arr.zero 64 } : V2.Attestation) :=
  ⟨trivial, ⟨Nat.le_of_lt h.1, h.1⟩, fits_byteList h.2, trivial⟩

theorem message_inj {s s' : Signed} (hp : s.purpose = s'.purpose) (hs : s.Sized) (hs' : s'.Sized) (hi : s.purpose ≠ .input)
    (h : s.message = s'.message) : s.unsigned = s'.unsigned := by
  cases s <;> cases s' <;> first | (simp only [purpose, reduceCtorEq] at hp; done) | skip
  · rename_i a a'
    simp only [message, attestation_semantics] at h
    exact congrArg attestation (selfDelimiting (v := .v2) bigLim _ _ [] [] (fits_attestation hs) (fits_attestation hs')
      (by rw [h])).1
  · exact congrArg contract (V2.contract_delim.inj trivial trivial h)
  · exact congrArg renewal (V2.renewal_delim.inj trivial trivial h)
  · exact absurd rfl hi

end Signed

/-! ## Partial signatures -/

namespace V1

open Transaction

/-- The selected elements. -/
def pick {α : Type} (l : List α) (is : List U64) : List (Option α) := is.map fun i => l[i.toNat]?

/-- The bytes of the selected elements. -/
def pickBytes {α : Type} [Codec .v1 α] (pre : List UInt8) (l : List α) (is : List U64) : List UInt8 :=
  (pick l is).flatMap fun o => match o with | some a => pre ++ enc .v1 a | none => []

theorem coveredBytes_ok {α : Type} [Codec .v1 α] (pre : List UInt8) (l : List α) (is : List U64)
    (h : ∀ i ∈ is, i.toNat < l.length) : coveredBytes pre l is = .ok (pickBytes pre l is) := by
  induction is with
  | nil => rfl
  | cons i is ih =>
    have hi := h i (by simp)
    rw [coveredBytes, dif_pos hi, ih fun j hj => h j (by simp [hj])]
    simp [pickBytes, pick, List.getElem?_eq_getElem hi]

theorem coveredBytes_err {α : Type} [Codec .v1 α] (pre : List UInt8) (l : List α) (is : List U64)
    (h : ¬ ∀ i ∈ is, i.toNat < l.length) : coveredBytes pre l is = .err .custom := by
  induction is with
  | nil => simp at h
  | cons i is ih =>
    rw [coveredBytes]
    by_cases hi : i.toNat < l.length
    · rw [dif_pos hi, ih (by simpa [hi] using h)]
      rfl
    · rw [dif_neg hi]

/-- The string hashed by `partial_sig_hash`. -/
def partialPreimage (rp : List UInt8) (t : Transaction) (c : CoveredFields) : List UInt8 :=
  pickBytes rp t.siacoinInputs c.siacoinInputs ++ (pickBytes [] t.siacoinOutputs c.siacoinOutputs ++
  (pickBytes [] t.fileContracts c.fileContracts ++ (pickBytes [] t.fileContractRevisions c.fileContractRevisions ++
  (pickBytes [] t.storageProofs c.storageProofs ++ (pickBytes rp t.siafundInputs c.siafundInputs ++
  (pickBytes [] t.siafundOutputs c.siafundOutputs ++ (pickBytes [] t.minerFees c.minerFees ++
  (pickBytes [] t.arbitraryData c.arbitraryData ++ pickBytes [] t.signatures c.signatures))))))))

theorem partialSigHash_ok (H : Hasher) (t : Transaction) (cs : ChainState) (c : CoveredFields) (h : InRange t c) :
    t.partialSigHash H cs c = .ok (H (partialPreimage cs.replayPrefix t c)) := by
  unfold partialSigHash
  rw [coveredBytes_ok _ _ _ h.siacoinInputs, coveredBytes_ok _ _ _ h.siacoinOutputs, coveredBytes_ok _ _ _ h.fileContracts,
    coveredBytes_ok _ _ _ h.fileContractRevisions, coveredBytes_ok _ _ _ h.storageProofs, coveredBytes_ok _ _ _ h.siafundInputs,
    coveredBytes_ok _ _ _ h.siafundOutputs, coveredBytes_ok _ _ _ h.minerFees, coveredBytes_ok _ _ _ h.arbitraryData,
    coveredBytes_ok _ _ _ h.signatures]
  rfl

theorem covered_cases {α : Type} [Codec .v1 α] (pre : List UInt8) (l : List α) (is : List U64) :
    ((∀ i ∈ is, i.toNat < l.length) ∧ coveredBytes pre l is = .ok (pickBytes pre l is)) ∨
    ((¬ ∀ i ∈ is, i.toNat < l.length) ∧ coveredBytes pre l is = .err .custom) := by
  by_cases h : ∀ i ∈ is, i.toNat < l.length
  · exact .inl ⟨h, coveredBytes_ok pre l is h⟩
  · exact .inr ⟨h, coveredBytes_err pre l is h⟩

theorem partialSigHash_err (H : Hasher) (t : Transaction) (cs : ChainState) (c : CoveredFields) (h : ¬ InRange t c) :
    t.partialSigHash H cs c = .err .custom := by
  unfold partialSigHash
  rcases covered_cases cs.replayPrefix t.siacoinInputs c.siacoinInputs with ⟨h0, e0⟩ | ⟨-, e0⟩ <;> rw [e0]
  case inr => rfl
  rcases covered_cases [] t.siacoinOutputs c.siacoinOutputs with ⟨h1, e1⟩ | ⟨-, e1⟩ <;> rw [e1]
  case inr => rfl
  rcases covered_cases [] t.fileContracts c.fileContracts with ⟨h2, e2⟩ | ⟨-, e2⟩ <;> rw [e2]
  case inr => rfl
  rcases covered_cases [] t.fileContractRevisions c.fileContractRevisions with ⟨h3, e3⟩ | ⟨-, e3⟩ <;> rw [e3]
  case inr => rfl
  rcases covered_cases [] t.storageProofs c.storageProofs with ⟨h4, e4⟩ | ⟨-, e4⟩ <;> rw [e4]
  case inr => rfl
  rcases covered_cases cs.replayPrefix t.siafundInputs c.siafundInputs with ⟨h5, e5⟩ | ⟨-, e5⟩ <;> rw [e5]
  case inr => rfl
  rcases covered_cases [] t.siafundOutputs c.siafundOutputs with ⟨h6, e6⟩ | ⟨-, e6⟩ <;> rw [e6]
  case inr => rfl
  rcases covered_cases [] t.minerFees c.minerFees with ⟨h7, e7⟩ | ⟨-, e7⟩ <;> rw [e7]
  case inr => rfl
  rcases covered_cases [] t.arbitraryData c.arbitraryData with ⟨h8, e8⟩ | ⟨-, e8⟩ <;> rw [e8]
  case inr => rfl
  rcases covered_cases [] t.signatures c.signatures with ⟨h9, e9⟩ | ⟨-, e9⟩ <;> rw [e9]
  case inr => rfl
  exact absurd ⟨h0, h1, h2, h3, h4, h5, h6, h7, h8, h9⟩ h

theorem pick_congr {α : Type} {l m : List α} {is : List U64} (h : ∀ i ∈ is, l[i.toNat]? = m[i.toNat]?) : pick l is = pick m is :=
  List.map_congr_left h

theorem inRange_congr {t t' : Transaction} {c : CoveredFields} (h : AgreeOn c t t') : InRange t c → InRange t' c := by
  have key : ∀ {α : Type} {l m : List α} {is : List U64}, (∀ i ∈ is, l[i.toNat]? = m[i.toNat]?) →
      (∀ i ∈ is, i.toNat < l.length) → ∀ i ∈ is, i.toNat < m.length := by
    intro α l m is h h' i hi
    have e := h i hi
    rw [List.getElem?_eq_getElem (h' i hi)] at e
    exact (List.getElem?_eq_some_iff.mp e.symm).1
  intro r
  exact ⟨key h.1 r.1, key h.2 r.2, key h.3 r.3, key h.4 r.4, key h.5 r.5, key h.6 r.6, key h.7 r.7, key h.8 r.8, key h.9 r.9,
    key h.10 r.10⟩

theorem partialPreimage_congr {t t' : Transaction} {c : CoveredFields} (h : AgreeOn c t t') (rp : List UInt8) :
    partialPreimage rp t c = partialPreimage rp t' c := by
  unfold partialPreimage pickBytes
  rw [pick_congr h.siacoinInputs, pick_congr h.siacoinOutputs, pick_congr h.fileContracts, pick_congr h.fileContractRevisions,
    pick_congr h.storageProofs, pick_congr h.siafundInputs, pick_congr h.siafundOutputs, pick_congr h.minerFees,
    pick_congr h.arbitraryData, pick_congr h.signatures]

theorem pick_inj {α : Type} [Codec .v1 α] [Fits α] [Lawful .v1 α] (pre : List UInt8) (l m : List α) (is : List U64)
    (hl : ∀ a ∈ l, fits bigLim a) (hm : ∀ a ∈ m, fits bigLim a) (rl : ∀ i ∈ is, i.toNat < l.length)
    (rm : ∀ i ∈ is, i.toNat < m.length) (x y : List UInt8) (he : pickBytes pre l is ++ x = pickBytes pre m is ++ y) :
    (∀ i ∈ is, l[i.toNat]? = m[i.toNat]?) ∧ x = y := by
  induction is with
  | nil => exact ⟨by simp, by simpa [pickBytes, pick] using he⟩
  | cons i is ih =>
    have hil := rl i (by simp)
    have him := rm i (by simp)
    have unf : ∀ (l : List α) (h : i.toNat < l.length),
        pickBytes pre l (i :: is) = pre ++ (enc .v1 l[i.toNat] ++ pickBytes pre l is) := by
      intro l h
      simp [pickBytes, pick, List.getElem?_eq_getElem h]
    rw [unf l hil, unf m him] at he
    simp only [List.append_assoc] at he
    obtain ⟨e1, he⟩ := selfDelimiting bigLim _ _ _ _ (hl _ (List.getElem_mem hil)) (hm _ (List.getElem_mem him))
      (List.append_cancel_left he)
    obtain ⟨e2, he⟩ := ih (fun j hj => rl j (by simp [hj])) (fun j hj => rm j (by simp [hj])) he
    refine ⟨?_, he⟩
    intro j hj
    rcases List.mem_cons.mp hj with rfl | hj
    · rw [List.getElem?_eq_getElem hil, List.getElem?_eq_getElem him, e1]
    · exact e2 j hj

theorem partialPreimage_inj {t t' : Transaction} {c : CoveredFields} {rp : List UInt8} (h : t.AllSized) (h' : t'.AllSized)
    (r : InRange t c) (r' : InRange t' c) (he : partialPreimage rp t c = partialPreimage rp t' c) : AgreeOn c t t' := by
  unfold partialPreimage at he
  obtain ⟨e0, he⟩ := pick_inj _ _ _ _ h.1.fits_siacoinInputs.2.2 h'.1.fits_siacoinInputs.2.2 r.1 r'.1 _ _ he
  obtain ⟨e1, he⟩ := pick_inj _ _ _ _ h.1.fits_siacoinOutputs.2.2 h'.1.fits_siacoinOutputs.2.2 r.2 r'.2 _ _ he
  obtain ⟨e2, he⟩ := pick_inj _ _ _ _ h.1.fits_fileContracts.2.2 h'.1.fits_fileContracts.2.2 r.3 r'.3 _ _ he
  obtain ⟨e3, he⟩ := pick_inj _ _ _ _ h.1.fits_fileContractRevisions.2.2 h'.1.fits_fileContractRevisions.2.2 r.4 r'.4 _ _ he
  obtain ⟨e4, he⟩ := pick_inj _ _ _ _ h.1.fits_storageProofs.2.2 h'.1.fits_storageProofs.2.2 r.5 r'.5 _ _ he
  obtain ⟨e5, he⟩ := pick_inj _ _ _ _ h.1.fits_siafundInputs.2.2 h'.1.fits_siafundInputs.2.2 r.6 r'.6 _ _ he
  obtain ⟨e6, he⟩ := pick_inj _ _ _ _ h.1.fits_siafundOutputs.2.2 h'.1.fits_siafundOutputs.2.2 r.7 r'.7 _ _ he
  obtain ⟨e7, he⟩ := pick_inj _ _ _ _ h.1.fits_minerFees.2.2 h'.1.fits_minerFees.2.2 r.8 r'.8 _ _ he
  obtain ⟨e8, he⟩ := pick_inj _ _ _ _ h.1.fits_arbitraryData.2.2 h'.1.fits_arbitraryData.2.2 r.9 r'.9 _ _ he
  obtain ⟨e9, -⟩ := pick_inj _ _ _ _ (fun s hs => (h.2 s hs).fits_sig) (fun s hs => (h'.2 s hs).fits_sig) r.10 r'.10 [] []
    (by rw [he])
  exact ⟨e0, e1, e2, e3, e4, e5, e6, e7, e8, e9⟩

end V1

end Verif
