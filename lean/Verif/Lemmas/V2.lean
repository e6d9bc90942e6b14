import Verif.Lemmas.Policy

/-!
# Laws of the v2 types
-/

namespace Verif

open Dec

variable {v : Ver} {α : Type}

instance : Lawful v V2.Attestation := inferInstance
instance : Lawful v V2.FileContract := inferInstance
instance : Lawful v V2.SiacoinElement := inferInstance
instance : Lawful v V2.SiafundElement := inferInstance
instance : Lawful v V2.FileContractElement := inferInstance
instance : Lawful v V2.ChainIndexElement := inferInstance
instance : Lawful v V2.SiacoinInput := inferInstance
instance : Lawful v V2.SiafundInput := inferInstance
instance : Lawful v V2.FileContractRevision := inferInstance
instance : Lawful v V2.FileContractRenewal := inferInstance
instance : Lawful v V2.StorageProof := inferInstance

instance : Safe v V2.Attestation := inferInstance
instance : Safe v V2.FileContract := inferInstance
instance : Safe v V2.SiacoinElement := inferInstance
instance : Safe v V2.SiafundElement := inferInstance
instance : Safe v V2.FileContractElement := inferInstance
instance : Safe v V2.ChainIndexElement := inferInstance
instance : Safe v V2.SiacoinInput := inferInstance
instance : Safe v V2.SiafundInput := inferInstance
instance : Safe v V2.FileContractRevision := inferInstance
instance : Safe v V2.FileContractRenewal := inferInstance
instance : Safe v V2.StorageProof := inferInstance

instance : Canonical .v2 V2.Attestation := inferInstance
instance : Canonical .v2 V2.FileContract := inferInstance
instance : Canonical .v2 V2.SiacoinElement := inferInstance
instance : Canonical .v2 V2.SiafundElement := inferInstance
instance : Canonical .v2 V2.FileContractElement := inferInstance
instance : Canonical .v2 V2.ChainIndexElement := inferInstance
instance : Canonical .v2 V2.SiacoinInput := inferInstance
instance : Canonical .v2 V2.SiafundInput := inferInstance
instance : Canonical .v2 V2.FileContractRevision := inferInstance
instance : Canonical .v2 V2.FileContractRenewal := inferInstance
instance : Canonical .v2 V2.StorageProof := inferInstance

namespace V2

theorem enc_resolution (x : FileContractResolution) : enc v x = enc v x.parent ++ (match x.resolution with
    | .renewal r => enc v (0 : UInt8) ++ enc v r
    | .storageProof p => enc v (1 : UInt8) ++ enc v p
    | .expiration => enc v (2 : UInt8)) := rfl

theorem dec_resolution : (dec v : Dec FileContractResolution) = ((dec v : Dec FileContractElement) >>= fun parent =>
    (dec v : Dec UInt8) >>= fun tag =>
    if tag = 0 then (dec v : Dec FileContractRenewal) >>= fun r => pure ⟨parent, .renewal r⟩
    else if tag = 1 then (dec v : Dec StorageProof) >>= fun p => pure ⟨parent, .storageProof p⟩
    else if tag = 2 then pure ⟨parent, .expiration⟩
    else Dec.fail .custom) := rfl

instance : Lawful v FileContractResolution where
  reads lim a h := by
    obtain ⟨p, r⟩ := a
    obtain ⟨h1, h2⟩ := h
    rw [enc_resolution, dec_resolution]
    refine (Lawful.reads lim p h1).bind ?_
    cases r with
    | renewal r => exact (Lawful.reads lim (0 : UInt8) trivial).bind ((Lawful.reads lim r h2).map fun _ => rfl)
    | storageProof r =>
      exact (Lawful.reads lim (1 : UInt8) trivial).bind ((Lawful.reads lim r h2).map fun _ => rfl)
    | expiration => exact (Lawful.reads lim (2 : UInt8) trivial).map fun _ => rfl
  loc := by
    rw [dec_resolution]
    refine Lawful.loc.bind fun _ => Lawful.loc.bind fun _ => ?_
    repeat' split
    · exact Lawful.loc.bind fun _ => Local.pure _
    · exact Lawful.loc.bind fun _ => Local.pure _
    · exact Local.pure _
    · exact Local.fail _

instance : Safe v FileContractResolution where
  safe := by
    rw [dec_resolution]
    refine Safe.safe.bind fun _ => Safe.safe.bind fun _ => ?_
    repeat' split
    · exact Safe.safe.bind fun _ => PanicFree.pure _
    · exact Safe.safe.bind fun _ => PanicFree.pure _
    · exact PanicFree.pure _
    · exact PanicFree.fail _

instance : Canonical .v2 FileContractResolution where
  canon lim bs a r h := by
    rw [dec_resolution] at h
    obtain ⟨p, r1, h1, h2⟩ := bind_eq_ok.mp h
    obtain ⟨t, r2, h3, h4⟩ := bind_eq_ok.mp h2
    rw [Canonical.canon _ _ _ _ h1, Canonical.canon _ _ _ _ h3]
    split at h4
    · obtain ⟨x, r3, h5, h6⟩ := bind_eq_ok.mp h4
      simp at h6
      rw [Canonical.canon _ _ _ _ h5, ← h6.1, ← h6.2, enc_resolution]
      simp_all
    split at h4
    · obtain ⟨x, r3, h5, h6⟩ := bind_eq_ok.mp h4
      simp at h6
      rw [Canonical.canon _ _ _ _ h5, ← h6.1, ← h6.2, enc_resolution]
      simp_all
    split at h4
    · simp at h4
      rw [← h4.1, ← h4.2, enc_resolution]
      simp_all
    · simp [Dec.fail] at h4

namespace Transaction

/-- The bit field tells which fields are present. -/
theorem fieldBits_test : ∀ b0 b1 b2 b3 b4 b5 b6 b7 b8 b9 b10 : Bool,
    let f := fieldBits [b0, b1, b2, b3, b4, b5, b6, b7, b8, b9, b10]
    (decide (f &&& 1 ≠ 0) = b0 ∧ decide (f &&& 2 ≠ 0) = b1 ∧ decide (f &&& 4 ≠ 0) = b2 ∧
    decide (f &&& 8 ≠ 0) = b3 ∧ decide (f &&& 16 ≠ 0) = b4 ∧ decide (f &&& 32 ≠ 0) = b5) ∧
    decide (f &&& 64 ≠ 0) = b6 ∧ decide (f &&& 128 ≠ 0) = b7 ∧ decide (f &&& 256 ≠ 0) = b8 ∧
    decide (f &&& 512 ≠ 0) = b9 ∧ decide (f &&& 1024 ≠ 0) = b10 := by
  decide +kernel

/-- The decoder after the version byte and the bit field. -/
def decodeRest (v : Ver) (f : U64) : Dec Transaction :=
  decodeField f 1 (dec v : Dec (List SiacoinInput)) [] >>= fun a0 =>
  decodeField f 2 (dec v : Dec (List SiacoinOutput)) [] >>= fun a1 =>
  decodeField f 4 (dec v : Dec (List SiafundInput)) [] >>= fun a2 =>
  decodeField f 8 (dec v : Dec (List SiafundOutput)) [] >>= fun a3 =>
  decodeField f 16 (dec v : Dec (List FileContract)) [] >>= fun a4 =>
  decodeField f 32 (dec v : Dec (List FileContractRevision)) [] >>= fun a5 =>
  decodeField f 64 (dec v : Dec (List FileContractResolution)) [] >>= fun a6 =>
  decodeField f 128 (dec v : Dec (List Attestation)) [] >>= fun a7 =>
  decodeField f 256 (dec v : Dec (List UInt8)) [] >>= fun a8 =>
  decodeField f 512 ((dec v : Dec Address) >>= fun a => pure (some a)) none >>= fun a9 =>
  decodeField f 1024 (dec v : Dec Currency) ⟨0⟩ >>= fun a10 =>
  pure ⟨a0, a1, a2, a3, a4, a5, a6, a7, a8, a9, a10⟩

theorem dec_transaction : (dec v : Dec Transaction) = ((dec v : Dec UInt8) >>= fun version =>
    if version ≠ 2 then Dec.fail .custom else (dec v : Dec U64) >>= fun f => decodeRest v f) := rfl

theorem reads_field {lim : Lim} {f m : U64} {b : Bool} {d : Dec α} {e : List UInt8} {a x : α}
    (h : decide (f &&& m ≠ 0) = b) (hb : b = true → Reads lim d e a) (hn : b = false → a = x) :
    Reads lim (decodeField f m d x) (if b then e else []) a := by
  unfold decodeField
  cases b with
  | true => simp at h; simpa [h] using hb rfl
  | false => simp at h; simpa [h, hn rfl] using Reads.pure _

theorem reads_vec [Codec v α] [Fits α] [Lawful v α] {lim : Lim} {f m : U64} {l : List α}
    (h : decide (f &&& m ≠ 0) = !l.isEmpty) (hl : fits lim l) :
    Reads lim (decodeField f m (dec v) []) (encodeVec (v := v) l) l := by
  refine reads_field (b := !l.isEmpty) (e := enc v l) h (fun _ => Lawful.reads lim l hl) (fun h => ?_)
  simpa using h

instance : Lawful v Transaction where
  reads lim t h := by
    obtain ⟨h0, h1, h2, h3, h4, h5, h6, h7, h8⟩ := h
    rw [dec_transaction]
    refine (Lawful.reads lim (2 : UInt8) trivial).bind ?_
    refine (Lawful.reads lim (fieldBits t.present) trivial).bind ?_
    obtain ⟨⟨b0, b1, b2, b3, b4, b5⟩, b6, b7, b8, b9, b10⟩ := fieldBits_test (!t.siacoinInputs.isEmpty)
      (!t.siacoinOutputs.isEmpty) (!t.siafundInputs.isEmpty) (!t.siafundOutputs.isEmpty)
      (!t.fileContracts.isEmpty) (!t.fileContractRevisions.isEmpty) (!t.fileContractResolutions.isEmpty)
      (!t.attestations.isEmpty) (!t.arbitraryData.isEmpty) t.newFoundationAddress.isSome (t.minerFee ≠ ⟨0⟩)
    unfold decodeRest
    refine (reads_vec b0 h0).bind ?_
    refine (reads_vec b1 h1).bind ?_
    refine (reads_vec b2 h2).bind ?_
    refine (reads_vec b3 h3).bind ?_
    refine (reads_vec b4 h4).bind ?_
    refine (reads_vec b5 h5).bind ?_
    refine (reads_vec b6 h6).bind ?_
    refine (reads_vec b7 h7).bind ?_
    refine (reads_vec b8 h8).bind ?_
    refine Reads.bind (a := t.newFoundationAddress) ?_ ?_
    · rw [show encodeOpt (v := v) t.newFoundationAddress =
          (if t.newFoundationAddress.isSome then encodeOpt (v := v) t.newFoundationAddress else []) by
        cases t.newFoundationAddress <;> simp [encodeOpt]]
      refine reads_field b9 (fun hb => ?_) (fun hb => by simpa using hb)
      cases ha : t.newFoundationAddress with
      | none => simp [ha] at hb
      | some a => exact (Lawful.reads lim a trivial).map fun _ => rfl
    · rw [show (if t.minerFee ≠ ⟨0⟩ then enc v t.minerFee else []) =
          (if decide (t.minerFee ≠ ⟨0⟩) then enc v t.minerFee else []) by simp]
      refine Reads.map (a := t.minerFee) (reads_field b10 (fun hb => Lawful.reads lim _ trivial)
        (fun hb => by simpa using hb)) fun _ => rfl
  loc := by
    have hf : ∀ {α : Type} (f m : U64) (d : Dec α) (x : α), Local d → Local (decodeField f m d x) := by
      intro α f m d x h
      unfold decodeField
      split
      · exact h
      · exact Local.pure _
    rw [dec_transaction]
    refine Lawful.loc.bind fun _ => ?_
    split
    · exact Local.fail _
    · refine Lawful.loc.bind fun f => ?_
      unfold decodeRest
      iterate 9 refine (hf _ _ _ _ Lawful.loc).bind fun _ => ?_
      refine (hf _ _ _ _ (Lawful.loc.bind fun _ => Local.pure _)).bind fun _ => ?_
      exact (hf _ _ _ _ Lawful.loc).bind fun _ => Local.pure _

instance : Safe v Transaction where
  safe := by
    have hf : ∀ {α : Type} (f m : U64) (d : Dec α) (x : α), PanicFree d → PanicFree (decodeField f m d x) := by
      intro α f m d x h
      unfold decodeField
      split
      · exact h
      · exact PanicFree.pure _
    rw [dec_transaction]
    refine Safe.safe.bind fun _ => ?_
    split
    · exact PanicFree.fail _
    · refine Safe.safe.bind fun f => ?_
      unfold decodeRest
      iterate 9 refine (hf _ _ _ _ Safe.safe).bind fun _ => ?_
      refine (hf _ _ _ _ (Safe.safe.bind fun _ => PanicFree.pure _)).bind fun _ => ?_
      exact (hf _ _ _ _ Safe.safe).bind fun _ => PanicFree.pure _

end Transaction

end V2

end Verif
