import Verif.Lemmas.Spec

/-!
# Which accepted v2 transactions are not canonical, and what an overfull threshold decodes to
-/

namespace Verif

open Dec

namespace V2.Transaction

/-- The fields after the bit field. -/
def encodeRest (v : Ver) (t : Transaction) : List UInt8 :=
  (encodeVec (v := v) t.siacoinInputs ++ (encodeVec (v := v) t.siacoinOutputs ++
    (encodeVec (v := v) t.siafundInputs ++ (encodeVec (v := v) t.siafundOutputs ++
    (encodeVec (v := v) t.fileContracts ++ (encodeVec (v := v) t.fileContractRevisions ++
    (encodeVec (v := v) t.fileContractResolutions ++ (encodeVec (v := v) t.attestations ++
    (encodeVec (v := v) t.arbitraryData ++
    (encodeOpt (v := v) t.newFoundationAddress ++
    (if t.minerFee ≠ ⟨0⟩ then enc v t.minerFee else [])))))))))))

theorem enc_transaction {v : Ver} (t : Transaction) : enc v t =
    enc v (2 : UInt8) ++ (enc v (fieldBits t.present) ++ encodeRest v t) := rfl

theorem canon_vec {v : Ver} {α : Type} [Codec v α] [Canonical v α] {lim : Lim} {f m : U64} {l : List α}
    {bs r : List UInt8} (h : decodeField f m (dec v) [] lim bs = .ok (l, r))
    (hb : decide (f &&& m ≠ 0) = !l.isEmpty) : bs = encodeVec (v := v) l ++ r := by
  unfold decodeField at h
  unfold encodeVec
  split at h
  · rename_i hc
    rw [← hb, decide_eq_true hc, if_pos rfl]
    exact Canonical.canon lim bs l r h
  · rename_i hc
    rw [← hb, decide_eq_false hc, if_neg (by simp)]
    simp at h
    simp [h.2]

theorem canon_rest {lim : Lim} {bs r : List UInt8} {t : Transaction}
    (h : decodeRest .v2 (fieldBits t.present) lim bs = .ok (t, r)) : bs = encodeRest .v2 t ++ r := by
  obtain ⟨⟨b0, b1, b2, b3, b4, b5⟩, b6, b7, b8, b9, b10⟩ := fieldBits_test (!t.siacoinInputs.isEmpty)
    (!t.siacoinOutputs.isEmpty) (!t.siafundInputs.isEmpty) (!t.siafundOutputs.isEmpty)
    (!t.fileContracts.isEmpty) (!t.fileContractRevisions.isEmpty) (!t.fileContractResolutions.isEmpty)
    (!t.attestations.isEmpty) (!t.arbitraryData.isEmpty) t.newFoundationAddress.isSome (t.minerFee ≠ ⟨0⟩)
  change decide (fieldBits t.present &&& 1 ≠ 0) = _ at b0
  change decide (fieldBits t.present &&& 2 ≠ 0) = _ at b1
  change decide (fieldBits t.present &&& 4 ≠ 0) = _ at b2
  change decide (fieldBits t.present &&& 8 ≠ 0) = _ at b3
  change decide (fieldBits t.present &&& 16 ≠ 0) = _ at b4
  change decide (fieldBits t.present &&& 32 ≠ 0) = _ at b5
  change decide (fieldBits t.present &&& 64 ≠ 0) = _ at b6
  change decide (fieldBits t.present &&& 128 ≠ 0) = _ at b7
  change decide (fieldBits t.present &&& 256 ≠ 0) = _ at b8
  change decide (fieldBits t.present &&& 512 ≠ 0) = _ at b9
  change decide (fieldBits t.present &&& 1024 ≠ 0) = _ at b10
  generalize fieldBits t.present = f at *
  unfold decodeRest at h
  obtain ⟨_, _, h0, h⟩ := bind_eq_ok.mp h
  obtain ⟨_, _, h1, h⟩ := bind_eq_ok.mp h
  obtain ⟨_, _, h2, h⟩ := bind_eq_ok.mp h
  obtain ⟨_, _, h3, h⟩ := bind_eq_ok.mp h
  obtain ⟨_, _, h4, h⟩ := bind_eq_ok.mp h
  obtain ⟨_, _, h5, h⟩ := bind_eq_ok.mp h
  obtain ⟨_, _, h6, h⟩ := bind_eq_ok.mp h
  obtain ⟨_, _, h7, h⟩ := bind_eq_ok.mp h
  obtain ⟨_, _, h8, h⟩ := bind_eq_ok.mp h
  obtain ⟨a9, r9, h9, h⟩ := bind_eq_ok.mp h
  obtain ⟨a10, r10, h10, h⟩ := bind_eq_ok.mp h
  simp at h
  obtain ⟨rfl, rfl⟩ := h
  rw [canon_vec h0 b0, canon_vec h1 b1, canon_vec h2 b2, canon_vec h3 b3, canon_vec h4 b4, canon_vec h5 b5,
    canon_vec h6 b6, canon_vec h7 b7, canon_vec h8 b8]
  unfold encodeRest
  simp only [List.append_assoc]
  congr 9
  have e9 : ∀ {x s : List UInt8}, decodeField f 512 ((dec .v2 : Dec Address) >>= fun a => pure (some a)) none lim x =
      .ok (a9, s) → x = encodeOpt (v := .v2) a9 ++ s := by
    intro x s h
    unfold decodeField at h
    split at h
    · obtain ⟨a, r, h1, h2⟩ := bind_eq_ok.mp h
      simp at h2
      obtain ⟨rfl, rfl⟩ := h2
      exact Canonical.canon lim x a _ h1
    · rename_i hc
      simp at h
      simp [← h.1, h.2, encodeOpt]
  have e10 : r9 = (if a10 ≠ ⟨0⟩ then enc .v2 a10 else []) ++ r10 := by
    unfold decodeField at h10
    split at h10
    · rename_i hc
      have := Canonical.canon lim r9 a10 r10 h10
      rw [decide_eq_true hc] at b10
      rw [if_pos (of_decide_eq_true b10.symm)]
      exact this
    · rename_i hc
      simp at h10
      simp [← h10.1, h10.2]
  rw [e9 h9, e10]

theorem canonical_of_header {lim : Lim} {bs r : List UInt8} {t : Transaction}
    (h : (dec .v2 : Dec Transaction) lim bs = .ok (t, r)) (hh : bs.take 9 = (enc .v2 t).take 9) :
    bs = enc .v2 t ++ r := by
  rw [dec_transaction] at h
  obtain ⟨ver, s, h1, h2⟩ := bind_eq_ok.mp h
  split at h2
  · simp [Dec.fail] at h2
  · obtain ⟨f, s', h3, h4⟩ := bind_eq_ok.mp h2
    have e1 := Canonical.canon _ _ _ _ h1
    have e2 := Canonical.canon _ _ _ _ h3
    have l1 : (enc .v2 ver).length = 1 := rfl
    have l2 : ∀ f : U64, (enc .v2 f).length = 8 := fun f => leBytes_length _ _
    rw [e1, e2, enc_transaction] at hh
    rw [← List.append_assoc, List.take_left' (by simp [l1, l2]), ← List.append_assoc,
      List.take_left' (by simp [l2]; rfl)] at hh
    obtain ⟨h5, h6⟩ := List.append_inj hh rfl
    have h7 : f = fieldBits t.present := by
      have := selfDelimiting (v := .v2) (α := U64) lim f (fieldBits t.present) [] [] trivial trivial
      simp only [List.append_nil] at this
      exact (this h6).1
    rw [h7] at h4
    rw [e1, e2, canon_rest h4, h5, h7, enc_transaction]
    simp

end V2.Transaction

namespace SpendPolicy

/-- The encoding of a threshold over too many policies is that of its first `len % 256`, followed by the rest. -/
theorem enc_threshold_take (n : UInt8) (ps : List SpendPolicy) :
    enc .v2 (threshold n ps) = enc .v2 (threshold n (ps.take (ps.length % 256))) ++
      (ps.drop (ps.length % 256)).flatMap encodePolicy := by
  have hl : (ps.take (ps.length % 256)).length = ps.length % 256 := by
    rw [List.length_take]
    have := Nat.mod_le ps.length 256
    omega
  have hb : UInt8.ofNat (ps.take (ps.length % 256)).length = UInt8.ofNat ps.length := by
    rw [hl]
    apply UInt8.toNat_inj.mp
    simp
  simp only [enc_policy, encodePolicy, hb, typePrefix, encodePolicies_eq, List.append_assoc]
  congr 4
  rw [← List.flatMap_append, List.take_append_drop]

end SpendPolicy

end Verif
