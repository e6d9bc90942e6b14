import Verif.Props.Layout
import Verif.Props.Repaired

/-!
# Comparing the strings hashed for different purposes
-/

namespace Verif

open Layout

/-- Two strings that no hash function tells apart are equal. -/
theorem eq_of_hashes {x y : List UInt8} (h : ∀ H : Hasher, H x = H y) : x = y := by
  apply Decidable.byContradiction
  intro hne
  have := h fun z => if z = x then ⟨List.replicate 32 0, by simp⟩ else ⟨List.replicate 32 1, by simp⟩
  simp only [↓reduceIte, if_neg (Ne.symm hne)] at this
  exact absurd (congrArg Subtype.val this) (by decide)

theorem whole_string (cs : ChainState) (t : V1.Transaction) (p : Arr 32) (k l : U64) :
    wholeTransaction (replay cs) t p k l = V1.wholePreimage t cs.replayPrefix p k l :=
  eq_of_hashes fun H => (C56_v1_whole H t cs p k l).symm

theorem signed_string (cs : ChainState) (s : Signed) : signedMessage (replay cs) s = s.pre cs :=
  eq_of_hashes fun H => (C56_v2_signatures H cs s).symm.trans (Signed.sigHash_pre H cs s)

theorem selected_string (cs : ChainState) (t : V1.Transaction) (c : V1.CoveredFields) (h : V1.InRange t c) :
    selectedFields (replay cs) t c = V1.partialPreimage cs.replayPrefix t c :=
  eq_of_hashes fun H => by
    have h1 := C56_v1_selected H t cs c h
    rw [V1.partialSigHash_ok H t cs c h] at h1
    exact (Res.ok.inj h1).symm

theorem v1_id_string (t : V1.Transaction) : v1Unsigned t = t.encodeNoSigs :=
  eq_of_hashes fun H => (C56_transaction_ids H t ⟨[], [], [], [], [], [], [], [], [], none, ⟨0⟩⟩).1.symm

theorem v2_id_string (t : V2.Transaction) : v2Effects t = t.encodeSemantics :=
  eq_of_hashes fun H => (C56_transaction_ids H ⟨[], [], [], [], [], [], [], [], [], []⟩ t).2.symm

/-! ## First bytes -/

theorem leBytes_take (n : Nat) (x : List UInt8) : (leBytes 8 n ++ x).take 8 = leBytes 8 n := by
  rw [List.take_append_of_le_length (by simp), List.take_of_length_le (by simp)]

/-- A string that starts with a small count does not start with the given text. -/
theorem count_ne {n : Nat} (hn : n < 2 ^ 56) {x y tag : List UInt8} (ht : 8 ≤ tag.length) (hv : 2 ^ 56 ≤ leVal (tag.take 8)) :
    leBytes 8 n ++ x ≠ tag ++ y := by
  intro h
  have h := congrArg (List.take 8) h
  rw [leBytes_take, List.take_append_of_le_length ht] at h
  have h := congrArg leVal h
  rw [leVal_leBytes_of_lt (Nat.lt_of_lt_of_le hn (by decide))] at h
  omega

theorem signed_take (cs : ChainState) (s : Signed) : (s.pre cs).take 8 = ascii "sia/sig/" := by
  unfold Signed.pre
  rw [List.take_append_of_le_length]
  · cases s.purpose <;> decide
  · cases s.purpose <;> decide

theorem whole_take (t : V1.Transaction) (rp : List UInt8) (p : Arr 32) (k l : U64) :
    (V1.wholePreimage t rp p k l).take 8 = leBytes 8 (t.siacoinInputs.length % 2 ^ 64) := by
  unfold V1.wholePreimage V1.Transaction.prefixedInputs
  rw [List.append_assoc, leBytes_take, BitVec.toNat_ofNat]

/-! ## Replay prefixes of the same length -/

namespace V1

theorem flatMap_prefixed {α : Type} [Codec .v1 α] [Fits α] [Lawful .v1 α] {rp rp' : List UInt8} (hl : rp.length = rp'.length) :
    ∀ (l m : List α) (x y : List UInt8), l.length = m.length → (∀ a ∈ l, fits bigLim a) → (∀ a ∈ m, fits bigLim a) →
      (l.flatMap fun a => rp ++ enc .v1 a) ++ x = (m.flatMap fun a => rp' ++ enc .v1 a) ++ y →
      l = m ∧ x = y ∧ (l = [] ∨ rp = rp')
  | [], [], x, y, _, _, _, h => ⟨rfl, by simpa using h, .inl rfl⟩
  | a :: l, b :: m, x, y, hn, ha, hb, h => by
    simp only [List.flatMap_cons, List.append_assoc] at h
    obtain ⟨h1, h⟩ := List.append_inj h hl
    obtain ⟨h2, h⟩ := selfDelimiting bigLim _ _ _ _ (ha a (by simp)) (hb b (by simp)) h
    obtain ⟨h3, h4, -⟩ := flatMap_prefixed hl l m x y (by simpa using hn) (fun c hc => ha c (by simp [hc])) (fun c hc => hb c (by simp [hc])) h
    exact ⟨by rw [h2, h3], h4, .inr h1⟩
  | [], _ :: _, _, _, h, _, _, _ => by simp at h
  | _ :: _, [], _, _, h, _, _, _ => by simp at h

theorem prefixed_eras {α : Type} [Codec .v1 α] [Fits α] [Lawful .v1 α] {rp rp' : List UInt8} (hl : rp.length = rp'.length)
    {l m : List α} {x y : List UInt8} (hln : l.length < 2 ^ 64) (hmn : m.length < 2 ^ 64) (ha : ∀ a ∈ l, fits bigLim a)
    (hb : ∀ a ∈ m, fits bigLim a) (h : Transaction.prefixedInputs rp l ++ x = Transaction.prefixedInputs rp' m ++ y) :
    l = m ∧ x = y ∧ (l = [] ∨ rp = rp') := by
  unfold Transaction.prefixedInputs at h
  rw [List.append_assoc, List.append_assoc] at h
  obtain ⟨h1, h⟩ := List.append_inj h (by simp)
  have h1 := congrArg leVal h1
  rw [leVal_leBytes_of_lt (BitVec.isLt _), leVal_leBytes_of_lt (BitVec.isLt _), BitVec.toNat_ofNat, BitVec.toNat_ofNat,
    Nat.mod_eq_of_lt hln, Nat.mod_eq_of_lt hmn] at h1
  exact flatMap_prefixed hl l m x y h1 ha hb h

theorem wholePreimage_eras {t t' : Transaction} (h : t.Sized) (h' : t'.Sized) {rp rp' : List UInt8} (hl : rp.length = rp'.length)
    {p p' : Arr 32} {k k' l l' : U64} (he : wholePreimage t rp p k l = wholePreimage t' rp' p' k' l') :
    t.unsigned = t'.unsigned ∧ p = p' ∧ k = k' ∧ l = l' ∧ (t.siacoinInputs = [] ∧ t.siafundInputs = [] ∨ rp = rp') := by
  unfold wholePreimage at he
  obtain ⟨e0, he, r0⟩ := prefixed_eras hl h.siacoinInputs.1 h'.siacoinInputs.1 h.fits_siacoinInputs.2.2 h'.fits_siacoinInputs.2.2 he
  obtain ⟨e1, he⟩ := selfDelimiting bigLim _ _ _ _ h.fits_siacoinOutputs h'.fits_siacoinOutputs he
  obtain ⟨e2, he⟩ := selfDelimiting bigLim _ _ _ _ h.fits_fileContracts h'.fits_fileContracts he
  obtain ⟨e3, he⟩ := selfDelimiting bigLim _ _ _ _ h.fits_fileContractRevisions h'.fits_fileContractRevisions he
  obtain ⟨e4, he⟩ := selfDelimiting bigLim _ _ _ _ h.fits_storageProofs h'.fits_storageProofs he
  obtain ⟨e5, he, r5⟩ := prefixed_eras hl h.siafundInputs.1 h'.siafundInputs.1 h.fits_siafundInputs.2.2 h'.fits_siafundInputs.2.2 he
  obtain ⟨e6, he⟩ := selfDelimiting bigLim _ _ _ _ h.fits_siafundOutputs h'.fits_siafundOutputs he
  obtain ⟨e7, he⟩ := selfDelimiting bigLim _ _ _ _ h.fits_minerFees h'.fits_minerFees he
  obtain ⟨e8, he⟩ := selfDelimiting bigLim _ _ _ _ h.fits_arbitraryData h'.fits_arbitraryData he
  obtain ⟨e9, he⟩ := List.append_inj he (by rw [p.2, p'.2])
  obtain ⟨e10, he⟩ := selfDelimiting bigLim _ _ _ _ trivial trivial he
  obtain ⟨e11, -⟩ := selfDelimiting (α := U64) (v := .v1) bigLim l l' [] [] trivial trivial (by rw [he])
  refine ⟨unsigned_eq_iff.mpr ?_, Subtype.ext e9, e10, e11, ?_⟩
  · simp only [Transaction.body, e0, e1, e2, e3, e4, e5, e6, e7, e8]
  · rcases r0 with r0 | r0
    · rcases r5 with r5 | r5
      · exact .inl ⟨r0, r5⟩
      · exact .inr r5
    · exact .inr r0

/-! ## Storage proofs that are other strings -/

/-- The bytes as hashes, one after the other. -/
def cut (bs : List UInt8) : Nat → List Hash256
  | 0 => []
  | n + 1 => ⟨(bs ++ List.replicate 32 0).take 32, by simp⟩ :: cut (bs.drop 32) n

theorem cut_length (bs : List UInt8) (n : Nat) : (cut bs n).length = n := by
  induction n generalizing bs with
  | zero => rfl
  | succ n ih => simp [cut, ih]

theorem cut_bytes (bs : List UInt8) (n : Nat) (h : bs.length = 32 * n) : (cut bs n).flatMap (enc .v1) = bs := by
  induction n generalizing bs with
  | zero => simpa [cut, eq_comm] using h
  | succ n ih =>
    simp only [cut, List.flatMap_cons, enc_arr]
    rw [ih _ (by simp; omega), List.take_append_of_le_length (by omega), List.take_append_drop]

/-- A string of the right length with the right count in the right place is that of a storage proof. -/
theorem proof_of_bytes (bs : List UInt8) (n : Nat) (hn : n < 2 ^ 64) (hl : bs.length = 104 + 32 * n)
    (hc : (bs.drop 96).take 8 = leBytes 8 n) : ∃ sp : StorageProof, sp.proof.length = n ∧ enc .v1 sp = bs := by
  refine ⟨⟨⟨bs.take 32, by simp; omega⟩, ⟨(bs.drop 32).take 64, by simp; omega⟩, cut (bs.drop 104) n⟩, cut_length _ _, ?_⟩
  show bs.take 32 ++ ((bs.drop 32).take 64 ++ enc .v1 (cut (bs.drop 104) n)) = bs
  rw [enc_list, cut_length, Nat.mod_eq_of_lt hn, cut_bytes _ _ (by simp; omega), ← hc]
  have h1 : bs.drop 104 = (bs.drop 96).drop 8 := by simp
  have h2 : bs.drop 96 = (bs.drop 32).drop 64 := by simp
  rw [h1, List.take_append_drop, h2, List.take_append_drop, List.take_append_drop]

theorem proof_of_parts (a r : List UInt8) (n : Nat) (hn : n < 2 ^ 64) (ha : a.length = 96) (hr : r.length = 32 * n) :
    ∃ sp : StorageProof, sp.proof.length = n ∧ enc .v1 sp = a ++ (leBytes 8 n ++ r) := by
  refine proof_of_bytes _ n hn (by simp [ha, hr]; omega) ?_
  rw [List.drop_left' ha, leBytes_take]

/-- A transaction with nothing but a storage proof. -/
def proofTxn (sp : StorageProof) : Transaction := ⟨[], [], [], [], [sp], [], [], [], [], []⟩

/-- The selection of the first storage proof. -/
def proofField : CoveredFields := ⟨false, [], [], [], [], [0], [], [], [], [], []⟩

theorem proofTxn_inRange (sp : StorageProof) : InRange (proofTxn sp) proofField := by
  constructor <;> simp [proofTxn, proofField]

theorem proofTxn_sized {sp : StorageProof} (h : sp.proof.length < 2 ^ 64) : (proofTxn sp).AllSized := by
  refine ⟨?_, by simp [proofTxn]⟩
  constructor <;> simp [proofTxn, h]

theorem proofTxn_sigHash (H : Hasher) (cs : ChainState) (sp : StorageProof) :
    (proofTxn sp).partialSigHash H cs proofField = .ok (H (enc .v1 sp)) := by
  rw [partialSigHash_ok H _ cs _ (proofTxn_inRange sp)]
  simp [partialPreimage, pickBytes, pick, proofField, proofTxn]

end V1

end Verif
