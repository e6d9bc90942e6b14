import Verif.Lemmas.Width
import Verif.Lemmas.Hashing
import Verif.Props.Samples

/-!
# C65: decoding on 32-bit targets
-/

namespace Verif

/-- The decoders with the 64-bit conversion are those of all other properties. -/
theorem C65_wide : (decAs .v1 .wide : Dec Block) = dec .v1 ∧ (decAs .v1 .wide : Dec V1.Transaction) = dec .v1 ∧
    (decAs .v1 .wide : Dec V1.CoveredFields) = dec .v1 ∧ (decAs .v1 .wide : Dec Currency) = dec .v1 ∧
    (decAs .v1 .wide : Dec SiafundOutput) = dec .v1 ∧ (decAs .v2 .wide : Dec V2.Transaction) = dec .v2 ∧
    (decAs .v2 .wide : Dec SpendPolicy) = dec .v2 ∧ (decAs .v2 .wide : Dec V2.FileContractResolution) = dec .v2 :=
  ⟨Same.same, Same.same, Same.same, Same.same, Same.same, Same.same, Same.same, Same.same⟩

/-- What is missing for the property: v1 transactions and blocks change (`C65_not_same`), and some bytes are accepted that 64-bit machines
reject (`C65_not_length`, `C65_not_currency`).  Types without indices: what a 64-bit machine decodes a 32-bit machine decodes to the same value. -/
theorem C65_values_partial (lim : Lim) (hc : lim.cap < 2 ^ 32) (bs r : List UInt8) :
    (∀ t : V2.Transaction, dec .v2 lim bs = .ok (t, r) → decAs .v2 .narrow lim bs = .ok (t, r)) ∧
    (∀ p : SpendPolicy, dec .v2 lim bs = .ok (p, r) → decAs .v2 .narrow lim bs = .ok (p, r)) ∧
    (∀ c : Currency, dec .v1 lim bs = .ok (c, r) → decAs .v1 .narrow lim bs = .ok (c, r)) ∧
    (∀ u : UnlockConditions, dec .v1 lim bs = .ok (u, r) → decAs .v1 .narrow lim bs = .ok (u, r)) ∧
    (∀ c : V1.FileContract, dec .v1 lim bs = .ok (c, r) → decAs .v1 .narrow lim bs = .ok (c, r)) ∧
    (∀ c : V1.FileContractRevision, dec .v1 lim bs = .ok (c, r) → decAs .v1 .narrow lim bs = .ok (c, r)) ∧
    (∀ p : V1.StorageProof, dec .v1 lim bs = .ok (p, r) → decAs .v1 .narrow lim bs = .ok (p, r)) ∧
    (∀ o : List SiafundOutput, dec .v1 lim bs = .ok (o, r) → decAs .v1 .narrow lim bs = .ok (o, r)) := by
  simp only [← Same.same]
  exact ⟨fun _ => Turns.plain lim bs _ r hc, fun _ => Turns.plain lim bs _ r hc, fun _ => Turns.plain lim bs _ r hc,
    fun _ => Turns.plain lim bs _ r hc, fun _ => Turns.plain lim bs _ r hc, fun _ => Turns.plain lim bs _ r hc,
    fun _ => Turns.plain lim bs _ r hc, fun _ => Turns.plain lim bs _ r hc⟩

/-- The exact result for v1 transactions and blocks: every covered index modulo 2^32. -/
theorem C65_exact (lim : Lim) (hc : lim.cap < 2 ^ 32) (bs r : List UInt8) :
    (∀ t : V1.Transaction, dec .v1 lim bs = .ok (t, r) → decAs .v1 .narrow lim bs = .ok (t.mapIndices mod32, r)) ∧
    (∀ b : Block, dec .v1 lim bs = .ok (b, r) → decAs .v1 .narrow lim bs = .ok (b.mapIndices mod32, r)) := by
  simp only [← Same.same]
  exact ⟨fun _ => turns_transaction lim bs _ r hc, fun _ => turns_block lim bs _ r hc⟩

/-- So a v1 transaction or block is the same on both machines exactly when every covered index is below 2^32. -/
theorem C65_same_partial (lim : Lim) (hc : lim.cap < 2 ^ 32) (bs r : List UInt8) :
    (∀ t : V1.Transaction, dec .v1 lim bs = .ok (t, r) → (decAs .v1 .narrow lim bs = .ok (t, r) ↔ t.IndicesBelow (2 ^ 32))) ∧
    (∀ b : Block, dec .v1 lim bs = .ok (b, r) → (decAs .v1 .narrow lim bs = .ok (b, r) ↔ b.IndicesBelow (2 ^ 32))) := by
  refine ⟨fun t h => ?_, fun b h => ?_⟩
  · rw [(C65_exact lim hc bs r).1 t h, ← V1.Transaction.mod32_self]
    simp
  · rw [(C65_exact lim hc bs r).2 b h, ← Block.mod32_self]
    simp

namespace Sample

/-- Memory of a 32-bit machine. -/
def small : Lim := ⟨100000, 1000⟩

/-- Covers input 2^32 of a transaction with one input. -/
def beyond : V1.CoveredFields := { covered with siacoinInputs := [4294967296] }
def beyondTxn : V1.Transaction := { v1txn with signatures := [⟨h 1, 0, 0, beyond, [1, 2]⟩] }

theorem fits_beyondTxn : fits small beyondTxn := by
  simp [fits, Struct.fields, beyondTxn, v1txn, small, uc, v1fc, v1fcr, covered, beyond]

theorem inRange_covered : V1.InRange v1txn covered := by
  constructor <;> simp [v1txn, covered]

theorem fits_small : fits small v1txn := by
  simp [fits, Struct.fields, v1txn, small, uc, v1fc, v1fcr, covered]

end Sample

example : dec .v1 Sample.small (enc .v1 Sample.v1txn ++ [7]) = .ok (Sample.v1txn, [7]) ∧ Sample.v1txn.IndicesBelow (2 ^ 32) :=
  ⟨(Lawful.reads _ _ Sample.fits_small).rt _, by
    intro s hs i hi
    simp [Sample.v1txn] at hs
    subst hs
    simp [V1.CoveredFields.indices, Sample.covered] at hi
    rcases hi with rfl | rfl | rfl | rfl <;> decide⟩

/-- Not the property: the same bytes are two different transactions, on any hash the 64-bit one has no partial signature hash and the 32-bit one has. -/
theorem C65_not_same (H : Hasher) (cs : ChainState) : ∃ (lim : Lim) (bs : List UInt8) (t t' : V1.Transaction),
    lim.cap < 2 ^ 32 ∧ dec .v1 lim bs = .ok (t, []) ∧ decAs .v1 .narrow lim bs = .ok (t', []) ∧ t ≠ t' ∧ enc .v1 t' ≠ bs ∧
    ∃ s s', t.signatures = [s] ∧ t'.signatures = [s'] ∧ t.partialSigHash H cs s.coveredFields = .err .custom ∧
      ∃ h, t'.partialSigHash H cs s'.coveredFields = .ok h := by
  have hd : dec .v1 Sample.small (enc .v1 Sample.beyondTxn) = .ok (Sample.beyondTxn, []) := by
    have := (Lawful.reads (v := .v1) _ _ Sample.fits_beyondTxn).rt []
    rwa [List.append_nil] at this
  have e : Sample.beyondTxn.mapIndices mod32 = Sample.v1txn := by decide +kernel
  refine ⟨Sample.small, enc .v1 Sample.beyondTxn, Sample.beyondTxn, Sample.v1txn, by decide, hd, ?_, by decide +kernel, ?_,
    _, _, rfl, rfl, V1.partialSigHash_err H _ cs _ ?_, _, V1.partialSigHash_ok H _ cs _ ?_⟩
  · rw [(C65_exact _ (by decide) _ _).1 _ hd, e]
  · decide +kernel
  · intro h
    have := h.1 4294967296 (by decide +kernel)
    revert this
    decide +kernel
  · exact Sample.inRange_covered

theorem decAs_list {v : Ver} {α : Type} [Widths v α] {T : ToUsize} : (decAs v T : Dec (List α)) = decVec T (decAs v T) := rfl

theorem decVec_congr {α : Type} {T : ToUsize} {lim : Lim} {bs bs' : List UInt8} (h : decUsize T lim bs = decUsize T lim bs') (d : Dec α) :
    decVec T d lim bs = decVec T d lim bs' := by
  show Dec.bind _ _ lim bs = Dec.bind _ _ lim bs'
  unfold Dec.bind
  rw [h]

theorem usize_mod (lim : Lim) {n k : Nat} (hn : n < 2 ^ 32) (h : n + 2 ^ 32 * k < 2 ^ 64) (bs : List UInt8) :
    decUsize .narrow lim (leBytes 8 (n + 2 ^ 32 * k) ++ bs) = .ok (BitVec.ofNat 64 n, bs) := by
  have e : leBytes 8 (n + 2 ^ 32 * k) = enc .v1 (BitVec.ofNat 64 (n + 2 ^ 32 * k) : U64) := by
    rw [enc_u64, BitVec.toNat_ofNat, Nat.mod_eq_of_lt h]
  rw [e]
  refine Dec.bind_eq_ok.mpr ⟨_, bs, (Lawful.reads (v := .v1) lim (BitVec.ofNat 64 (n + 2 ^ 32 * k) : U64) trivial).rt bs, ?_⟩
  rw [narrow_eq]
  have : mod32 (BitVec.ofNat 64 (n + 2 ^ 32 * k)) = BitVec.ofNat 64 n := by
    unfold mod32
    rw [BitVec.toNat_ofNat, Nat.mod_eq_of_lt h]
    congr 1
    omega
  rw [this]
  rfl

/-- Not the property: a vector's length is taken modulo 2^32, whatever its elements are.  With fewer than 2^32 bytes to read no 64-bit machine
accepts such a byte vector. -/
theorem C65_not_length (lim : Lim) (n k : Nat) (hn : n < 2 ^ 32) (hk : 0 < k) (h : n + 2 ^ 32 * k < 2 ^ 64) (bs : List UInt8) :
    (∀ (α : Type) [Widths .v1 α], (decAs .v1 .narrow lim (leBytes 8 (n + 2 ^ 32 * k) ++ bs) : Res (List α × List UInt8)) =
      decAs .v1 .narrow lim (leBytes 8 n ++ bs)) ∧
    (n ≤ lim.cap → n ≤ bs.length → decAs .v1 .narrow lim (leBytes 8 (n + 2 ^ 32 * k) ++ bs) = .ok (bs.take n, bs.drop n)) ∧
    (bs.length < 2 ^ 32 → ∀ lim' x, (dec .v1 lim' (leBytes 8 (n + 2 ^ 32 * k) ++ bs) : Res (List UInt8 × List UInt8)) ≠ .ok x) := by
  have part : ∀ (α : Type) [Widths .v1 α], (decAs .v1 .narrow lim (leBytes 8 (n + 2 ^ 32 * k) ++ bs) : Res (List α × List UInt8)) =
      decAs .v1 .narrow lim (leBytes 8 n ++ bs) := by
    intro α _
    have := usize_mod lim (k := 0) hn (by omega) bs
    rw [Nat.mul_zero, Nat.add_zero] at this
    rw [decAs_list]
    exact decVec_congr ((usize_mod lim hn h bs).trans this.symm) _
  refine ⟨part, fun h1 h2 => ?_, fun hb lim' x hx => ?_⟩
  · rw [part, decAs_list]
    have hl : (bs.take n).length = n := by rw [List.length_take]; omega
    have e : leBytes 8 n = leBytes 8 ((bs.take n).length % 2 ^ 64) := by rw [hl, Nat.mod_eq_of_lt (by omega)]
    have hd : decVec .narrow (dec .v1 : Dec UInt8) lim (leBytes 8 n ++ bs) = .ok (bs.take n, bs.drop n) := by
      have hu := usize_mod lim (k := 0) hn (by omega) bs
      rw [Nat.mul_zero, Nat.add_zero] at hu
      refine Dec.bind_eq_ok.mpr ⟨_, _, hu, ?_⟩
      have hn' : (BitVec.ofNat 64 n : U64).toNat = n := by rw [BitVec.toNat_ofNat]; omega
      rw [hn']
      refine Dec.bind_eq_ok.mpr ⟨(), bs, by simp [Dec.reserve, h1], ?_⟩
      have hr := (Dec.Reads.decodeN (lim := lim) (d := (dec .v1 : Dec UInt8)) (bs.take n) fun a _ => Lawful.reads lim a trivial).rt (bs.drop n)
      rw [hl] at hr
      rw [← hr]
      congr 1
      have : (bs.take n).flatMap (enc .v1) = bs.take n := by
        show (bs.take n).flatMap (fun b => [b]) = _
        simp
      rw [this, List.take_append_drop]
    exact hd
  · obtain ⟨l, r⟩ := x
    have hu : numDecode 64 lim' (leBytes 8 (n + 2 ^ 32 * k) ++ bs) = .ok (BitVec.ofNat 64 (n + 2 ^ 32 * k), bs) := by
      have := (Lawful.reads (v := .v1) lim' (BitVec.ofNat 64 (n + 2 ^ 32 * k) : U64) trivial).rt bs
      rwa [enc_u64, BitVec.toNat_ofNat, Nat.mod_eq_of_lt h] at this
    rw [dec_list] at hx
    obtain ⟨len, r1, h1, h2⟩ := Dec.bind_eq_ok.mp hx
    rw [dec_u64, hu] at h1
    cases h1
    obtain ⟨u, r2, h3, h4⟩ := Dec.bind_eq_ok.mp h2
    have hr : r2 = bs := by
      unfold Dec.reserve at h3
      split at h3
      · simp at h3; exact h3.symm
      · simp at h3
    subst hr
    obtain ⟨hl, hb'⟩ := decodeN_ok Canonical.canon h4
    have : l.flatMap (enc .v1) = l := by
      show l.flatMap (fun b => [b]) = _
      simp
    rw [this] at hb'
    rw [BitVec.toNat_ofNat, Nat.mod_eq_of_lt h] at hl
    rw [hb', List.length_append] at hb
    omega

example : decAs .v1 .narrow Sample.small (leBytes 8 (2 + 2 ^ 32 * 3) ++ [5, 6, 7]) = .ok (([5, 6] : List UInt8), [7]) :=
  (C65_not_length Sample.small 2 3 (by decide) (by decide) (by decide) [5, 6, 7]).2.1 (by decide) (by decide)

/-- Not the property: so is the length of a v1 currency, which 64-bit machines reject. -/
theorem C65_not_currency (lim : Lim) (n k : Nat) (hn : n ≤ 16) (hk : 0 < k) (h : n + 2 ^ 32 * k < 2 ^ 64) (bs : List UInt8) (hb : n ≤ bs.length) :
    decAs .v1 .narrow lim (leBytes 8 (n + 2 ^ 32 * k) ++ bs) = .ok ((⟨BitVec.ofNat 128 (beVal (bs.take n))⟩ : Currency), bs.drop n) ∧
    (dec .v1 lim (leBytes 8 (n + 2 ^ 32 * k) ++ bs) : Res (Currency × List UInt8)) = .err .invalidLength := by
  have hn' : (BitVec.ofNat 64 n : U64).toNat = n := by rw [BitVec.toNat_ofNat]; omega
  constructor
  · refine Dec.bind_eq_ok.mpr ⟨_, _, usize_mod lim (by omega) h bs, ?_⟩
    rw [hn', if_neg (by omega)]
    refine Dec.bind_eq_ok.mpr ⟨⟨bs.take n, by simp [hb]⟩, bs.drop n, by simp [readExact, hb], ?_⟩
    have e : ∀ (m : Nat) (l : List UInt8), beVal (List.replicate m 0 ++ l) = beVal l := by
      intro m l
      have z : ∀ (l : List UInt8) m, leVal (l ++ List.replicate m 0) = leVal l := by
        intro l m
        induction l with
        | nil =>
          induction m with
          | zero => rfl
          | succ m ih => simp [leVal, List.replicate_succ] at ih ⊢; omega
        | cons b l ih => simp [leVal, ih]
      simp [beVal, z]
    show Res.ok _ = _
    rw [e]
  · have hu : numDecode 64 lim (leBytes 8 (n + 2 ^ 32 * k) ++ bs) = .ok (BitVec.ofNat 64 (n + 2 ^ 32 * k), bs) := by
      have := (Lawful.reads (v := .v1) lim (BitVec.ofNat 64 (n + 2 ^ 32 * k) : U64) trivial).rt bs
      rwa [enc_u64, BitVec.toNat_ofNat, Nat.mod_eq_of_lt h] at this
    rw [dec_currency_v1]
    show Dec.bind _ _ lim _ = _
    unfold Dec.bind
    rw [dec_u64, hu]
    show (if (BitVec.ofNat 64 (n + 2 ^ 32 * k) : U64).toNat > 16 then _ else _ : Dec Currency) lim bs = _
    rw [if_pos (by rw [BitVec.toNat_ofNat, Nat.mod_eq_of_lt h]; omega)]
    rfl

example : decAs .v1 .narrow Sample.small (leBytes 8 (2 + 2 ^ 32) ++ [1, 0, 9]) = .ok ((⟨256⟩ : Currency), [9]) ∧
    (dec .v1 Sample.small (leBytes 8 (2 + 2 ^ 32) ++ [1, 0, 9]) : Res (Currency × List UInt8)) = .err .invalidLength :=
  C65_not_currency Sample.small 2 1 (by decide) (by decide) (by decide) [1, 0, 9] (by decide)

/-- With `usize::try_from` instead of `as`, a 32-bit machine accepts exactly what a 64-bit machine with the same memory accepts and whose indices it
can hold, with the same values. -/
theorem C65_repaired (lim : Lim) (hc : lim.cap < 2 ^ 32) (bs r : List UInt8) :
    (∀ t : V1.Transaction, decAs .v1 .checked lim bs = .ok (t, r) ↔ dec .v1 lim bs = .ok (t, r) ∧ t.IndicesBelow (2 ^ 32)) ∧
    (∀ b : Block, decAs .v1 .checked lim bs = .ok (b, r) ↔ dec .v1 lim bs = .ok (b, r) ∧ b.IndicesBelow (2 ^ 32)) ∧
    (∀ t : V2.Transaction, decAs .v2 .checked lim bs = .ok (t, r) ↔ dec .v2 lim bs = .ok (t, r)) ∧
    (∀ p : SpendPolicy, decAs .v2 .checked lim bs = .ok (p, r) ↔ dec .v2 lim bs = .ok (p, r)) ∧
    (∀ c : Currency, decAs .v1 .checked lim bs = .ok (c, r) ↔ dec .v1 lim bs = .ok (c, r)) := by
  have plain : ∀ {v : Ver} {α : Type} [Codec v α] [Widths v α] [Same v α] [Plain v α] (a : α),
      decAs v .checked lim bs = .ok (a, r) ↔ dec v lim bs = .ok (a, r) := by
    intro v α _ _ _ _ a
    rw [← Same.same]
    exact ⟨fun h => Plain.keeps (agree_checked_wide (max lim.cap 16)) (by omega) lim bs a r (by omega) h trivial,
      fun h => Plain.keeps agree_wide_checked (by decide) lim bs a r (by omega) h trivial⟩
  have big : ∀ i : U64, i.toNat ≤ max lim.cap (2 ^ 64) := fun i => by have := i.isLt; omega
  refine ⟨fun t => ⟨fun h => ?_, fun h => ?_⟩, fun x => ⟨fun h => ?_, fun h => ?_⟩, plain, plain, plain⟩
  · have hw : dec .v1 lim bs = .ok (t, r) := by
      rw [← Same.same]
      exact keeps_transaction (agree_checked_wide (max lim.cap (2 ^ 64))) (by omega) lim bs t r (by omega) h fun _ _ i _ => big i
    have hn := keeps_transaction (agree_checked_narrow (max lim.cap (2 ^ 64))) (by omega) lim bs t r (by omega) h fun _ _ i _ => big i
    exact ⟨hw, ((C65_same_partial lim hc bs r).1 t hw).mp hn⟩
  · rw [← Same.same] at h
    exact keeps_transaction agree_wide_checked (by decide) lim bs t r (by omega) h.1 fun s hs i hi => Nat.le_pred_of_lt (h.2 s hs i hi)
  · have hw : dec .v1 lim bs = .ok (x, r) := by
      rw [← Same.same]
      exact keeps_block (agree_checked_wide (max lim.cap (2 ^ 64))) (by omega) lim bs x r (by omega) h fun _ _ _ _ i _ => big i
    have hn := keeps_block (agree_checked_narrow (max lim.cap (2 ^ 64))) (by omega) lim bs x r (by omega) h fun _ _ _ _ i _ => big i
    exact ⟨hw, ((C65_same_partial lim hc bs r).2 x hw).mp hn⟩
  · rw [← Same.same] at h
    exact keeps_block agree_wide_checked (by decide) lim bs x r (by omega) h.1 fun t ht s hs i hi => Nat.le_pred_of_lt (h.2 t ht s hs i hi)

/-- The length that is truncated in `C65_not_currency` is refused by the repaired decoder; a length that fits is read as before. -/
example : (∀ c r, decAs .v1 .checked Sample.small (leBytes 8 (2 + 2 ^ 32) ++ [1, 0, 9]) ≠ .ok ((c : Currency), r)) ∧
    decAs .v1 .checked Sample.small (leBytes 8 2 ++ [1, 0, 9]) = .ok ((⟨256⟩ : Currency), [9]) := by
  refine ⟨fun c r h => ?_, ((C65_repaired Sample.small (by decide) _ _).2.2.2.2 _).mpr (by decide +kernel)⟩
  have := ((C65_repaired Sample.small (by decide) _ r).2.2.2.2 c).mp h
  rw [(C65_not_currency Sample.small 2 1 (by decide) (by decide) (by decide) [1, 0, 9] (by decide)).2] at this
  cases this

end Verif
