import Verif.Spec.Spelling
import Verif.Lemmas.Layout
import Verif.Lemmas.Closed
import Verif.Props.Currency

/-!
# What is read as a value
-/

namespace Verif

open Dec Spelling

variable {v : Ver} {α β : Type} {lim : Lim}

theorem readFrom_plain [Codec v α] [Fits α] [Lawful v α] [Canonical v α] [Closed v α] {f : α → List UInt8}
    (h : ∀ a : α, enc v a = f a) : ReadFrom lim (dec v) (plain lim f) := by
  intro bs a r
  constructor
  · intro hd
    exact ⟨f a, h a ▸ Canonical.canon _ _ _ _ hd, Closed.closed _ _ _ _ hd, rfl⟩
  · rintro ⟨_, rfl, hf, rfl⟩
    rw [← h a]
    exact (Lawful.reads lim a hf).rt r

theorem ReadFrom.congr {d : Dec α} {S T : α → Form} (h : ReadFrom lim d S) (e : ∀ a bs, S a bs ↔ T a bs) : ReadFrom lim d T :=
  fun bs a r => (h bs a r).trans (by simp only [e])

theorem readFrom_exactly [Codec v α] [Fits α] [Lawful v α] [Canonical v α] {f : α → List UInt8}
    (h : ∀ a : α, enc v a = f a) (hf : ∀ a : α, fits lim a) : ReadFrom lim (dec v) (fun a => exactly (f a)) := by
  intro bs a r
  constructor
  · intro hd
    exact ⟨f a, h a ▸ Canonical.canon _ _ _ _ hd, rfl⟩
  · rintro ⟨_, rfl, rfl⟩
    rw [← h a]
    exact (Lawful.reads lim a (hf a)).rt r

theorem readFrom_u64 : ReadFrom lim (dec v : Dec U64) (fun x => exactly (le64 x.toNat)) :=
  readFrom_exactly lay_u64 fun _ => trivial

theorem readFrom_arr {n : Nat} : ReadFrom lim (dec v : Dec (Arr n)) (fun x => exactly x.1) :=
  readFrom_exactly lay_arr fun _ => trivial

theorem readFrom_bind {d : Dec α} {S : α → Form} (h : ReadFrom lim d S) {f : α → Dec β} {bs r : List UInt8} {b : β} :
    (d >>= f) lim bs = .ok (b, r) ↔ ∃ a x y, bs = x ++ y ∧ S a x ∧ f a lim y = .ok (b, r) := by
  rw [bind_eq_ok]
  constructor
  · rintro ⟨a, y, h1, h2⟩
    obtain ⟨x, rfl, hx⟩ := (h _ _ _).mp h1
    exact ⟨a, x, y, rfl, hx, h2⟩
  · rintro ⟨a, x, y, rfl, hx, h2⟩
    exact ⟨a, y, (h _ _ _).mpr ⟨x, rfl, hx⟩, h2⟩

theorem ReadFrom.cons [Codec v α] [Codec v β] {S : α → Form} {L : β → List Form} (h1 : ReadFrom lim (dec v) S)
    (h2 : ReadFrom lim (dec v : Dec β) (fun b => concat (L b))) :
    ReadFrom lim (dec v : Dec (α × β)) (fun p => concat (S p.1 :: L p.2)) := by
  intro bs p r
  rw [dec_prod, readFrom_bind h1]
  simp only [readFrom_bind h2, concat]
  constructor
  · rintro ⟨a, x, y, rfl, hx, b, z, w, rfl, hz, hp⟩
    simp at hp
    obtain ⟨rfl, rfl⟩ := hp
    exact ⟨x ++ z, by simp, x, z, rfl, hx, hz⟩
  · rintro ⟨_, rfl, x, z, rfl, hx, hz⟩
    exact ⟨p.1, x, z ++ r, by simp, hx, p.2, z, r, rfl, hz, rfl⟩

theorem ReadFrom.last [Codec v α] {S : α → Form} (h : ReadFrom lim (dec v) S) :
    ReadFrom lim (dec v : Dec α) (fun a => concat [S a]) :=
  h.congr fun a bs => by simp [concat, exactly]

theorem ReadFrom.struct [Struct α β] [Codec v β] {S : β → Form} (h : ReadFrom lim (dec v) S) :
    ReadFrom lim (dec v : Dec α) (fun a => S (Struct.fields a)) := by
  intro bs a r
  rw [dec_struct, readFrom_bind h]
  constructor
  · rintro ⟨b, x, y, rfl, hx, hp⟩
    simp at hp
    obtain ⟨rfl, rfl⟩ := hp
    exact ⟨x, rfl, by show S (Struct.fields (Struct.build b)) x; rw [Struct.fields_build]; exact hx⟩
  · rintro ⟨x, rfl, hx⟩
    exact ⟨_, x, r, rfl, hx, by simp [Struct.build_fields]⟩

theorem readFrom_decodeN {d : Dec α} {S : α → Form} (h : ReadFrom lim d S) (n : Nat) {bs r : List UInt8} {l : List α} :
    decodeN d n lim bs = .ok (l, r) ↔ l.length = n ∧ ∃ x, bs = x ++ r ∧ concat (l.map S) x := by
  induction n generalizing bs l r with
  | zero =>
    cases l with
    | nil => simp [decodeN, concat, exactly]
    | cons a l => simp [decodeN]
  | succ n ih =>
    show (d >>= fun a => decodeN d n >>= fun as => pure (a :: as)) lim bs = _ ↔ _
    rw [readFrom_bind h]
    simp only [bind_eq_ok, ih]
    constructor
    · rintro ⟨a, x, y, rfl, hx, as, z, ⟨hn, w, rfl, hw⟩, hp⟩
      simp at hp
      obtain ⟨rfl, rfl⟩ := hp
      exact ⟨by simp [hn], x ++ w, by simp, x, w, rfl, hx, hw⟩
    · rintro ⟨hn, x, rfl, hx⟩
      cases l with
      | nil => simp at hn
      | cons a l =>
        obtain ⟨y, z, rfl, hy, hz⟩ := hx
        exact ⟨a, y, z ++ r, by simp, hy, l, r, ⟨by simpa using hn, z, rfl, hz⟩, rfl⟩

theorem ReadFrom.many [Codec v α] {S : α → Form} (h : ReadFrom lim (dec v) S) :
    ReadFrom lim (dec v : Dec (List α)) (Spelling.many lim S) := by
  intro bs l r
  rw [dec_list, readFrom_bind readFrom_u64]
  simp only [bind_eq_ok, readFrom_decodeN h]
  constructor
  · rintro ⟨n, x, y, rfl, rfl, _, z, hr, hn, w, rfl, hw⟩
    obtain ⟨hc, h2⟩ := reserve_eq_ok hr
    subst h2
    rw [← hn]
    exact ⟨_, (List.append_assoc _ _ _).symm, by omega, by have := n.isLt; omega, _, _, rfl, rfl, hw⟩
  · rintro ⟨_, rfl, hc, hl, x, y, rfl, rfl, hw⟩
    have hn : (BitVec.ofNat 64 l.length : U64).toNat = l.length := by
      rw [BitVec.toNat_ofNat]; exact Nat.mod_eq_of_lt hl
    refine ⟨BitVec.ofNat 64 l.length, le64 l.length, y ++ r, by simp, by rw [hn]; rfl, (), y ++ r, ?_, hn.symm, y, rfl, hw⟩
    rw [hn]
    simp [Dec.reserve, hc]

theorem readFrom_readExact (n : Nat) : ReadFrom lim (Verif.readExact n) (fun x => exactly x.1) := readFrom_arr (v := .v1)

theorem readFrom_currency : ReadFrom lim (dec .v1 : Dec Currency) (fun c => amount c.val.toNat) := by
  intro bs c r
  rw [dec_currency_v1, readFrom_bind readFrom_u64]
  have small : ∀ ds : List UInt8, ds.length ≤ 16 → beNat ds < 2 ^ 128 := by
    intro ds h
    have h1 := beVal_lt ds
    have h2 : 256 ^ ds.length ≤ 256 ^ 16 := Nat.pow_le_pow_right (by decide) h
    rw [beNat_eq]
    omega
  constructor
  · rintro ⟨n, x, y, rfl, rfl, h⟩
    split at h
    · simp [Dec.fail] at h
    · rename_i hn
      obtain ⟨ds, z, w, rfl, rfl, hp⟩ := (readFrom_bind (readFrom_readExact _)).mp h
      simp only [pure_apply, Res.ok.injEq, Prod.mk.injEq] at hp
      obtain ⟨rfl, rfl⟩ := hp
      refine ⟨Layout.bytes ds.1, by rw [Layout.bytes, ds.2]; simp, ds.1, by rw [ds.2]; omega, ?_, rfl⟩
      rw [← beNat_eq, beNat_zeros, BitVec.toNat_ofNat, Nat.mod_eq_of_lt (small _ (by rw [ds.2]; omega))]
  · rintro ⟨_, rfl, ds, hl, hn, rfl⟩
    have hk : (BitVec.ofNat 64 ds.length : U64).toNat = ds.length := by
      rw [BitVec.toNat_ofNat]; exact Nat.mod_eq_of_lt (by omega)
    refine ⟨BitVec.ofNat 64 ds.length, le64 ds.length, ds ++ r, by simp [Layout.bytes], by rw [hk]; rfl, ?_⟩
    rw [if_neg (by omega)]
    refine (readFrom_bind (readFrom_readExact _)).mpr ⟨⟨ds, hk.symm⟩, ds, r, rfl, rfl, ?_⟩
    rw [pure_apply, currency_mk]
    rw [← beNat_eq, beNat_zeros, hn]

theorem readFrom_siafundOutput : ReadFrom lim (dec .v1 : Dec SiafundOutput) siafundOutput := by
  intro bs o r
  rw [dec_siafundOutput_v1, readFrom_bind readFrom_currency]
  constructor
  · rintro ⟨c, x, y, rfl, hx, h⟩
    cases hc : c.toU64? with
    | none => rw [hc] at h; simp [Dec.fail] at h
    | some n =>
      rw [hc] at h
      obtain ⟨a, z, w, rfl, rfl, h1⟩ := (readFrom_bind readFrom_arr).mp h
      obtain ⟨c', u, t, rfl, hu, h2⟩ := (readFrom_bind readFrom_currency).mp h1
      simp only [pure_apply, Res.ok.injEq, Prod.mk.injEq] at h2
      obtain ⟨rfl, rfl⟩ := h2
      have hn : c.val.toNat = n.toNat := by
        unfold Currency.toU64? at hc
        split at hc
        · rename_i hlt
          simp only [Option.some.injEq] at hc
          rw [← hc, BitVec.toNat_setWidth, Nat.mod_eq_of_lt hlt]
        · simp at hc
      exact ⟨x ++ (a.1 ++ u), by simp, x, a.1 ++ u, rfl, hn ▸ hx, a.1, u, rfl, rfl, u, [], by simp, ⟨_, hu⟩, rfl⟩
  · rintro ⟨_, rfl, x, _, rfl, hx, _, _, rfl, rfl, u, _, rfl, ⟨n, hu⟩, rfl⟩
    have hn : n < 2 ^ 128 := by
      obtain ⟨ds, hl, rfl, -⟩ := hu
      have h1 := beVal_lt ds
      have h2 : 256 ^ ds.length ≤ 256 ^ 16 := Nat.pow_le_pow_right (by decide) hl
      rw [beNat_eq]
      omega
    refine ⟨Currency.ofU64 o.value, x, o.address.1 ++ (u ++ r), by simp, ?_, ?_⟩
    · show amount (o.value.setWidth 128).toNat x
      rw [BitVec.toNat_setWidth, Nat.mod_eq_of_lt (Nat.lt_trans o.value.isLt (by decide))]
      exact hx
    · rw [Currency.toU64?_ofU64]
      refine (readFrom_bind readFrom_arr).mpr ⟨o.address, _, _, rfl, rfl, ?_⟩
      refine (readFrom_bind readFrom_currency).mpr ⟨⟨BitVec.ofNat 128 n⟩, u, r, rfl, ?_, rfl⟩
      show amount (BitVec.ofNat 128 n).toNat u
      rwa [BitVec.toNat_ofNat, Nat.mod_eq_of_lt hn]

theorem readFrom_siacoinOutput : ReadFrom lim (dec .v1 : Dec SiacoinOutput) siacoinOutput :=
  ReadFrom.struct (readFrom_currency.cons readFrom_arr.last)

theorem readFrom_fileContract : ReadFrom lim (dec .v1 : Dec V1.FileContract) (fileContract lim) :=
  ReadFrom.struct (readFrom_u64.cons (readFrom_arr.cons (readFrom_u64.cons (readFrom_u64.cons (readFrom_currency.cons
    (readFrom_siacoinOutput.many.cons (readFrom_siacoinOutput.many.cons (readFrom_arr.cons readFrom_u64.last))))))))

theorem readFrom_fileContractRevision : ReadFrom lim (dec .v1 : Dec V1.FileContractRevision) (fileContractRevision lim) :=
  ReadFrom.struct (readFrom_arr.cons ((readFrom_plain lay_unlockConditions).cons (readFrom_u64.cons (readFrom_u64.cons
    (readFrom_arr.cons (readFrom_u64.cons (readFrom_u64.cons (readFrom_siacoinOutput.many.cons
    (readFrom_siacoinOutput.many.cons readFrom_arr.last)))))))))

theorem readFrom_v1Transaction : ReadFrom lim (dec .v1 : Dec V1.Transaction) (v1Transaction lim) :=
  ReadFrom.struct ((readFrom_plain (lay_many lay_v1SiacoinInput)).cons (readFrom_siacoinOutput.many.cons
    (readFrom_fileContract.many.cons (readFrom_fileContractRevision.many.cons
    ((readFrom_plain (lay_many lay_v1StorageProof)).cons ((readFrom_plain (lay_many lay_v1SiafundInput)).cons
    (readFrom_siafundOutput.many.cons (readFrom_currency.many.cons ((readFrom_plain (lay_many lay_bytes)).cons
    (readFrom_plain (lay_many lay_transactionSignature)).last)))))))))

theorem readFrom_block : ReadFrom lim (dec .v1 : Dec Block) (block lim) :=
  ReadFrom.struct (readFrom_arr.cons (readFrom_u64.cons ((readFrom_plain lay_time).cons
    (readFrom_siacoinOutput.many.cons readFrom_v1Transaction.many.last))))

/-! ## v2 transactions -/

theorem and_mask {f m : U64} {i : Nat} (h : m = BitVec.twoPow 64 i) (hi : i < 64) : f &&& m ≠ 0 ↔ f.toNat.testBit i = true := by
  rw [h, BitVec.and_twoPow, ← BitVec.testBit_toNat]
  cases hb : f.toNat.testBit i with
  | true =>
    simp only [if_true, iff_true]
    intro hz
    have := congrArg (fun x : BitVec 64 => x.getLsbD i) hz
    simp [hi] at this
  | false => simp

theorem readFrom_field {d : Dec α} {S : α → Form} (h : ReadFrom lim d S) {f m : U64} (x : α) {i : Nat}
    (hm : m = BitVec.twoPow 64 i) (hi : i < 64) :
    ReadFrom lim (V2.Transaction.decodeField f m d x) (fun a => field (f.toNat.testBit i) (S a) (a = x)) := by
  intro bs a r
  unfold V2.Transaction.decodeField field
  by_cases hb : f &&& m ≠ 0
  · rw [if_pos hb]
    simp only [(and_mask hm hi).mp hb, if_true]
    exact h bs a r
  · rw [if_neg hb]
    have : f.toNat.testBit i = false := by
      cases ht : f.toNat.testBit i with
      | true => exact absurd ((and_mask hm hi).mpr ht) hb
      | false => rfl
    simp only [this]
    constructor
    · intro hp
      simp only [pure_apply, Res.ok.injEq, Prod.mk.injEq] at hp
      exact ⟨[], by simp [hp.2], hp.1.symm, rfl⟩
    · rintro ⟨_, rfl, h1⟩
      simp at h1
      simp [h1.1, h1.2]

theorem readFrom_some : ReadFrom lim ((dec .v2 : Dec Address) >>= fun a => pure (some a))
    (fun o bs => ∃ a, o = some a ∧ bs = a.1) := by
  intro bs o r
  rw [readFrom_bind readFrom_arr]
  constructor
  · rintro ⟨a, x, y, rfl, rfl, h⟩
    simp only [pure_apply, Res.ok.injEq, Prod.mk.injEq] at h
    exact ⟨a.1, by rw [h.2], a, h.1.symm, rfl⟩
  · rintro ⟨_, rfl, a, rfl, rfl⟩
    exact ⟨a, a.1, r, rfl, rfl, rfl⟩

theorem readFrom_fee : ReadFrom lim (dec .v2 : Dec Currency) (fun c => exactly (le128 c.val.toNat)) :=
  readFrom_exactly lay_v2Currency fun _ => trivial

theorem readFrom_decodeRest (f : U64) : ReadFrom lim (V2.Transaction.decodeRest .v2 f) (fun t =>
    concat (v2Fields lim f.toNat t)) := by
  intro bs t r
  unfold V2.Transaction.decodeRest
  constructor
  · intro hd
    obtain ⟨a0, x0, y0, rfl, h0, hd⟩ := (readFrom_bind (readFrom_field (f := f) (m := 1) (readFrom_plain (lay_many lay_v2SiacoinInput)) [] (i := 0) (by decide) (by decide))).mp hd
    obtain ⟨a1, x1, y1, rfl, h1, hd⟩ := (readFrom_bind (readFrom_field (f := f) (m := 2) (readFrom_plain (lay_many lay_siacoinOutput)) [] (i := 1) (by decide) (by decide))).mp hd
    obtain ⟨a2, x2, y2, rfl, h2, hd⟩ := (readFrom_bind (readFrom_field (f := f) (m := 4) (readFrom_plain (lay_many lay_v2SiafundInput)) [] (i := 2) (by decide) (by decide))).mp hd
    obtain ⟨a3, x3, y3, rfl, h3, hd⟩ := (readFrom_bind (readFrom_field (f := f) (m := 8) (readFrom_plain (lay_many lay_siafundOutput)) [] (i := 3) (by decide) (by decide))).mp hd
    obtain ⟨a4, x4, y4, rfl, h4, hd⟩ := (readFrom_bind (readFrom_field (f := f) (m := 16) (readFrom_plain (lay_many lay_v2FileContract)) [] (i := 4) (by decide) (by decide))).mp hd
    obtain ⟨a5, x5, y5, rfl, h5, hd⟩ := (readFrom_bind (readFrom_field (f := f) (m := 32) (readFrom_plain (lay_many lay_v2FileContractRevision)) [] (i := 5) (by decide) (by decide))).mp hd
    obtain ⟨a6, x6, y6, rfl, h6, hd⟩ := (readFrom_bind (readFrom_field (f := f) (m := 64) (readFrom_plain (lay_many lay_resolution)) [] (i := 6) (by decide) (by decide))).mp hd
    obtain ⟨a7, x7, y7, rfl, h7, hd⟩ := (readFrom_bind (readFrom_field (f := f) (m := 128) (readFrom_plain (lay_many lay_attestation)) [] (i := 7) (by decide) (by decide))).mp hd
    obtain ⟨a8, x8, y8, rfl, h8, hd⟩ := (readFrom_bind (readFrom_field (f := f) (m := 256) (readFrom_plain lay_bytes) [] (i := 8) (by decide) (by decide))).mp hd
    obtain ⟨a9, x9, y9, rfl, h9, hd⟩ := (readFrom_bind (readFrom_field (f := f) (m := 512) readFrom_some none (i := 9) (by decide) (by decide))).mp hd
    obtain ⟨a10, x10, y10, rfl, h10, hd⟩ := (readFrom_bind (readFrom_field (f := f) (m := 1024) readFrom_fee ⟨0⟩ (i := 10) (by decide) (by decide))).mp hd
    simp only [pure_apply, Res.ok.injEq, Prod.mk.injEq] at hd
    obtain ⟨rfl, rfl⟩ := hd
    exact ⟨_, by simp only [List.append_assoc, List.nil_append], x0, _, rfl, h0, x1, _, rfl, h1, x2, _, rfl, h2, x3, _, rfl, h3, x4, _, rfl, h4, x5, _, rfl, h5, x6, _, rfl, h6, x7, _, rfl, h7, x8, _, rfl, h8, x9, _, rfl, h9, x10, _, rfl, h10, rfl⟩
  · rintro ⟨_, rfl, x0, _, rfl, h0, x1, _, rfl, h1, x2, _, rfl, h2, x3, _, rfl, h3, x4, _, rfl, h4, x5, _, rfl, h5, x6, _, rfl, h6, x7, _, rfl, h7, x8, _, rfl, h8, x9, _, rfl, h9, x10, _, rfl, h10, rfl⟩
    refine (readFrom_bind (readFrom_field (f := f) (m := 1) (readFrom_plain (lay_many lay_v2SiacoinInput)) [] (i := 0) (by decide) (by decide))).mpr ⟨t.siacoinInputs, x0, _, List.append_assoc _ _ _, h0, ?_⟩
    refine (readFrom_bind (readFrom_field (f := f) (m := 2) (readFrom_plain (lay_many lay_siacoinOutput)) [] (i := 1) (by decide) (by decide))).mpr ⟨t.siacoinOutputs, x1, _, List.append_assoc _ _ _, h1, ?_⟩
    refine (readFrom_bind (readFrom_field (f := f) (m := 4) (readFrom_plain (lay_many lay_v2SiafundInput)) [] (i := 2) (by decide) (by decide))).mpr ⟨t.siafundInputs, x2, _, List.append_assoc _ _ _, h2, ?_⟩
    refine (readFrom_bind (readFrom_field (f := f) (m := 8) (readFrom_plain (lay_many lay_siafundOutput)) [] (i := 3) (by decide) (by decide))).mpr ⟨t.siafundOutputs, x3, _, List.append_assoc _ _ _, h3, ?_⟩
    refine (readFrom_bind (readFrom_field (f := f) (m := 16) (readFrom_plain (lay_many lay_v2FileContract)) [] (i := 4) (by decide) (by decide))).mpr ⟨t.fileContracts, x4, _, List.append_assoc _ _ _, h4, ?_⟩
    refine (readFrom_bind (readFrom_field (f := f) (m := 32) (readFrom_plain (lay_many lay_v2FileContractRevision)) [] (i := 5) (by decide) (by decide))).mpr ⟨t.fileContractRevisions, x5, _, List.append_assoc _ _ _, h5, ?_⟩
    refine (readFrom_bind (readFrom_field (f := f) (m := 64) (readFrom_plain (lay_many lay_resolution)) [] (i := 6) (by decide) (by decide))).mpr ⟨t.fileContractResolutions, x6, _, List.append_assoc _ _ _, h6, ?_⟩
    refine (readFrom_bind (readFrom_field (f := f) (m := 128) (readFrom_plain (lay_many lay_attestation)) [] (i := 7) (by decide) (by decide))).mpr ⟨t.attestations, x7, _, List.append_assoc _ _ _, h7, ?_⟩
    refine (readFrom_bind (readFrom_field (f := f) (m := 256) (readFrom_plain lay_bytes) [] (i := 8) (by decide) (by decide))).mpr ⟨t.arbitraryData, x8, _, List.append_assoc _ _ _, h8, ?_⟩
    refine (readFrom_bind (readFrom_field (f := f) (m := 512) readFrom_some none (i := 9) (by decide) (by decide))).mpr ⟨t.newFoundationAddress, x9, _, List.append_assoc _ _ _, h9, ?_⟩
    refine (readFrom_bind (readFrom_field (f := f) (m := 1024) readFrom_fee ⟨0⟩ (i := 10) (by decide) (by decide))).mpr ⟨t.minerFee, x10, _, List.append_assoc _ _ _, h10, ?_⟩
    rfl

theorem readFrom_v2Transaction : ReadFrom lim (dec .v2 : Dec V2.Transaction) (v2Transaction lim) := by
  intro bs t r
  have h8 : ReadFrom lim (dec .v2 : Dec UInt8) (fun x => exactly [x]) := readFrom_exactly (fun _ => rfl) fun _ => trivial
  rw [V2.Transaction.dec_transaction, readFrom_bind h8]
  constructor
  · rintro ⟨b, x, y, rfl, rfl, h⟩
    split at h
    · simp [Dec.fail] at h
    · rename_i hb
      simp only [ne_eq, Decidable.not_not] at hb
      subst hb
      obtain ⟨f, z, w, rfl, rfl, h1⟩ := (readFrom_bind readFrom_u64).mp h
      obtain ⟨u, rfl, hu⟩ := (readFrom_decodeRest f _ _ _).mp h1
      exact ⟨[2] ++ (le64 f.toNat ++ u), by simp, f.toNat, f.isLt, _, _, rfl, rfl, _, _, rfl, rfl, hu⟩
  · rintro ⟨_, rfl, bits, hb, _, _, rfl, rfl, _, u, rfl, rfl, hu⟩
    have hk : (BitVec.ofNat 64 bits : U64).toNat = bits := by rw [BitVec.toNat_ofNat]; exact Nat.mod_eq_of_lt hb
    refine ⟨2, [2], le64 bits ++ (u ++ r), by simp, rfl, ?_⟩
    rw [if_neg (by simp)]
    refine (readFrom_bind readFrom_u64).mpr ⟨BitVec.ofNat 64 bits, le64 bits, u ++ r, rfl, by rw [hk]; rfl, ?_⟩
    exact (readFrom_decodeRest _ _ _ _).mpr ⟨u, rfl, by rw [hk]; exact hu⟩

/-! ## The shortest spelling -/

/-- Every spelling is what is written or longer. -/
def Short (v : Ver) [Codec v α] (S : α → Form) : Prop := ∀ a bs, S a bs → bs = enc v a ∨ (enc v a).length < bs.length

theorem Short.exactly [Codec v α] {f : α → List UInt8} (h : ∀ a : α, enc v a = f a) :
    Short v (fun a : α => Spelling.exactly (f a)) := fun a _ hb => .inl (hb.trans (h a).symm)

theorem Short.plain [Codec v α] [Fits α] {f : α → List UInt8} (h : ∀ a : α, enc v a = f a) :
    Short v (Spelling.plain lim f) := fun a _ hb => .inl (hb.2.trans (h a).symm)

theorem short_append {x y e f : List UInt8} (h1 : x = e ∨ e.length < x.length) (h2 : y = f ∨ f.length < y.length) :
    x ++ y = e ++ f ∨ (e ++ f).length < (x ++ y).length := by
  simp only [List.length_append]
  rcases h1 with rfl | h1 <;> rcases h2 with rfl | h2
  · exact .inl rfl
  all_goals right; omega

theorem Short.cons [Codec v α] [Codec v β] {S : α → Form} {L : β → List Form} (h1 : Short v S)
    (h2 : Short v (fun b => concat (L b))) : Short v (fun p : α × β => concat (S p.1 :: L p.2)) := by
  rintro p _ ⟨x, y, rfl, hx, hy⟩
  exact short_append (h1 _ _ hx) (h2 _ _ hy)

theorem Short.last [Codec v α] {S : α → Form} (h : Short v S) : Short v (fun a => concat [S a]) := by
  rintro a _ ⟨x, _, rfl, hx, rfl⟩
  rw [List.append_nil]
  exact h a x hx

theorem Short.struct [Struct α β] [Codec v β] {S : β → Form} (h : Short v S) :
    Short v (fun a : α => S (Struct.fields a)) := fun _ _ hb => h _ _ hb

theorem Short.many [Codec v α] {S : α → Form} (h : Short v S) : Short v (Spelling.many lim S) := by
  rintro l _ ⟨-, -, _, y, rfl, rfl, hy⟩
  have : y = l.flatMap (enc v) ∨ (l.flatMap (enc v)).length < y.length := by
    induction l generalizing y with
    | nil => exact .inl hy
    | cons a l ih =>
      obtain ⟨z, w, rfl, hz, hw⟩ := hy
      exact short_append (h _ _ hz) (ih _ hw)
  rw [show enc v l = le64 l.length ++ l.flatMap (enc v) by rw [← lay_length (v := v)]; rfl]
  exact short_append (.inl rfl) this

theorem short_currency : Short .v1 (fun c : Currency => amount c.val.toNat) := by
  rintro c _ ⟨ds, hl, hn, rfl⟩
  clear hl
  induction ds with
  | nil => exact .inl (C11_v1_encoding_unique c [] hn (by simp)).symm
  | cons b ds ih =>
    by_cases hb : b = 0
    · subst hb
      have hn' : beNat ds = c.val.toNat := by rw [← hn]; simp [beNat]
      right
      have hlen : (Layout.bytes (0 :: ds)).length = (Layout.bytes ds).length + 1 := by simp [Layout.bytes]; omega
      rcases ih hn' with h | h
      · rw [← h]; omega
      · omega
    · exact .inl (C11_v1_encoding_unique c (b :: ds) hn (by simpa using hb)).symm

theorem short_siafundOutput : Short .v1 siafundOutput := by
  rintro o _ ⟨x, _, rfl, hx, _, _, rfl, rfl, u, _, rfl, ⟨n, ds, hl, hn, rfl⟩, rfl⟩
  rw [enc_siafundOutput_v1]
  refine short_append ?_ (short_append (.inl rfl) ?_)
  · refine short_currency _ _ ?_
    show amount (o.value.setWidth 128).toNat x
    rw [BitVec.toNat_setWidth, Nat.mod_eq_of_lt (Nat.lt_trans o.value.isLt (by decide))]
    exact hx
  · rw [List.append_nil, show enc .v1 (Currency.mk 0) = le64 0 by decide +kernel]
    cases ds with
    | nil => exact .inl rfl
    | cons b ds => right; simp [Layout.bytes]

theorem short_siacoinOutput : Short .v1 siacoinOutput :=
  Short.struct (short_currency.cons (Short.exactly lay_arr).last)

theorem short_fileContract : Short .v1 (fileContract lim) :=
  Short.struct ((Short.exactly lay_u64).cons ((Short.exactly lay_arr).cons ((Short.exactly lay_u64).cons
    ((Short.exactly lay_u64).cons (short_currency.cons (short_siacoinOutput.many.cons (short_siacoinOutput.many.cons
    ((Short.exactly lay_arr).cons (Short.exactly lay_u64).last))))))))

theorem short_fileContractRevision : Short .v1 (fileContractRevision lim) :=
  Short.struct ((Short.exactly lay_arr).cons ((Short.plain lay_unlockConditions).cons ((Short.exactly lay_u64).cons
    ((Short.exactly lay_u64).cons ((Short.exactly lay_arr).cons ((Short.exactly lay_u64).cons ((Short.exactly lay_u64).cons
    (short_siacoinOutput.many.cons (short_siacoinOutput.many.cons (Short.exactly lay_arr).last)))))))))

theorem short_v1Transaction : Short .v1 (v1Transaction lim) :=
  Short.struct ((Short.plain (lay_many lay_v1SiacoinInput)).cons (short_siacoinOutput.many.cons
    (short_fileContract.many.cons (short_fileContractRevision.many.cons
    ((Short.plain (lay_many lay_v1StorageProof)).cons ((Short.plain (lay_many lay_v1SiafundInput)).cons
    (short_siafundOutput.many.cons (short_currency.many.cons ((Short.plain (lay_many lay_bytes)).cons
    (Short.plain (lay_many lay_transactionSignature)).last)))))))))

theorem short_block : Short .v1 (block lim) :=
  Short.struct ((Short.exactly lay_arr).cons ((Short.exactly lay_u64).cons ((Short.plain lay_time).cons
    (short_siacoinOutput.many.cons short_v1Transaction.many.last))))

theorem writesShortest [Codec v α] {S : Lim → α → Form} (h : ∀ lim, ReadFrom lim (dec v) (S lim)) (hs : ∀ lim, Short v (S lim)) :
    WritesShortest v α := by
  intro lim bs rest a hd
  obtain ⟨used, rfl, hu⟩ := (h lim _ _ _).mp hd
  exact short_append (hs lim _ _ hu) (.inl rfl)

/-- A spelling of a field is what is written, announced as it is written, or longer. -/
def Tight (same : Prop) (x e : List UInt8) : Prop := (x = e ∧ same) ∨ e.length < x.length

theorem tight_vec [Codec .v2 α] [Fits α] {f : List α → List UInt8} (h : ∀ a, enc .v2 a = f a) {b : Bool} {l : List α}
    {x : List UInt8} (hx : field b (plain lim f l) (l = []) x) :
    Tight (b = !l.isEmpty) x (V2.Transaction.encodeVec (v := .v2) l) := by
  unfold field at hx
  unfold V2.Transaction.encodeVec
  cases b with
  | true =>
    obtain ⟨-, rfl⟩ := hx
    cases l with
    | nil =>
      right
      rw [← h, enc_list]
      simp
    | cons a l => left; simp [h]
  | false =>
    obtain ⟨rfl, rfl⟩ := hx
    left; simp

theorem tight_opt {b : Bool} {o : Option Address} {x : List UInt8}
    (hx : field b (fun bs => ∃ a, o = some a ∧ bs = a.1) (o = none) x) :
    Tight (b = o.isSome) x (V2.Transaction.encodeOpt (v := .v2) o) := by
  unfold field at hx
  cases b with
  | true => obtain ⟨a, rfl, rfl⟩ := hx; exact .inl ⟨rfl, rfl⟩
  | false => obtain ⟨rfl, rfl⟩ := hx; exact .inl ⟨rfl, rfl⟩

theorem tight_fee {b : Bool} {c : Currency} {x : List UInt8}
    (hx : field b (exactly (le128 c.val.toNat)) (c = ⟨0⟩) x) :
    Tight (b = decide (c ≠ ⟨0⟩)) x (if c ≠ ⟨0⟩ then enc .v2 c else []) := by
  unfold field at hx
  cases b with
  | true =>
    simp only [if_true, exactly] at hx
    subst hx
    by_cases hc : c = ⟨0⟩
    · right
      simp [hc, le128]
    · left
      exact ⟨by rw [if_pos hc, lay_v2Currency], (decide_eq_true hc).symm⟩
  | false => obtain ⟨rfl, rfl⟩ := hx; left; simp

theorem tight_append {p q : Prop} {x y e f : List UInt8} (h1 : Tight p x e) (h2 : Tight q y f) :
    Tight (p ∧ q) (x ++ y) (e ++ f) := by
  unfold Tight at *
  simp only [List.length_append]
  rcases h1 with ⟨rfl, hp⟩ | h1 <;> rcases h2 with ⟨rfl, hq⟩ | h2
  · exact .inl ⟨rfl, hp, hq⟩
  all_goals right; omega

theorem bitField_lt (l : List Bool) : Layout.bitField l < 2 ^ l.length := by
  induction l with
  | nil => simp [Layout.bitField]
  | cons b l ih =>
    simp only [Layout.bitField, List.length_cons, Nat.pow_succ]
    split <;> omega

theorem bits_eq {bits : Nat} (h : bits < 2 ^ 11) {l : List Bool} (hl : l = (List.range 11).map bits.testBit) :
    bits = Layout.bitField l := by
  have : ∀ (n bits : Nat), bits < 2 ^ n → bits = Layout.bitField ((List.range n).map bits.testBit) := by
    intro n
    induction n with
    | zero => intro bits h; simp [Layout.bitField] at *; omega
    | succ n ih =>
      intro bits h
      rw [List.range_succ_eq_map, List.map_cons, List.map_map, Layout.bitField]
      have h2 := ih (bits / 2) (by omega)
      have : bits.testBit ∘ Nat.succ = (bits / 2).testBit := by
        funext i
        simp [Nat.testBit_succ]
      rw [this, ← h2]
      simp only [Nat.testBit_zero, decide_eq_true_eq]
      split <;> omega
  rw [hl]
  exact this 11 bits h

theorem tight_v2Transaction {t : V2.Transaction} {bits : Nat} {bs : List UInt8} (h : concat (v2Fields lim bits t) bs) :
    ∃ e, enc .v2 t = 2 :: le64 (Layout.bitField t.present) ++ e ∧ Tight (t.present = (List.range 11).map bits.testBit) bs e := by
  obtain ⟨x0, _, rfl, h0, x1, _, rfl, h1, x2, _, rfl, h2, x3, _, rfl, h3, x4, _, rfl, h4, x5, _, rfl, h5, x6, _, rfl, h6, x7, _, rfl, h7, x8, _, rfl, h8, x9, _, rfl, h9, x10, _, rfl, h10, rfl⟩ := h
  have k := (tight_append (tight_vec (lay_many lay_v2SiacoinInput) h0) (tight_append (tight_vec (lay_many lay_siacoinOutput) h1) (tight_append (tight_vec (lay_many lay_v2SiafundInput) h2) (tight_append (tight_vec (lay_many lay_siafundOutput) h3) (tight_append (tight_vec (lay_many lay_v2FileContract) h4) (tight_append (tight_vec (lay_many lay_v2FileContractRevision) h5) (tight_append (tight_vec (lay_many lay_resolution) h6) (tight_append (tight_vec (lay_many lay_attestation) h7) (tight_append (tight_vec lay_bytes h8) (tight_append (tight_opt h9) (tight_fee h10)))))))))))
  have hk := k.imp_left (b := _ ∧ t.present = (List.range 11).map bits.testBit) fun hk => ⟨hk.1, by
    obtain ⟨-, h0, h1, h2, h3, h4, h5, h6, h7, h8, h9, h10⟩ := hk
    show _ = [bits.testBit 0, bits.testBit 1, bits.testBit 2, bits.testBit 3, bits.testBit 4, bits.testBit 5, bits.testBit 6,
      bits.testBit 7, bits.testBit 8, bits.testBit 9, bits.testBit 10]
    rw [h0, h1, h2, h3, h4, h5, h6, h7, h8, h9, h10]
    rfl⟩
  simp only [List.append_nil]
  refine ⟨_, ?_, hk⟩
  rw [V2.Transaction.present, ← V2.Transaction.fieldBits_bitField, ← lay_u64 (v := .v2)]
  rfl

theorem short_v2Transaction {t : V2.Transaction} {bits : Nat} {bs : List UInt8}
    (h : concat (exactly [2] :: exactly (le64 bits) :: v2Fields lim bits t) bs) : (enc .v2 t).length ≤ bs.length ∧
    (bits < 2 ^ 11 → bs = enc .v2 t ∨ (enc .v2 t).length < bs.length) := by
  obtain ⟨_, _, rfl, rfl, _, u, rfl, rfl, hu⟩ := h
  obtain ⟨e, he, ht⟩ := tight_v2Transaction hu
  rw [he]
  rcases ht with ⟨rfl, hp⟩ | ht
  · refine ⟨by simp, fun hb => .inl ?_⟩
    rw [← bits_eq hb hp]
    rfl
  · have : (2 :: le64 (Layout.bitField t.present) ++ e).length < ([2] ++ (le64 bits ++ u)).length := by
      simp
      omega
    exact ⟨by omega, fun _ => .inr this⟩

end Verif
