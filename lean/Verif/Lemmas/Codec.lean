import Verif.Lemmas.Prim
import Verif.Spec.Fits

/-! # Codec laws and their closure under the codec combinators -/

namespace Verif

open Dec

/-- Round trip, truncation and locality. -/
class Lawful (v : Ver) (α : Type) [Codec v α] [Fits α] : Prop where
  reads : ∀ lim (a : α), fits lim a → Reads lim (dec v) (enc v a) a
  loc : Local (dec v : Dec α)

/-- Only canonical encodings are accepted. -/
class Canonical (v : Ver) (α : Type) [Codec v α] : Prop where
  canon : Canon (dec v : Dec α) (enc v)

/-- No panic when allocation never fails and the stack is deep enough. -/
class Safe (v : Ver) (α : Type) [Codec v α] : Prop where
  safe : PanicFree (dec v : Dec α)

/-- No panic at all. -/
class Total (v : Ver) (α : Type) [Codec v α] : Prop where
  total : NoPanic (dec v : Dec α)

variable {v : Ver} {α β : Type}

theorem Total.toSafe [Codec v α] [Fits α] [l : Lawful v α] [h : Total v α] : Safe v α :=
  ⟨h.total.panicFree l.loc⟩

/-! ## u8 -/

theorem dec_u8_nil {lim : Lim} : (dec v : Dec UInt8) lim [] = .err .io := rfl

theorem dec_u8_cons {lim : Lim} (b : UInt8) (bs : List UInt8) :
    (dec v : Dec UInt8) lim (b :: bs) = .ok (b, bs) := by
  simp [dec, Codec.decode, Dec.bind_apply, readExact]

theorem dec_u8_eq_ok {lim : Lim} {bs r : List UInt8} {b : UInt8} :
    (dec v : Dec UInt8) lim bs = .ok (b, r) ↔ bs = b :: r := by
  cases bs with
  | nil => simp [dec_u8_nil]
  | cons x xs => simp [dec_u8_cons]

instance : Lawful v UInt8 where
  reads lim a _ := by
    refine ⟨fun rest => ?_, fun p s h hs => ?_⟩
    · simp only [enc, Codec.encode, List.singleton_append, dec_u8_cons]
    · have : p = [] := by
        cases p with
        | nil => rfl
        | cons x xs =>
          simp only [enc, Codec.encode, List.cons_append, List.cons.injEq] at h
          simp_all
      subst this
      exact ⟨_, rfl⟩
  loc lim bs a r h := by
    rw [dec_u8_eq_ok] at h
    exact ⟨[a], by simp [h], fun x => by simp [dec_u8_cons]⟩

instance : Canonical v UInt8 where
  canon lim bs a r h := by
    rw [dec_u8_eq_ok] at h
    simp [h, enc, Codec.encode]

instance : Total v UInt8 where
  total := NoPanic.bind (NoPanic.readExact 1) fun _ => NoPanic.pure _

/-! ## bool -/

theorem dec_bool_def : (dec v : Dec Bool) = ((dec v : Dec UInt8) >>= fun x =>
    if x = 0 then pure false else if x = 1 then pure true else Dec.fail .invalidValue) := rfl

theorem enc_bool (b : Bool) : enc v b = enc v (if b then (1 : UInt8) else 0) := rfl

instance : Lawful v Bool where
  reads lim a _ := by
    rw [dec_bool_def, enc_bool]
    refine (Lawful.reads lim _ trivial).map fun bs => ?_
    cases a <;> rfl
  loc := by
    rw [dec_bool_def]
    refine Lawful.loc.bind fun a => ?_
    split
    · exact Local.pure _
    · split
      · exact Local.pure _
      · exact Local.fail _

instance : Canonical v Bool where
  canon lim bs a r h := by
    rw [dec_bool_def, bind_eq_ok] at h
    obtain ⟨x, r', h1, h2⟩ := h
    have h3 := Canonical.canon _ _ _ _ h1
    rw [h3]
    split at h2
    · simp at h2
      obtain ⟨rfl, rfl⟩ := h2
      rw [enc_bool]; simp [*]
    · split at h2
      · simp at h2
        obtain ⟨rfl, rfl⟩ := h2
        rw [enc_bool]; simp [*]
      · simp [Dec.fail] at h2

instance : Total v Bool where
  total := by
    rw [dec_bool_def]
    refine NoPanic.bind Total.total fun a => ?_
    split
    · exact NoPanic.pure _
    · split
      · exact NoPanic.pure _
      · exact NoPanic.fail _

/-! ## Numbers -/

theorem Dec.Reads.numDecode {lim : Lim} {n : Nat} (x : U64) :
    Reads lim (Verif.numDecode n) (leBytes 8 x.toNat) (x.setWidth n) := by
  unfold Verif.numDecode
  refine Reads.map (Reads.readExact ⟨leBytes 8 x.toNat, leBytes_length _ _⟩) fun bs => ?_
  have : leVal (leBytes 8 x.toNat) = x.toNat := leVal_leBytes_of_lt (by have := x.isLt; omega)
  simp [this]

theorem Dec.Local.numDecode (n : Nat) : Local (Verif.numDecode n) :=
  (Local.readExact 8).bind fun _ => Local.pure _

theorem Dec.NoPanic.numDecode (n : Nat) : NoPanic (Verif.numDecode n) :=
  (NoPanic.readExact 8).bind fun _ => NoPanic.pure _

/-- A full-width number is read back from exactly its eight bytes. -/
theorem numDecode64_canon {lim : Lim} {bs r : List UInt8} {x : U64}
    (h : Verif.numDecode 64 lim bs = .ok (x, r)) : bs = leBytes 8 x.toNat ++ r := by
  unfold Verif.numDecode at h
  rw [bind_eq_ok] at h
  obtain ⟨b, r', h1, h2⟩ := h
  have h3 := Canon.readExact _ _ _ _ _ h1
  simp at h2
  obtain ⟨h2, rfl⟩ := h2
  rw [h3, ← h2]
  have hlt := leVal_lt b.1
  rw [b.2] at hlt
  have : (BitVec.ofNat 64 (leVal b.1)).toNat = leVal b.1 := by
    simp; omega
  rw [this]
  congr 1
  have := leBytes_leVal b.1
  rw [b.2] at this
  exact this.symm

theorem lawful_num {n : Nat} (hn : n ≤ 64) [Codec v (BitVec n)]
    (henc : ∀ x : BitVec n, enc v x = numEncode x) (hdec : (dec v : Dec (BitVec n)) = numDecode n) :
    Lawful v (BitVec n) where
  reads lim a _ := by
    rw [hdec, henc, numEncode]
    have := Reads.numDecode (lim := lim) (n := n) (a.setWidth 64)
    rwa [BitVec.setWidth_setWidth_of_le _ hn, BitVec.setWidth_eq] at this
  loc := by rw [hdec]; exact Local.numDecode n

instance : Lawful v U16 := lawful_num (by decide) (fun _ => rfl) rfl
instance : Lawful v U32 := lawful_num (by decide) (fun _ => rfl) rfl
instance : Lawful v U64 := lawful_num (by decide) (fun _ => rfl) rfl
instance : Total v U16 := ⟨NoPanic.numDecode 16⟩
instance : Total v U32 := ⟨NoPanic.numDecode 32⟩
instance : Total v U64 := ⟨NoPanic.numDecode 64⟩

theorem enc_u64 (x : U64) : enc v x = leBytes 8 x.toNat := by
  simp [enc, Codec.encode, numEncode]

theorem dec_u64 : (dec v : Dec U64) = numDecode 64 := rfl

instance : Canonical v U64 where
  canon lim bs a r h := by rw [enc_u64]; exact numDecode64_canon h

theorem setWidth_signExtend {n : Nat} (hn : n ≤ 64) (x : BitVec n) :
    (x.signExtend 64).setWidth n = x := by
  apply BitVec.eq_of_getLsbD_eq
  intro i hi
  rw [BitVec.getLsbD_setWidth, BitVec.getLsbD_signExtend]
  simp [hi, show i < 64 by omega]

instance : Lawful v Int16 where
  reads lim a _ := by
    refine (Reads.numDecode (n := 16) (a.toBitVec.signExtend 64)).map fun bs => ?_
    simp [setWidth_signExtend (show 16 ≤ 64 by decide)]
  loc := (Local.numDecode 16).bind fun _ => Local.pure _

instance : Lawful v Int32 where
  reads lim a _ := by
    refine (Reads.numDecode (n := 32) (a.toBitVec.signExtend 64)).map fun bs => ?_
    simp [setWidth_signExtend (show 32 ≤ 64 by decide)]
  loc := (Local.numDecode 32).bind fun _ => Local.pure _

instance : Lawful v Int64 where
  reads lim a _ := by
    refine (Reads.numDecode (n := 64) (a.toBitVec.signExtend 64)).map fun bs => ?_
    simp
  loc := (Local.numDecode 64).bind fun _ => Local.pure _

instance : Total v Int16 := ⟨(NoPanic.numDecode 16).bind fun _ => NoPanic.pure _⟩
instance : Total v Int32 := ⟨(NoPanic.numDecode 32).bind fun _ => NoPanic.pure _⟩
instance : Total v Int64 := ⟨(NoPanic.numDecode 64).bind fun _ => NoPanic.pure _⟩

instance : Canonical v Int64 where
  canon lim bs a r h := by
    obtain ⟨x, r', h1, h2⟩ := bind_eq_ok.mp h
    simp at h2
    rw [numDecode64_canon h1, ← h2.1, ← h2.2]
    simp [enc, Codec.encode]

/-! ## Fixed-size arrays -/

instance {n : Nat} : Lawful v (Arr n) where
  reads _ a _ := Reads.readExact a
  loc := Local.readExact n

instance {n : Nat} : Canonical v (Arr n) := ⟨Canon.readExact n⟩
instance {n : Nat} : Total v (Arr n) := ⟨NoPanic.readExact n⟩

@[simp] theorem enc_arr {n : Nat} (a : Arr n) : enc v a = a.1 := rfl

/-! ## Vectors -/

theorem Dec.Reads.decodeN {lim : Lim} {d : Dec α} {e : α → List UInt8} (l : List α)
    (h : ∀ a ∈ l, Reads lim d (e a) a) : Reads lim (Verif.decodeN d l.length) (l.flatMap e) l := by
  induction l with
  | nil => exact Reads.pure []
  | cons a l ih =>
    simp only [List.length_cons, Verif.decodeN, List.flatMap_cons]
    refine (h a (by simp)).bind ?_
    exact (ih fun b hb => h b (by simp [hb])).map fun _ => rfl

theorem Dec.Local.decodeN {d : Dec α} (h : Local d) (n : Nat) : Local (Verif.decodeN d n) := by
  induction n with
  | zero => exact Local.pure []
  | succ n ih => exact h.bind fun _ => ih.bind fun _ => Local.pure _

theorem Dec.PanicFree.decodeN {d : Dec α} (h : PanicFree d) (n : Nat) : PanicFree (Verif.decodeN d n) := by
  induction n with
  | zero => exact PanicFree.pure []
  | succ n ih => exact h.bind fun _ => ih.bind fun _ => PanicFree.pure _

theorem Dec.NoPanic.decodeN {d : Dec α} (h : NoPanic d) (n : Nat) : NoPanic (Verif.decodeN d n) := by
  induction n with
  | zero => exact NoPanic.pure []
  | succ n ih => exact h.bind fun _ => ih.bind fun _ => NoPanic.pure _

theorem decodeN_ok {d : Dec α} {e : α → List UInt8} (h : Canon d e) {n : Nat} {lim : Lim}
    {bs r : List UInt8} {l : List α} (hl : Verif.decodeN d n lim bs = .ok (l, r)) :
    l.length = n ∧ bs = l.flatMap e ++ r := by
  induction n generalizing bs l with
  | zero => simp [Verif.decodeN] at hl; simp [hl.1, hl.2]
  | succ n ih =>
    simp only [Verif.decodeN] at hl
    obtain ⟨a, r1, h1, h2⟩ := bind_eq_ok.mp hl
    obtain ⟨as, r2, h3, h4⟩ := bind_eq_ok.mp h2
    simp at h4
    obtain ⟨rfl, rfl⟩ := h4
    obtain ⟨hlen, hbs⟩ := ih h3
    refine ⟨by simp [hlen], ?_⟩
    rw [h _ _ _ _ h1, hbs]
    simp

theorem enc_list [Codec v α] (l : List α) :
    enc v l = leBytes 8 (l.length % 2 ^ 64) ++ l.flatMap (enc v) := by
  show enc v (BitVec.ofNat 64 l.length : U64) ++ _ = _
  rw [enc_u64]; simp

theorem dec_list [Codec v α] : (dec v : Dec (List α)) = ((dec v : Dec U64) >>= fun len =>
    Dec.reserve len.toNat >>= fun _ => Verif.decodeN (dec v) len.toNat) := rfl

theorem reads_reserve {lim : Lim} {n : Nat} (h : n ≤ lim.cap) : Reads lim (Dec.reserve n) [] () :=
  ⟨fun rest => by simp [Dec.reserve, h], fun p s h hs => by simp_all⟩

instance [Codec v α] [Fits α] [Lawful v α] : Lawful v (List α) where
  reads lim l h := by
    obtain ⟨h1, h2, h3⟩ := h
    rw [dec_list]
    have hlen : (BitVec.ofNat 64 l.length : U64).toNat = l.length := by
      simp only [BitVec.toNat_ofNat]
      exact Nat.mod_eq_of_lt h2
    show Reads lim _ (enc v (BitVec.ofNat 64 l.length : U64) ++ l.flatMap (enc v)) l
    refine (Lawful.reads lim (BitVec.ofNat 64 l.length : U64) trivial).bind ?_
    rw [hlen]
    refine Reads.of_unit_left (a := ()) (fun bs => by simp [Dec.reserve, h1]) ?_
    exact Reads.decodeN l fun a ha => Lawful.reads lim a (h3 a ha)
  loc := by
    rw [dec_list]
    exact Lawful.loc.bind fun _ => (Local.reserve _).bind fun _ => Local.decodeN Lawful.loc _

instance [Codec v α] [Canonical v α] : Canonical v (List α) where
  canon lim bs a r h := by
    rw [dec_list] at h
    obtain ⟨len, r1, h1, h2⟩ := bind_eq_ok.mp h
    obtain ⟨u, r2, h3, h4⟩ := bind_eq_ok.mp h2
    have h5 : r1 = r2 := by
      unfold Dec.reserve at h3
      split at h3
      · simp at h3; exact h3
      · simp at h3
    subst h5
    obtain ⟨hl, hb⟩ := decodeN_ok Canonical.canon h4
    rw [Canonical.canon _ _ _ _ h1, hb]
    show _ = (enc v (BitVec.ofNat 64 a.length : U64) ++ a.flatMap (enc v)) ++ r
    rw [hl]
    simp

instance [Codec v α] [Safe v α] : Safe v (List α) where
  safe := by
    rw [dec_list]
    refine (Total.toSafe.safe).bind fun len => ?_
    refine PanicFree.bind ?_ fun _ => PanicFree.decodeN Safe.safe _
    intro lim bs hl hs
    refine ⟨fun h => ?_, fun _ _ h => (Local.reserve _).length_le h⟩
    unfold Dec.reserve at h
    split at h
    · simp at h
    · have := len.isLt; omega

/-! ## Options -/

theorem dec_option [Codec v α] : (dec v : Dec (Option α)) = ((dec v : Dec Bool) >>= fun has =>
    if has then (dec v >>= fun a => pure (some a)) else pure none) := rfl

theorem enc_some [Codec v α] (a : α) : enc v (some a) = enc v true ++ enc v a := rfl
theorem enc_none [Codec v α] : enc v (none : Option α) = enc v false := rfl

instance [Codec v α] [Fits α] [Lawful v α] : Lawful v (Option α) where
  reads lim o h := by
    rw [dec_option]
    cases o with
    | none =>
      rw [enc_none]
      exact (Lawful.reads lim false trivial).map fun _ => rfl
    | some a =>
      rw [enc_some]
      refine (Lawful.reads lim true trivial).bind ?_
      simp only [if_true]
      exact (Lawful.reads lim a (h a rfl)).map fun _ => rfl
  loc := by
    rw [dec_option]
    refine Lawful.loc.bind fun b => ?_
    split
    · exact Lawful.loc.bind fun _ => Local.pure _
    · exact Local.pure _

instance [Codec v α] [Canonical v α] : Canonical v (Option α) where
  canon lim bs o r h := by
    rw [dec_option] at h
    obtain ⟨b, r1, h1, h2⟩ := bind_eq_ok.mp h
    rw [Canonical.canon _ _ _ _ h1]
    cases b with
    | false => simp at h2; rw [← h2.1, ← h2.2, enc_none]
    | true =>
      simp only [if_true] at h2
      obtain ⟨a, r2, h3, h4⟩ := bind_eq_ok.mp h2
      simp at h4
      rw [← h4.1, ← h4.2, enc_some, Canonical.canon _ _ _ _ h3, List.append_assoc]

instance [Codec v α] [Safe v α] : Safe v (Option α) where
  safe := by
    rw [dec_option]
    refine (Total.toSafe.safe).bind fun b => ?_
    split
    · exact Safe.safe.bind fun _ => PanicFree.pure _
    · exact PanicFree.pure _

instance [Codec v α] [Total v α] : Total v (Option α) where
  total := by
    rw [dec_option]
    refine (Total.total).bind fun b => ?_
    split
    · exact Total.total.bind fun _ => NoPanic.pure _
    · exact NoPanic.pure _

/-! ## Strings -/

theorem strOfBytes_strBytes (s : String) : strOfBytes (strBytes s) = some s := by
  have h : (⟨(strBytes s).toArray⟩ : ByteArray) = s.toByteArray := by
    simp [strBytes]
  unfold strOfBytes String.fromUTF8?
  rw [h, dif_pos s.isValidUTF8]
  rfl

theorem strBytes_of_strOfBytes {l : List UInt8} {s : String} (h : strOfBytes l = some s) :
    strBytes s = l := by
  unfold strOfBytes String.fromUTF8? at h
  split at h
  · simp only [Option.some.injEq] at h
    subst h
    simp [strBytes, String.fromUTF8]
  · simp at h

theorem strBytes_length (s : String) : (strBytes s).length = s.utf8ByteSize := by
  simp [strBytes]

theorem strBytes_injective {s t : String} (h : strBytes s = strBytes t) : s = t := by
  have := congrArg strOfBytes h
  simpa [strOfBytes_strBytes] using this

theorem dec_string : (dec v : Dec String) = ((dec v : Dec (List UInt8)) >>= fun buf =>
    match strOfBytes buf with
    | some s => pure s
    | none => Dec.fail .invalidLength) := rfl

theorem enc_string (s : String) : enc v s = enc v (strBytes s) := rfl

theorem fits_bytes {lim : Lim} {l : List UInt8} (h : l.length ≤ lim.cap) (h2 : l.length < 2 ^ 64) :
    fits lim l := ⟨h, h2, fun _ _ => trivial⟩

instance : Lawful v String where
  reads lim s h := by
    rw [dec_string, enc_string]
    refine (Lawful.reads lim (strBytes s) (fits_bytes ?_ ?_)).map fun bs => ?_
    · rw [strBytes_length]; exact h.1
    · rw [strBytes_length]; exact h.2
    · simp [strOfBytes_strBytes]
  loc := by
    rw [dec_string]
    refine Lawful.loc.bind fun b => ?_
    split
    · exact Local.pure _
    · exact Local.fail _

instance : Canonical v String where
  canon lim bs s r h := by
    rw [dec_string] at h
    obtain ⟨b, r1, h1, h2⟩ := bind_eq_ok.mp h
    rw [Canonical.canon _ _ _ _ h1]
    cases ht : strOfBytes b with
    | some t =>
      rw [ht] at h2
      simp at h2
      rw [← h2.1, ← h2.2, enc_string, strBytes_of_strOfBytes ht]
    | none =>
      rw [ht] at h2
      simp [Dec.fail] at h2

instance instSafeU8 : Safe v UInt8 := Total.toSafe
instance : Safe v Bool := Total.toSafe
instance : Safe v U16 := Total.toSafe
instance : Safe v U32 := Total.toSafe
instance : Safe v U64 := Total.toSafe
instance : Safe v Int16 := Total.toSafe
instance : Safe v Int32 := Total.toSafe
instance : Safe v Int64 := Total.toSafe
instance {n : Nat} : Safe v (Arr n) := Total.toSafe

instance : Safe v String where
  safe := by
    rw [dec_string]
    refine Safe.safe.bind fun b => ?_
    split
    · exact PanicFree.pure _
    · exact PanicFree.fail _

/-! ## Products and derived structs -/

theorem dec_prod [Codec v α] [Codec v β] : (dec v : Dec (α × β)) =
    (dec v >>= fun a => dec v >>= fun b => pure (a, b)) := rfl

theorem enc_prod [Codec v α] [Codec v β] (p : α × β) : enc v p = enc v p.1 ++ enc v p.2 := rfl

instance [Codec v α] [Codec v β] [Fits α] [Fits β] [Lawful v α] [Lawful v β] : Lawful v (α × β) where
  reads lim p h := by
    rw [dec_prod, enc_prod]
    exact (Lawful.reads lim p.1 h.1).bind ((Lawful.reads lim p.2 h.2).map fun _ => rfl)
  loc := by
    rw [dec_prod]
    exact Lawful.loc.bind fun _ => Lawful.loc.bind fun _ => Local.pure _

instance [Codec v α] [Codec v β] [Canonical v α] [Canonical v β] : Canonical v (α × β) where
  canon lim bs p r h := by
    rw [dec_prod] at h
    obtain ⟨a, r1, h1, h2⟩ := bind_eq_ok.mp h
    obtain ⟨b, r2, h3, h4⟩ := bind_eq_ok.mp h2
    simp at h4
    rw [Canonical.canon _ _ _ _ h1, Canonical.canon _ _ _ _ h3, ← h4.1, ← h4.2, enc_prod,
      List.append_assoc]

instance [Codec v α] [Codec v β] [Safe v α] [Safe v β] : Safe v (α × β) where
  safe := by
    rw [dec_prod]
    exact Safe.safe.bind fun _ => Safe.safe.bind fun _ => PanicFree.pure _

instance [Codec v α] [Codec v β] [Total v α] [Total v β] : Total v (α × β) where
  total := by
    rw [dec_prod]
    exact Total.total.bind fun _ => Total.total.bind fun _ => NoPanic.pure _

section struct

variable [Struct α β] [Codec v β]

theorem enc_struct (a : α) : enc v a = enc v (Struct.fields a) := rfl

theorem dec_struct : (dec v : Dec α) = (dec v >>= fun b : β => pure (Struct.build b)) := rfl

instance (priority := low) [Fits β] [Lawful v β] : Lawful v α where
  reads lim a h := by
    rw [enc_struct, dec_struct]
    exact (Lawful.reads lim (Struct.fields a) h).map fun _ => by rw [Struct.build_fields]; rfl
  loc := by
    rw [dec_struct]
    exact Lawful.loc.bind fun _ => Local.pure _

instance (priority := low) [Canonical v β] : Canonical v α where
  canon lim bs a r h := by
    rw [dec_struct] at h
    obtain ⟨b, r1, h1, h2⟩ := bind_eq_ok.mp h
    simp at h2
    rw [Canonical.canon _ _ _ _ h1, ← h2.1, ← h2.2, enc_struct, Struct.fields_build]

instance (priority := low) [Safe v β] : Safe v α where
  safe := by
    rw [dec_struct]
    exact Safe.safe.bind fun _ => PanicFree.pure _

instance (priority := low) [Total v β] : Total v α where
  total := by
    rw [dec_struct]
    exact Total.total.bind fun _ => NoPanic.pure _

end struct

/-! ## Time -/

theorem ofInt64_toInt {t : Int} (h1 : -(2 ^ 63) ≤ t) (h2 : t < 2 ^ 63) :
    (BitVec.ofInt 64 t).toInt = t := by
  rw [BitVec.toInt_ofInt]
  apply Int.bmod_eq_of_le <;> omega

instance : Lawful v DateTime where
  reads lim t h := by
    obtain ⟨secs, nanos⟩ := t
    obtain ⟨h0, h1, h2⟩ := h
    simp only at h0 h1 h2
    subst h0
    refine (Reads.numDecode (n := 64) (BitVec.ofInt 64 secs)).map fun bs => ?_
    rw [BitVec.setWidth_eq, ofInt64_toInt (by omega) (by omega)]
    simp [DateTime.fromUnix, DateTime.minSecs, DateTime.maxSecs, h1, h2]
  loc := by
    refine (Local.numDecode 64).bind fun b => ?_
    split
    · exact Local.pure _
    · exact Local.crash

instance : Canonical v DateTime where
  canon lim bs t r h := by
    obtain ⟨x, r', h1, h2⟩ := bind_eq_ok.mp h
    rw [numDecode64_canon h1]
    cases ht : DateTime.fromUnix x.toInt with
    | some t' =>
      rw [ht] at h2
      simp at h2
      rw [← h2.1, ← h2.2]
      unfold DateTime.fromUnix at ht
      split at ht
      · simp only [Option.some.injEq] at ht
        rw [← ht]
        simp [enc, Codec.encode]
      · simp at ht
    | none =>
      rw [ht] at h2
      simp [Dec.crash] at h2

theorem dec_duration : (dec v : Dec Duration) = (numDecode 64 >>= fun b =>
    if b.toNat > 2 ^ 63 - 1 then Dec.fail .invalidValue else pure ⟨(b.toNat : Int)⟩) := rfl

theorem ofInt64_toNat {t : Int} (h1 : 0 ≤ t) (h2 : t < 2 ^ 63) :
    (BitVec.ofInt 64 t).toNat = t.toNat := by
  rw [BitVec.toNat_ofInt]
  omega

instance : Lawful v Duration where
  reads lim d h := by
    obtain ⟨ns⟩ := d
    obtain ⟨h1, h2⟩ := h
    simp only at h1 h2
    rw [dec_duration]
    refine (Reads.numDecode (n := 64) (BitVec.ofInt 64 ns)).map fun bs => ?_
    rw [BitVec.setWidth_eq, ofInt64_toNat h1 h2, if_neg (by omega), Dec.pure_apply]
    congr
    omega
  loc := by
    rw [dec_duration]
    refine (Local.numDecode 64).bind fun b => ?_
    split
    · exact Local.fail _
    · exact Local.pure _

instance : Canonical v Duration where
  canon lim bs d r h := by
    rw [dec_duration] at h
    obtain ⟨x, r', h1, h2⟩ := bind_eq_ok.mp h
    rw [numDecode64_canon h1]
    split at h2
    · simp [Dec.fail] at h2
    · simp at h2
      rw [← h2.1, ← h2.2]
      show _ = leBytes 8 (BitVec.ofInt 64 (x.toNat : Int)).toNat ++ _
      rw [ofInt64_toNat (by omega) (by omega)]
      simp

instance : Total v Duration where
  total := by
    rw [dec_duration]
    refine (NoPanic.numDecode 64).bind fun b => ?_
    split
    · exact NoPanic.fail _
    · exact NoPanic.pure _

instance : Safe v Duration := Total.toSafe

/-! ## Currency -/

theorem dropWhile_replicate_append (l : List UInt8) :
    List.replicate (l.length - (stripZeros l).length) 0 ++ stripZeros l = l := by
  unfold stripZeros
  induction l with
  | nil => rfl
  | cons b l ih =>
    rw [List.dropWhile_cons]
    split
    · rename_i hb
      simp only [beq_iff_eq] at hb
      subst hb
      have h1 : (l.dropWhile (· == 0)).length ≤ l.length := by
        have := List.dropWhile_sublist (l := l) (· == (0 : UInt8))
        exact this.length_le
      rw [List.length_cons, Nat.succ_sub h1, List.replicate_succ, List.cons_append, ih]
    · simp

theorem stripZeros_length_le (l : List UInt8) : (stripZeros l).length ≤ l.length :=
  (List.dropWhile_sublist (· == (0 : UInt8))).length_le

theorem dec_currency_v1 : (dec .v1 : Dec Currency) = ((dec .v1 : Dec U64) >>= fun len =>
    if len.toNat > 16 then Dec.fail .invalidLength
    else readExact len.toNat >>= fun buf =>
      pure ⟨BitVec.ofNat 128 (beVal (List.replicate (16 - len.toNat) 0 ++ buf.1))⟩) := rfl

theorem enc_currency_v1 (c : Currency) :
    enc .v1 c = enc .v1 (stripZeros (beBytes 16 c.val.toNat)) := rfl

theorem enc_bytes (l : List UInt8) : enc v l = leBytes 8 (l.length % 2 ^ 64) ++ l := by
  rw [enc_list]
  congr 1
  have : (enc v : UInt8 → List UInt8) = fun b => [b] := rfl
  rw [this]
  simp

theorem dec_currency_v2 : (dec .v2 : Dec Currency) = (readExact 16 >>= fun buf =>
      pure ⟨BitVec.ofNat 128 (leVal buf.1)⟩) := rfl

theorem enc_currency_v2 (c : Currency) : enc .v2 c = leBytes 16 c.val.toNat := rfl

theorem currency_mk {n : Nat} {c : Currency} (h : n = c.val.toNat) : (⟨BitVec.ofNat 128 n⟩ : Currency) = c := by
  obtain ⟨x⟩ := c
  subst h
  simp

instance : Lawful v Currency where
  reads lim c _ := by
    cases v with
    | v1 =>
      rw [dec_currency_v1, enc_currency_v1, enc_bytes]
      generalize hs : stripZeros (beBytes 16 c.val.toNat) = s
      have hlen : s.length ≤ 16 := by
        rw [← hs]
        have := stripZeros_length_le (beBytes 16 c.val.toNat)
        simpa using this
      have hmod : s.length % 2 ^ 64 = s.length := Nat.mod_eq_of_lt (by omega)
      rw [hmod]
      have hnat : (BitVec.ofNat 64 s.length : U64).toNat = s.length := by simp; omega
      have hr := Lawful.reads (v := .v1) lim (BitVec.ofNat 64 s.length : U64) trivial
      rw [enc_u64, hnat] at hr
      refine hr.bind ?_
      rw [if_neg (by omega)]
      have hre := Reads.readExact (lim := lim) (n := (BitVec.ofNat 64 s.length : U64).toNat) ⟨s, hnat.symm⟩
      refine hre.map fun bs => ?_
      have hz := dropWhile_replicate_append (beBytes 16 c.val.toNat)
      rw [hs, beBytes_length] at hz
      rw [Dec.pure_apply, currency_mk]
      simp only [hnat]
      rw [hz, beVal_beBytes_of_lt (by have := c.val.isLt; omega)]
    | v2 =>
      rw [dec_currency_v2, enc_currency_v2]
      have hre := Reads.readExact (lim := lim) (n := 16) ⟨leBytes 16 c.val.toNat, leBytes_length _ _⟩
      refine hre.map fun bs => ?_
      rw [Dec.pure_apply, currency_mk]
      rw [leVal_leBytes_of_lt (by have := c.val.isLt; omega)]
  loc := by
    cases v with
    | v1 =>
      rw [dec_currency_v1]
      refine Lawful.loc.bind fun len => ?_
      split
      · exact Local.fail _
      · exact (Local.readExact _).bind fun _ => Local.pure _
    | v2 => exact (Local.readExact _).bind fun _ => Local.pure _

instance : Total v Currency where
  total := by
    cases v with
    | v1 =>
      rw [dec_currency_v1]
      refine Total.total.bind fun len => ?_
      split
      · exact NoPanic.fail _
      · exact (NoPanic.readExact _).bind fun _ => NoPanic.pure _
    | v2 => exact (NoPanic.readExact _).bind fun _ => NoPanic.pure _

instance : Safe v Currency := Total.toSafe

instance : Canonical .v2 Currency where
  canon lim bs c r h := by
    rw [dec_currency_v2] at h
    obtain ⟨b, r1, h1, h2⟩ := bind_eq_ok.mp h
    simp at h2
    rw [Canon.readExact _ _ _ _ _ h1, ← h2.1, ← h2.2, enc_currency_v2]
    have hlt := leVal_lt b.1
    have h3 := leBytes_leVal b.1
    rw [b.2] at hlt h3
    have : (BitVec.ofNat 128 (leVal b.1)).toNat = leVal b.1 := by simp; omega
    rw [this, h3]

/-! ## Work -/

theorem enc_work (w : Work) : enc v w = beBytes 32 w.val.toNat := rfl

theorem Dec.Reads.mapErr {lim : Lim} {d : Dec α} {e : List UInt8} {a : α} (h : Reads lim d e a) (x : Err) :
    Reads lim (d.mapErr x) e a where
  rt rest := by simp [Dec.mapErr, h.rt]
  trunc p s hp hs := by
    obtain ⟨y, hy⟩ := h.trunc p s hp hs
    exact ⟨x, by simp [Dec.mapErr, hy]⟩

theorem Dec.Canon.mapErr {d : Dec α} {e : α → List UInt8} (h : Canon d e) (x : Err) : Canon (d.mapErr x) e := by
  intro lim bs a r ha
  unfold Dec.mapErr at ha
  split at ha
  · rename_i y hy
    rw [ha] at hy
    exact h _ _ _ _ hy
  · simp at ha
  · simp at ha

/-- The two error conventions of the work decoder. -/
def workRead (v : Ver) : Dec (Arr 32) := match v with
  | .v1 => readExact 32
  | .v2 => (readExact 32).mapErr .custom

theorem dec_work : (dec v : Dec Work) = (workRead v >>= fun b => pure ⟨BitVec.ofNat 256 (beVal b.1)⟩) := by
  cases v <;> rfl

theorem work_mk {n : Nat} {w : Work} (h : n = w.val.toNat) : (⟨BitVec.ofNat 256 n⟩ : Work) = w := by
  obtain ⟨x⟩ := w
  subst h
  simp

instance : Lawful v Work where
  reads lim w _ := by
    rw [dec_work, enc_work]
    have hre := Reads.readExact (lim := lim) (n := 32) ⟨beBytes 32 w.val.toNat, beBytes_length _ _⟩
    have hre' : Reads lim (workRead v) (beBytes 32 w.val.toNat)
        ⟨beBytes 32 w.val.toNat, beBytes_length _ _⟩ := by
      cases v with
      | v1 => exact hre
      | v2 => exact hre.mapErr _
    refine hre'.map fun bs => ?_
    rw [Dec.pure_apply, work_mk]
    rw [beVal_beBytes_of_lt (by have := w.val.isLt; omega)]
  loc := by
    rw [dec_work]
    refine Local.bind ?_ fun _ => Local.pure _
    cases v with
    | v1 => exact Local.readExact _
    | v2 => exact (Local.readExact _).mapErr _

instance : Canonical v Work where
  canon lim bs w r h := by
    rw [dec_work] at h
    obtain ⟨b, r1, h1, h2⟩ := bind_eq_ok.mp h
    simp at h2
    have hc : Canon (workRead v) (fun a => a.1) := by
      cases v with
      | v1 => exact Canon.readExact _
      | v2 => exact (Canon.readExact _).mapErr _
    rw [hc _ _ _ _ h1, ← h2.1, ← h2.2, enc_work]
    have hlt := beVal_lt b.1
    have h3 := beBytes_beVal b.1
    rw [b.2] at hlt h3
    have : (BitVec.ofNat 256 (beVal b.1)).toNat = beVal b.1 := by simp; omega
    rw [this, h3]

instance : Total v Work where
  total := by
    rw [dec_work]
    refine NoPanic.bind ?_ fun _ => NoPanic.pure _
    cases v with
    | v1 => exact NoPanic.readExact _
    | v2 => exact (NoPanic.readExact _).mapErr _

instance : Safe v Work := Total.toSafe

end Verif
