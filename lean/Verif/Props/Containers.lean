import Verif.Props.Samples
import Verif.Lemmas.Spec
import Verif.Lemmas.Panic

/-!
# C73: the containers keep the guarantees of what they contain

`Vec<T>`, `Option<T>` and derived structs take an arbitrary `T: V1SiaEncodable + V1SiaDecodable` or
`T: SiaEncodable + SiaDecodable`, also one written by a user of the crate
(sia/src/encoding/v1.rs 44-75, 100-125; v2.rs 90-121, 146-171; sia_derive/src/lib.rs 5-190).  Nothing is assumed
here about such a type but what its theorem names; in particular it need not be a type of the crate.
-/

namespace Verif

open Dec

variable {v : Ver} {α β : Type}

/-! ## From the specification of a type back to the codec laws -/

theorem lawful_of_spec [Codec v α] [Fits α] (h1 : RoundTrips v α) (h2 : TruncationFails v α)
    (h3 : DecodesLocally v α) : Lawful v α where
  reads lim a h := ⟨fun rest => h1 lim a rest h, fun p s e hs => h2 lim a p s h e.symm hs⟩
  loc lim bs a r h := h3 lim bs r a h

theorem canonical_of_spec [Codec v α] (h : DecodesCanonically v α) : Canonical v α where
  canon lim bs a r := h lim bs r a

theorem safe_of_spec [Codec v α] (h1 : NeverPanics v α) (h2 : DecodesLocally v α) : Safe v α where
  safe lim bs hc hs := by
    refine ⟨h1 lim bs hc hs, fun a r h => ?_⟩
    obtain ⟨used, rfl, _⟩ := h2 lim bs r a h
    simp

/-! ## Framing -/

/-- C73: a vector, an option and a pair of consecutive fields round trip, fail on every proper prefix and read only
what they consume when their elements do. -/
theorem C73_containers_frame (v : Ver) (α β : Type) [Codec v α] [Fits α] [Codec v β] [Fits β]
    (ha : RoundTrips v α ∧ TruncationFails v α ∧ DecodesLocally v α)
    (hb : RoundTrips v β ∧ TruncationFails v β ∧ DecodesLocally v β) :
    (RoundTrips v (List α) ∧ TruncationFails v (List α) ∧ DecodesLocally v (List α)) ∧
    (RoundTrips v (Option α) ∧ TruncationFails v (Option α) ∧ DecodesLocally v (Option α)) ∧
    (RoundTrips v (α × β) ∧ TruncationFails v (α × β) ∧ DecodesLocally v (α × β)) := by
  haveI := lawful_of_spec ha.1 ha.2.1 ha.2.2
  haveI := lawful_of_spec hb.1 hb.2.1 hb.2.2
  exact ⟨⟨roundTrips, truncationFails, decodesLocally⟩, ⟨roundTrips, truncationFails, decodesLocally⟩,
    ⟨roundTrips, truncationFails, decodesLocally⟩⟩

/-- C73: the same for a struct that derives its codec from its fields. -/
theorem C73_derived_frame (v : Ver) (α β : Type) [Struct α β] [Codec v β] [Fits β]
    (hb : RoundTrips v β ∧ TruncationFails v β ∧ DecodesLocally v β) :
    (∀ (lim : Lim) (a : α) (rest : List UInt8), fits lim (Struct.fields a) →
      (dec v : Dec α) lim (enc v a ++ rest) = .ok (a, rest)) ∧
    (∀ (lim : Lim) (a : α) (p s : List UInt8), fits lim (Struct.fields a) → enc v a = p ++ s → s ≠ [] →
      ∃ e, (dec v : Dec α) lim p = .err e) ∧
    DecodesLocally v α := by
  haveI := lawful_of_spec hb.1 hb.2.1 hb.2.2
  letI : Fits α := ⟨fun lim a => fits lim (Struct.fields a)⟩
  haveI : Lawful v α := {
    reads := fun lim a h => (Lawful.reads (v := v) lim (Struct.fields a) h).map
      (fun _ => by show Res.ok _ = _; rw [Struct.build_fields])
    loc := Lawful.loc.bind fun _ => Local.pure _ }
  exact ⟨roundTrips, truncationFails, decodesLocally⟩

/-- C73: two vectors, options or pairs whose streams agree are equal and end at the same place. -/
theorem C73_containers_self_delimiting (v : Ver) (α β : Type) [Codec v α] [Fits α] [Codec v β] [Fits β]
    (ha : RoundTrips v α ∧ TruncationFails v α ∧ DecodesLocally v α)
    (hb : RoundTrips v β ∧ TruncationFails v β ∧ DecodesLocally v β) :
    SelfDelimiting v (List α) ∧ SelfDelimiting v (Option α) ∧ SelfDelimiting v (α × β) := by
  haveI := lawful_of_spec ha.1 ha.2.1 ha.2.2
  haveI := lawful_of_spec hb.1 hb.2.1 hb.2.2
  exact ⟨selfDelimiting, selfDelimiting, selfDelimiting⟩

/-! ## Canonical encodings -/

/-- C73: when elements have one encoding, so have vectors, options and pairs. -/
theorem C73_containers_canonical (v : Ver) (α β : Type) [Codec v α] [Codec v β]
    (ha : DecodesCanonically v α) (hb : DecodesCanonically v β) :
    DecodesCanonically v (List α) ∧ DecodesCanonically v (Option α) ∧ DecodesCanonically v (α × β) := by
  haveI := canonical_of_spec ha
  haveI := canonical_of_spec hb
  exact ⟨decodesCanonically, decodesCanonically, decodesCanonically⟩

theorem decodeN_stable [Codec v α] (h : ReencodesStably v α) {lim : Lim} {n : Nat} {bs r : List UInt8} {l : List α}
    (hl : decodeN (dec v : Dec α) n lim bs = .ok (l, r)) (other : List UInt8) :
    l.length = n ∧ decodeN (dec v : Dec α) n lim (l.flatMap (enc v) ++ other) = .ok (l, other) := by
  induction n generalizing bs l with
  | zero => simp [decodeN] at hl; obtain ⟨rfl, rfl⟩ := hl; simp [decodeN]
  | succ n ih =>
    obtain ⟨a, r1, h1, h2⟩ := bind_eq_ok.mp hl
    obtain ⟨as, r2, h3, h4⟩ := bind_eq_ok.mp h2
    simp at h4
    obtain ⟨rfl, rfl⟩ := h4
    obtain ⟨hlen, hdec⟩ := ih h3
    refine ⟨by simp [hlen], ?_⟩
    refine bind_eq_ok.mpr ⟨a, as.flatMap (enc v) ++ other, ?_, ?_⟩
    · rw [List.flatMap_cons, List.append_assoc]; exact h _ _ _ _ _ h1
    · exact bind_eq_ok.mpr ⟨as, other, hdec, rfl⟩

/-- C73: when encoding again what was accepted is stable for the elements, it is for vectors, options and pairs. -/
theorem C73_containers_stable (v : Ver) (α β : Type) [Codec v α] [Codec v β]
    (ha : ReencodesStably v α) (hb : ReencodesStably v β) :
    ReencodesStably v (List α) ∧ ReencodesStably v (Option α) ∧ ReencodesStably v (α × β) := by
  refine ⟨fun lim bs rest other l h => ?_, fun lim bs rest other o h => ?_, fun lim bs rest other p h => ?_⟩
  · rw [dec_list] at h ⊢
    obtain ⟨n, r1, _, h2⟩ := bind_eq_ok.mp h
    obtain ⟨u, r2, h3, h4⟩ := bind_eq_ok.mp h2
    obtain ⟨hc, rfl⟩ := reserve_eq_ok h3
    obtain ⟨hlen, hdec⟩ := decodeN_stable ha h4 other
    have hn : (BitVec.ofNat 64 l.length : U64) = n := by rw [hlen]; simp
    refine bind_eq_ok.mpr ⟨n, l.flatMap (enc v) ++ other, ?_, ?_⟩
    · show (dec v : Dec U64) lim ((enc v (BitVec.ofNat 64 l.length : U64) ++ _) ++ other) = _
      rw [hn, List.append_assoc]
      exact roundTrips (v := v) lim n _ trivial
    · refine bind_eq_ok.mpr ⟨(), _, ?_, hdec⟩
      simp [Dec.reserve, hc]
  · rw [dec_option] at h ⊢
    obtain ⟨b, r1, _, h2⟩ := bind_eq_ok.mp h
    cases b with
    | false =>
      simp at h2
      rw [← h2.1, enc_none]
      exact bind_eq_ok.mpr ⟨false, other, roundTrips (v := v) lim false _ trivial, rfl⟩
    | true =>
      simp only [if_true] at h2
      obtain ⟨a, r2, h3, h4⟩ := bind_eq_ok.mp h2
      simp at h4
      rw [← h4.1, enc_some, List.append_assoc]
      refine bind_eq_ok.mpr ⟨true, enc v a ++ other, roundTrips (v := v) lim true _ trivial, ?_⟩
      simp only [if_true]
      exact bind_eq_ok.mpr ⟨a, other, ha _ _ _ _ _ h3, rfl⟩
  · obtain ⟨a, r1, h1, h2⟩ := bind_eq_ok.mp h
    obtain ⟨b, r2, h3, h4⟩ := bind_eq_ok.mp h2
    simp at h4
    obtain ⟨rfl, rfl⟩ := h4
    refine bind_eq_ok.mpr ⟨a, enc v b ++ other, ?_, bind_eq_ok.mpr ⟨b, other, hb _ _ _ _ _ h3, rfl⟩⟩
    show (dec v : Dec α) lim ((enc v a ++ enc v b) ++ other) = _
    rw [List.append_assoc]; exact ha _ _ _ _ _ h1

/-! ## Panics -/

/-- C73: a decoder that never panics and reads only what it consumes gives vectors, options and pairs that never
panic, where allocation does not fail. -/
theorem C73_containers_never_panic (v : Ver) (α β : Type) [Codec v α] [Codec v β]
    (ha : NeverPanics v α ∧ DecodesLocally v α) (hb : NeverPanics v β ∧ DecodesLocally v β) :
    NeverPanics v (List α) ∧ NeverPanics v (Option α) ∧ NeverPanics v (α × β) := by
  haveI := safe_of_spec ha.1 ha.2
  haveI := safe_of_spec hb.1 hb.2
  exact ⟨neverPanics, neverPanics, neverPanics⟩

/-! ## Distinct values, distinct streams; lengths -/

/-- C73: what a vector, an option or a pair writes, in terms of what the elements write: nothing between, before or
after the elements but the count and the flag. -/
theorem C73_containers_bytes (v : Ver) (α β : Type) [Codec v α] [Codec v β] (l : List α) (a : α) (b : β)
    (h : l.length < 2 ^ 64) :
    u64At (enc v l) 0 = l.length ∧ (enc v l).drop 8 = (l.map (enc v)).flatten ∧
    enc v (some a) = 1 :: enc v a ∧ enc v (none : Option α) = [0] ∧ enc v (a, b) = enc v a ++ enc v b := by
  refine ⟨?_, ?_, rfl, rfl, rfl⟩
  · rw [enc_list, Nat.mod_eq_of_lt h]
    rw [u64At_zero _ (by simp), List.take_append_of_le_length (by simp), List.take_of_length_le (by simp)]
    exact leVal_leBytes_of_lt (by omega)
  · rw [enc_list, Nat.mod_eq_of_lt h, List.drop_append_of_le_length (by simp), List.drop_of_length_le (by simp)]
    simp [List.flatMap]

/-! ## A type of a user -/

/-- A fixed-width big-endian port number, as a user of the crate might define it. -/
structure Port where
  hi : UInt8
  lo : UInt8
deriving DecidableEq

instance : Codec v Port where
  encode p := [p.hi, p.lo]
  decode := do
    let a ← (dec v : Dec UInt8)
    let b ← (dec v : Dec UInt8)
    pure ⟨a, b⟩

instance : Fits Port := ⟨fun _ _ => True⟩

theorem port_spec : RoundTrips v Port ∧ TruncationFails v Port ∧ DecodesLocally v Port ∧ DecodesCanonically v Port ∧
    ReencodesStably v Port ∧ NeverPanics v Port := by
  haveI : Lawful v Port := {
    reads := fun lim p _ => by
      show Reads lim _ (enc v p.hi ++ enc v p.lo) p
      exact (Lawful.reads lim p.hi trivial).bind ((Lawful.reads lim p.lo trivial).map fun _ => rfl)
    loc := Lawful.loc.bind fun _ => Lawful.loc.bind fun _ => Local.pure _ }
  have hc : DecodesCanonically v Port := by
    intro lim bs rest p h
    obtain ⟨a, r1, h1, h2⟩ := bind_eq_ok.mp h
    obtain ⟨b, r2, h3, h4⟩ := bind_eq_ok.mp h2
    simp at h4
    obtain ⟨rfl, rfl⟩ := h4
    rw [decodesCanonically (v := v) _ _ _ _ h1, decodesCanonically (v := v) _ _ _ _ h3]
    rfl
  haveI : Safe v Port := ⟨Safe.safe.bind fun _ => Safe.safe.bind fun _ => PanicFree.pure _⟩
  exact ⟨roundTrips, truncationFails, decodesLocally, hc, fun lim _ _ other p _ => roundTrips lim p other trivial,
    neverPanics⟩

example : (dec .v2 : Dec (List (Option Port × U64))) Sample.lim
    (enc .v2 [(some (⟨1, 187⟩ : Port), (7 : U64)), (none, 8)] ++ [9]) = .ok ([(some ⟨1, 187⟩, 7), (none, 8)], [9]) := by
  have ho := (C73_containers_frame .v2 Port Port ⟨port_spec.1, port_spec.2.1, port_spec.2.2.1⟩
    ⟨port_spec.1, port_spec.2.1, port_spec.2.2.1⟩).2.1
  have hp := (C73_containers_frame .v2 (Option Port) U64 ho ⟨roundTrips, truncationFails, decodesLocally⟩).2.2
  refine (C73_containers_frame .v2 _ _ hp hp).1.1 _ _ _ ⟨by decide, by decide, ?_⟩
  intro x _
  exact ⟨fun _ _ => trivial, trivial⟩

example : DecodesCanonically v (List (Option Port)) :=
  (C73_containers_canonical v _ _ (C73_containers_canonical v _ _ port_spec.2.2.2.1 port_spec.2.2.2.1).2.1
    port_spec.2.2.2.1).1

example : NeverPanics v (List Port) :=
  (C73_containers_never_panic v _ _ ⟨port_spec.2.2.2.2.2, port_spec.2.2.1⟩
    ⟨port_spec.2.2.2.2.2, port_spec.2.2.1⟩).1

/-! ## What the hypotheses are for -/

/-- A type whose encoding does not say where it ends: its decoder takes everything that is left. -/
structure Tail where
  bytes : List UInt8

instance : Codec v Tail where
  encode a := a.bytes
  decode := fun _ bs => .ok (⟨bs⟩, [])

instance : Fits Tail := ⟨fun _ _ => True⟩

/-- C73: without the hypotheses the containers do not work: a type that reads back what it wrote at the end of a
stream, but does not mark its end, gives a vector that does not. -/
theorem C73_needs_framing (v : Ver) :
    (∀ (lim : Lim) (a : Tail), (dec v : Dec Tail) lim (enc v a) = .ok (a, [])) ∧
    ∃ (lim : Lim) (l : List Tail), fits lim l ∧ (dec v : Dec (List Tail)) lim (enc v l) ≠ .ok (l, []) := by
  refine ⟨fun _ _ => rfl, ⟨2, 1⟩, [⟨[1]⟩, ⟨[2]⟩], ⟨by decide, by decide, fun _ _ => trivial⟩, ?_⟩
  intro h
  rw [dec_list] at h
  obtain ⟨n, r1, h1, h2⟩ := bind_eq_ok.mp h
  have e : enc v ([⟨[1]⟩, ⟨[2]⟩] : List Tail) = enc v (2 : U64) ++ [1, 2] := rfl
  rw [e, roundTrips (v := v) (α := U64) _ 2 [1, 2] trivial] at h1
  simp at h1
  obtain ⟨rfl, rfl⟩ := h1
  have e2 : (Dec.reserve (2 : U64).toNat >>= fun _ => decodeN (dec v : Dec Tail) (2 : U64).toNat) ⟨2, 1⟩ [1, 2] =
      .ok ([⟨[1, 2]⟩, ⟨[]⟩], []) := rfl
  have h3 := e2.symm.trans h2
  simp at h3

/-! ## The integers and arrays of both versions -/

/-- C73: every integer width and every array length, in both versions. -/
theorem C73_leaves_frame (v : Ver) (n : Nat) :
    (RoundTrips v U16 ∧ TruncationFails v U16 ∧ DecodesLocally v U16) ∧
    (RoundTrips v U32 ∧ TruncationFails v U32 ∧ DecodesLocally v U32) ∧
    (RoundTrips v U64 ∧ TruncationFails v U64 ∧ DecodesLocally v U64) ∧
    (RoundTrips v Int16 ∧ TruncationFails v Int16 ∧ DecodesLocally v Int16) ∧
    (RoundTrips v Int32 ∧ TruncationFails v Int32 ∧ DecodesLocally v Int32) ∧
    (RoundTrips v Int64 ∧ TruncationFails v Int64 ∧ DecodesLocally v Int64) ∧
    (RoundTrips v (Arr n) ∧ TruncationFails v (Arr n) ∧ DecodesLocally v (Arr n)) ∧
    (RoundTrips v String ∧ TruncationFails v String ∧ DecodesLocally v String) ∧
    (RoundTrips v Duration ∧ TruncationFails v Duration ∧ DecodesLocally v Duration) :=
  ⟨⟨roundTrips, truncationFails, decodesLocally⟩, ⟨roundTrips, truncationFails, decodesLocally⟩,
    ⟨roundTrips, truncationFails, decodesLocally⟩, ⟨roundTrips, truncationFails, decodesLocally⟩,
    ⟨roundTrips, truncationFails, decodesLocally⟩, ⟨roundTrips, truncationFails, decodesLocally⟩,
    ⟨roundTrips, truncationFails, decodesLocally⟩, ⟨roundTrips, truncationFails, decodesLocally⟩,
    ⟨roundTrips, truncationFails, decodesLocally⟩⟩

/-- C73: 64-bit integers and arrays have one encoding. -/
theorem C73_leaves_canonical (v : Ver) (n : Nat) : DecodesCanonically v U64 ∧ DecodesCanonically v Int64 ∧
    DecodesCanonically v (Arr n) ∧ DecodesCanonically v UInt8 ∧ DecodesCanonically v Bool :=
  ⟨decodesCanonically, decodesCanonically, decodesCanonically, decodesCanonically, decodesCanonically⟩

/-- C73: narrower integers do not: the eight bytes are cut to the width without a check, so integers that differ by
a multiple of two to the width are read as the same number. -/
theorem C73_narrow_truncate (v : Ver) (lim : Lim) (n : U64) (rest : List UInt8) :
    (dec v : Dec U16) lim (enc v n ++ rest) = .ok (BitVec.ofNat 16 n.toNat, rest) ∧
    (dec v : Dec U32) lim (enc v n ++ rest) = .ok (BitVec.ofNat 32 n.toNat, rest) ∧
    (dec v : Dec Int16) lim (enc v n ++ rest) = .ok (Int16.ofBitVec (BitVec.ofNat 16 n.toNat), rest) ∧
    (dec v : Dec Int32) lim (enc v n ++ rest) = .ok (Int32.ofBitVec (BitVec.ofNat 32 n.toNat), rest) := by
  have key : ∀ w, numDecode w lim (enc v n ++ rest) = .ok (BitVec.ofNat w n.toNat, rest) := by
    intro w
    have h : numDecode 64 lim (enc v n ++ rest) = .ok (n, rest) := roundTrips (v := v) (α := U64) lim n rest trivial
    obtain ⟨b, r1, h1, h2⟩ := bind_eq_ok.mp h
    simp at h2
    obtain ⟨h2, rfl⟩ := h2
    refine bind_eq_ok.mpr ⟨b, r1, h1, ?_⟩
    rw [← h2]
    simp
    apply BitVec.eq_of_toNat_eq
    simp
  exact ⟨key 16, key 32, bind_eq_ok.mpr ⟨_, _, key 16, rfl⟩, bind_eq_ok.mpr ⟨_, _, key 32, rfl⟩⟩

/-- C73: so no narrow integer type has one encoding only. -/
theorem C73_narrow_not_canonical (v : Ver) : ¬ DecodesCanonically v U16 ∧ ¬ DecodesCanonically v U32 ∧
    ¬ DecodesCanonically v Int16 ∧ ¬ DecodesCanonically v Int32 := by
  have h := C73_narrow_truncate v ⟨0, 0⟩ (2 ^ 32 : U64) []
  refine ⟨fun c => ?_, fun c => ?_, fun c => ?_, fun c => ?_⟩
  · exact absurd (c _ _ _ _ h.1) (by cases v <;> decide)
  · exact absurd (c _ _ _ _ h.2.1) (by cases v <;> decide)
  · exact absurd (c _ _ _ _ h.2.2.1) (by cases v <;> decide)
  · exact absurd (c _ _ _ _ h.2.2.2) (by cases v <;> decide)

end Verif
