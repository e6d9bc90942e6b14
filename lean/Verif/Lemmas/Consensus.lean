import Verif.Lemmas.Closed

/-!
# Laws of the chain state codec
-/

namespace Verif

open Dec

variable {v : Ver} {α : Type}

theorem hasTreeAtHeight_eq (n : U64) (i : Nat) : hasTreeAtHeight n i = n.toNat.testBit i := by
  unfold hasTreeAtHeight
  rw [Bool.eq_iff_iff]
  simp only [decide_eq_true_eq]
  have h1 : n &&& (1 : U64) <<< i = if n.getLsbD i then (1 : U64) <<< i else 0 := by
    apply BitVec.eq_of_getLsbD_eq
    intro j hj
    by_cases hij : i = j
    · subst hij
      cases h : n.getLsbD i <;> simp [h]
    · have : ((1 : U64) <<< i).getLsbD j = false := by
        simp only [BitVec.getLsbD_shiftLeft]
        by_cases hlt : j < i
        · simp [hlt]
        · have : j - i ≠ 0 := by omega
          simp [this]
      simp only [BitVec.getLsbD_and, this, Bool.and_false]
      split
      · exact this.symm
      · simp
  rw [h1]
  by_cases hi : i < 64
  · have h0 : (1 : U64) <<< i ≠ 0 := by
      intro h
      have := congrArg (BitVec.getLsbD · i) h
      simp [hi] at this
    cases h : n.getLsbD i with
    | true => rw [if_pos rfl]; exact ⟨fun _ => h, fun _ => h0⟩
    | false => rw [if_neg (by simp)]; exact ⟨fun h' => absurd rfl h', fun h' => absurd (h ▸ h' : false = true) (by simp)⟩
  · have h : n.getLsbD i = false := BitVec.getLsbD_of_ge n i (by omega)
    rw [h, if_neg (by simp)]; exact ⟨fun h' => absurd rfl h', fun h' => absurd (h ▸ h' : false = true) (by simp)⟩

theorem decodeSlots_succ (present : Nat → Bool) (d : Dec α) (x : α) (i n : Nat) :
    decodeSlots present d x i (n + 1) = ((if present i then d else pure x) >>= fun a =>
      decodeSlots present d x (i + 1) n >>= fun l => pure ⟨a :: l.1, by simp [l.2]⟩) := rfl

theorem reads_slots {lim : Lim} {present : Nat → Bool} {d : Dec α} {e : α → List UInt8} {x : α}
    (l : List α) (i : Nat)
    (h : ∀ j (hj : j < l.length), if present (i + j) then Reads lim d (e l[j]) l[j] else l[j] = x) :
    Reads lim (decodeSlots present d x i l.length) (encodeSlots present e i l) ⟨l, rfl⟩ := by
  induction l generalizing i with
  | nil => exact Reads.pure _
  | cons a l ih =>
    rw [encodeSlots]
    show Reads lim (decodeSlots present d x i (l.length + 1)) _ _
    rw [decodeSlots_succ]
    refine Reads.bind (a := a) ?_ ?_
    · have h0 := h 0 (by simp)
      simp only [Nat.add_zero, List.getElem_cons_zero] at h0
      split
      · simpa [*] using h0
      · rw [if_neg (by assumption)] at h0
        rw [h0]; exact Reads.pure _
    · refine (ih (i + 1) fun j hj => ?_).map fun _ => rfl
      have := h (j + 1) (by simp; omega)
      rw [Nat.add_assoc, Nat.add_comm 1 j]
      simpa using this

theorem reads_slots' {lim : Lim} {n : Nat} {present : Nat → Bool} {d : Dec α} {e : α → List UInt8} {x : α}
    (l : Vec α n)
    (h : ∀ j (hj : j < l.1.length), if present j then Reads lim d (e l.1[j]) l.1[j] else l.1[j] = x) :
    Reads lim (decodeSlots present d x 0 n) (encodeSlots present e 0 l.1) l := by
  obtain ⟨l, rfl⟩ := l
  exact reads_slots l 0 fun j hj => by simpa using h j hj

theorem local_slots {present : Nat → Bool} {d : Dec α} {x : α} (h : Local d) (i n : Nat) :
    Local (decodeSlots present d x i n) := by
  induction n generalizing i with
  | zero => exact Local.pure _
  | succ n ih =>
    rw [decodeSlots_succ]
    refine Local.bind ?_ fun a => (ih _).bind fun _ => Local.pure _
    split
    · exact h
    · exact Local.pure _

theorem noPanic_slots {present : Nat → Bool} {d : Dec α} {x : α} (h : NoPanic d) (i n : Nat) :
    NoPanic (decodeSlots present d x i n) := by
  induction n generalizing i with
  | zero => exact NoPanic.pure _
  | succ n ih =>
    rw [decodeSlots_succ]
    refine NoPanic.bind ?_ fun a => (ih _).bind fun _ => NoPanic.pure _
    split
    · exact h
    · exact NoPanic.pure _

theorem slots_ok {present : Nat → Bool} {d : Dec α} {e : α → List UInt8} {x : α} {P : α → Prop} {lim : Lim}
    (hc : ∀ bs a r, d lim bs = .ok (a, r) → bs = e a ++ r) (hp : ∀ bs a r, d lim bs = .ok (a, r) → P a)
    {i n : Nat} {bs r : List UInt8}
    {l : Vec α n} (h : decodeSlots present d x i n lim bs = .ok (l, r)) :
    bs = encodeSlots present e i l.1 ++ r ∧
      ∀ j (hj : j < l.1.length), if present (i + j) then P l.1[j] else l.1[j] = x := by
  induction n generalizing i bs r with
  | zero =>
    simp [decodeSlots] at h
    rw [← h.1, h.2]
    simp [encodeSlots]
  | succ n ih =>
    rw [decodeSlots_succ] at h
    obtain ⟨a, r1, h1, h2⟩ := bind_eq_ok.mp h
    obtain ⟨l', r2, h3, h4⟩ := bind_eq_ok.mp h2
    simp at h4
    obtain ⟨h5, h6⟩ := ih h3
    obtain ⟨h4, rfl⟩ := h4
    subst h4
    constructor
    · simp only [encodeSlots]
      split
      · rename_i hi
        rw [if_pos hi] at h1
        rw [hc _ _ _ h1, h5, List.append_assoc]
      · rename_i hi
        rw [if_neg hi] at h1
        simp at h1
        rw [h1.2, h5]; rfl
    · intro j hj
      cases j with
      | zero =>
        simp only [Nat.add_zero, List.getElem_cons_zero]
        split
        · rename_i hi
          rw [if_pos hi] at h1
          exact hp _ _ _ h1
        · rename_i hi
          rw [if_neg hi] at h1
          simp at h1
          exact h1.1.symm
      | succ j =>
        have := h6 j (by simpa using hj)
        rw [Nat.add_assoc, Nat.add_comm 1 j] at this
        simpa using this

theorem enc_elementAccumulator (a : ElementAccumulator) : enc v a =
    enc v a.numLeaves ++ encodeSlots (hasTreeAtHeight a.numLeaves) (enc v) 0 a.trees.1 := rfl

theorem dec_elementAccumulator : (dec v : Dec ElementAccumulator) = ((dec v : Dec U64) >>= fun n =>
    decodeSlots (hasTreeAtHeight n) (dec v) (Arr.zero 32) 0 64 >>= fun t => pure ⟨n, t⟩) := rfl

instance : Lawful v ElementAccumulator where
  reads lim a h := by
    rw [enc_elementAccumulator, dec_elementAccumulator]
    refine (Lawful.reads lim a.numLeaves trivial).bind ?_
    refine (reads_slots' a.trees fun j hj => ?_).map fun _ => rfl
    split
    · exact Lawful.reads lim _ trivial
    · rename_i hn
      rw [hasTreeAtHeight_eq] at hn
      exact h j hj (by simpa using hn)
  loc := Lawful.loc.bind fun _ => (local_slots Lawful.loc _ _).bind fun _ => Local.pure _

instance : Total v ElementAccumulator where
  total := Total.total.bind fun _ => (noPanic_slots Total.total _ _).bind fun _ => NoPanic.pure _

instance : Safe v ElementAccumulator := Total.toSafe

instance : Canonical v ElementAccumulator where
  canon lim bs a r h := by
    rw [dec_elementAccumulator] at h
    obtain ⟨n, r1, h1, h2⟩ := bind_eq_ok.mp h
    obtain ⟨t, r2, h3, h4⟩ := bind_eq_ok.mp h2
    simp at h4
    rw [Canonical.canon _ _ _ _ h1, (slots_ok (P := fun _ => True) (fun bs => Canonical.canon lim bs)
      (fun _ _ _ _ => trivial) h3).1, ← h4.1, ← h4.2, enc_elementAccumulator, List.append_assoc]

instance : Closed v ElementAccumulator where
  closed lim bs a r h := by
    rw [dec_elementAccumulator] at h
    obtain ⟨n, r1, h1, h2⟩ := bind_eq_ok.mp h
    obtain ⟨t, r2, h3, h4⟩ := bind_eq_ok.mp h2
    simp at h4
    rw [← h4.1]
    intro i hi hb
    have := (slots_ok (P := fun _ => True) (fun bs => Canonical.canon lim bs)
      (fun _ _ _ _ => trivial) h3).2 i hi
    rw [Nat.zero_add, hasTreeAtHeight_eq, if_neg (by simpa using hb)] at this
    exact this

namespace State

theorem timestampsCount_ok {m : Mode} {i : ChainIndex} (h : i.height.toNat + 1 < 2 ^ 64) :
    timestampsCount m i = .ok (min (i.height.toNat + 1) 11) := by
  have h1 : (i.height + 1).toNat = i.height.toNat + 1 := by
    rw [BitVec.toNat_add]; simp; omega
  have h2 : i.childHeight m = .ok (i.height + 1) := by
    unfold ChainIndex.childHeight addU
    cases m
    · simp [h]
    · rfl
  unfold timestampsCount
  rw [h2, Res.ok_bind, h1]
  simp only [Res.pure_eq, Res.ok.injEq]
  split <;> omega

instance : Lawful v Tail := inferInstance

theorem decode_def (m : Mode) : decode m = ((dec .v2 : Dec ChainIndex) >>= fun index =>
    Dec.lift (timestampsCount m index) >>= fun count =>
    decodeSlots (fun i => decide (i < count)) (dec .v2) DateTime.epoch 0 11 >>= fun prevTimestamps =>
    (dec .v2 : Dec Tail) >>= fun (a, b, c, d, e, f, g, h, i, j, k, l) =>
    pure ⟨index, prevTimestamps, a, b, c, d, e, f, g, h, i, j, k, l⟩) := rfl

theorem encode_ok {m : Mode} {s : State} (h : s.index.height.toNat + 1 < 2 ^ 64) :
    encode m s = .ok (enc .v2 s.index ++
      (encodeSlots (fun i => decide (i < min (s.index.height.toNat + 1) 11)) (enc .v2) 0 s.prevTimestamps.1 ++
      enc .v2 s.tail)) := by
  unfold encode
  rw [timestampsCount_ok h]; rfl

theorem reads_state {m : Mode} {lim : Lim} {s : State} {e : List UInt8} (h : stateFits lim s)
    (he : encode m s = .ok e) : Reads lim (decode m) e s := by
  obtain ⟨h1, h2, h3, h4⟩ := h
  rw [encode_ok h1] at he
  have he := (Res.ok.inj he).symm
  subst he
  rw [decode_def]
  have hi : fits lim s.index := ⟨trivial, trivial⟩
  refine (Lawful.reads lim s.index hi).bind ?_
  rw [timestampsCount_ok h1]
  refine Reads.of_unit_left (a := min (s.index.height.toNat + 1) 11) (fun bs => rfl) ?_
  refine (reads_slots' s.prevTimestamps fun j hj => ?_).bind ?_
  · have := h2 j hj
    have hl := s.prevTimestamps.2
    by_cases hc : j < min (s.index.height.toNat + 1) 11
    · rw [if_pos (by omega)] at this
      rw [if_pos (by simpa using hc)]
      exact Lawful.reads lim _ this
    · rw [if_neg (by omega)] at this
      rw [if_neg (by simpa using hc)]
      exact this
  · refine (Lawful.reads lim s.tail ?_).map fun _ => rfl
    exact ⟨trivial, trivial, trivial, h3, trivial, trivial, trivial, trivial, trivial, trivial, h4, trivial⟩

theorem local_lift {α : Type} (x : Res α) : Local (Dec.lift x) := by
  intro lim bs a r h
  cases x with
  | ok x => simp [Dec.lift] at h; exact ⟨[], by simp [h.2], by simp [Dec.lift, h.1]⟩
  | err e => simp [Dec.lift] at h
  | panic => simp [Dec.lift] at h

theorem local_decode (m : Mode) : Local (decode m) := by
  rw [decode_def]
  exact Lawful.loc.bind fun _ => (local_lift _).bind fun _ => (local_slots Lawful.loc _ _).bind fun _ =>
    Lawful.loc.bind fun (_, _, _, _, _, _, _, _, _, _, _, _) => Local.pure _

theorem lift_eq_ok {α : Type} {x : Res α} {lim : Lim} {bs r : List UInt8} {a : α}
    (h : Dec.lift x lim bs = .ok (a, r)) : x = .ok a ∧ bs = r := by
  cases x with
  | ok x => simp [Dec.lift] at h; exact ⟨by rw [h.1], h.2⟩
  | err e => simp [Dec.lift] at h
  | panic => simp [Dec.lift] at h

instance : Canonical .v2 Tail := inferInstance

instance : Closed v Tail := inferInstance

/-- Everything the decoder accepts is the encoding of the result. -/
theorem canon_decode {m : Mode} {lim : Lim} {bs r : List UInt8} {s : State}
    (h : decode m lim bs = .ok (s, r)) : ∃ e, encode m s = .ok e ∧ bs = e ++ r := by
  rw [decode_def] at h
  obtain ⟨ix, r1, h1, h⟩ := bind_eq_ok.mp h
  obtain ⟨n, r2, h2, h⟩ := bind_eq_ok.mp h
  obtain ⟨ts, r3, h3, h⟩ := bind_eq_ok.mp h
  obtain ⟨tl, r4, h4, h⟩ := bind_eq_ok.mp h
  obtain ⟨hcnt, rfl⟩ := lift_eq_ok h2
  obtain ⟨a, b, c, d, e, f, g, hh, i, j, k, l⟩ := tl
  simp at h
  obtain ⟨hs, rfl⟩ := h
  subst hs
  have h5 := (slots_ok (P := fun _ => True) (e := enc .v2) (fun bs => Canonical.canon lim bs)
    (fun _ _ _ _ => trivial) h3).1
  refine ⟨enc .v2 ix ++ (encodeSlots (fun i => decide (i < n)) (enc .v2) 0 ts.1 ++
    enc .v2 (a, b, c, d, e, f, g, hh, i, j, k, l)), ?_, ?_⟩
  · unfold encode
    rw [hcnt]; rfl
  · rw [Canonical.canon _ _ _ _ h1, h5, Canonical.canon _ _ _ _ h4]
    simp only [List.append_assoc]

/-- What the decoder accepts is in normal form. -/
theorem closed_decode {m : Mode} {lim : Lim} {bs r : List UInt8} {s : State}
    (h : decode m lim bs = .ok (s, r)) (hh : s.index.height.toNat + 1 < 2 ^ 64) : stateFits lim s := by
  rw [decode_def] at h
  obtain ⟨ix, r1, h1, h⟩ := bind_eq_ok.mp h
  obtain ⟨n, r2, h2, h⟩ := bind_eq_ok.mp h
  obtain ⟨ts, r3, h3, h⟩ := bind_eq_ok.mp h
  obtain ⟨tl, r4, h4, h⟩ := bind_eq_ok.mp h
  obtain ⟨hcnt, rfl⟩ := lift_eq_ok h2
  have h6 := Closed.closed _ _ _ _ h4
  obtain ⟨a, b, c, d, e, f, g, q, i, j, k, l⟩ := tl
  simp at h
  obtain ⟨hs, rfl⟩ := h
  subst hs
  rw [timestampsCount_ok hh] at hcnt
  have h2 := Res.ok.inj hcnt
  have h5 := (slots_ok (P := fits lim) (e := enc .v2) (fun bs => Canonical.canon lim bs)
    (fun bs => Closed.closed lim bs) h3).2
  refine ⟨hh, fun i hi => ?_, h6.2.2.2.1, h6.2.2.2.2.2.2.2.2.2.2.1⟩
  have h7 := h5 i hi
  have hl := ts.2
  simp only [Nat.zero_add, decide_eq_true_eq] at h7
  simp only at hh h2 hi ⊢
  by_cases hc : i ≤ ix.height.toNat
  · rw [if_pos (by omega)] at h7
    rw [if_pos hc]; exact h7
  · rw [if_neg (by omega)] at h7
    rw [if_neg hc]; exact h7

end State

end Verif
