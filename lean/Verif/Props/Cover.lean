import Verif.Lemmas.CoverIndex
import Verif.Props.Rhp

/-!
# Exactly what accumulator roots, addresses of unlock conditions and sector roots commit to (C68)
-/

namespace Verif

/-! ## The accumulator -/

/-- C68.  Leaves that agree where the accumulator looks have the same root, whatever the hash function. -/
theorem C68_same_root (H : Hasher) (l l' : List Hash256) (hn : l ≠ []) (h : l.length < 2 ^ 64) (h' : l'.length < 2 ^ 64)
    (ho : Overlap l l') :
    ∃ a a', Accumulator.new.addLeaves H l = .ok a ∧ Accumulator.new.addLeaves H l' = .ok a' ∧ a.root H = a'.root H := by
  have hc := (sameCover_iff hn).mpr ho
  obtain ⟨a, ha, -, hr⟩ := C33_accumulator_exact H l h
  obtain ⟨a', ha', -, hr'⟩ := C33_accumulator_exact H l' h'
  obtain ⟨r, g, g'⟩ := hc.root H
  refine ⟨a, a', ha, ha', ?_⟩
  rw [(hr hn r).mpr g, (hr' (List.length_pos_iff.mp hc.pos.2) r).mpr g']

/-- C68.  Two lists of leaves have the same root exactly if they agree where the accumulator looks, unless hashes collide. -/
theorem C68_root_iff (H : Hasher) (l l' : List Hash256) (hn : l ≠ []) (hn' : l' ≠ []) (h : l.length < 2 ^ 64) (h' : l'.length < 2 ^ 64)
    (hc : NoCollision H l l') :
    ∃ a a', Accumulator.new.addLeaves H l = .ok a ∧ Accumulator.new.addLeaves H l' = .ok a' ∧
      (a.root H = a'.root H ↔ Overlap l l') := by
  obtain ⟨a, ha, -, hr⟩ := C33_accumulator_exact H l h
  obtain ⟨a', ha', -, hr'⟩ := C33_accumulator_exact H l' h'
  refine ⟨a, a', ha, ha', fun he => ?_, fun ho => ?_⟩
  · exact (sameCover_iff hn).mp (((hr hn _).mp rfl).same ((hr' hn' _).mp he.symm) hc.nodes hc.left hc.right)
  · obtain ⟨b, b', hb, hb', e⟩ := C68_same_root H l l' hn h h' ho
    rw [ha, Res.ok.injEq] at hb
    rw [ha', Res.ok.injEq] at hb'
    rw [hb, hb', e]

/-- What is hashed for two, three and four leaves. -/
theorem string_small (H : Hasher) {m : List Hash256} {s : List UInt8} (h : AccumulatorString H m s) :
    (∀ x, m ≠ [x]) ∧ (∀ x y, m = [x, y] → s = [1] ++ x.1 ++ y.1) ∧
    (∀ x y z, m = [x, y, z] → s = [1] ++ x.1 ++ y.1 ∨ s = [1] ++ (H ([1] ++ x.1 ++ y.1)).1 ++ z.1) ∧
    ∀ x y z w, m = [x, y, z, w] → s = [1] ++ x.1 ++ y.1 ∨ s = [1] ++ (H ([1] ++ x.1 ++ y.1)).1 ++ w.1 := by
  have two : ∀ x y, IsAccumulatorRoot H [x, y] (H ([1] ++ x.1 ++ y.1)) := fun x y => .full 0 [x] [] x y rfl rfl (.leaf x)
  have pick : ∀ {l r : List Hash256} {j}, l.length = 2 ^ j → r.length ≤ 2 ^ j → 0 < r.length → (l ++ r).length ≤ 4 →
      (∃ x y, l = [x] ∧ r = [y]) ∨ (∃ x y z, l = [x, y] ∧ r = [z]) ∨ ∃ x y z w, l = [x, y] ∧ r = [z, w] := by
    intro l r j h1 h2 h3 h4
    match l, r, h1, h2, h3, h4 with
    | [], _, h1, _, _, _ => have := Nat.two_pow_pos j; simp at h1; omega
    | _, [], _, _, h3, _ => simp at h3
    | [x], [y], _, _, _, _ => exact .inl ⟨x, y, rfl, rfl⟩
    | [x], _ :: _ :: _, h1, h2, _, _ => rw [← h1] at h2; simp at h2
    | [x, y], [z], _, _, _, _ => exact .inr (.inl ⟨x, y, z, rfl, rfl⟩)
    | [x, y], [z, w], _, _, _, _ => exact .inr (.inr ⟨x, y, z, w, rfl, rfl⟩)
    | [x, y], _ :: _ :: _ :: _, h1, h2, _, _ => rw [← h1] at h2; simp at h2
    | [_, _, _], _ :: _, h1, _, _, _ =>
      match j, h1 with
      | 0, h1 => cases h1
      | 1, h1 => cases h1
      | j + 2, h1 => rw [Nat.pow_add] at h1; have h1 : 3 = 2 ^ j * 4 := h1; omega
    | _ :: _ :: _ :: _ :: _, _ :: _, _, _, _, h4 => simp at h4
  have big : ∀ (m : List Hash256) (s : List UInt8), 4 < m.length → (∀ x, m ≠ [x]) ∧ (∀ x y, m = [x, y] → s = [1] ++ x.1 ++ y.1) ∧
      (∀ x y z, m = [x, y, z] → s = [1] ++ x.1 ++ y.1 ∨ s = [1] ++ (H ([1] ++ x.1 ++ y.1)).1 ++ z.1) ∧
      ∀ x y z w, m = [x, y, z, w] → s = [1] ++ x.1 ++ y.1 ∨ s = [1] ++ (H ([1] ++ x.1 ++ y.1)).1 ++ w.1 := by
    intro m s g
    refine ⟨fun x e => ?_, fun x y e => ?_, fun x y z e => ?_, fun x y z w e => ?_⟩ <;> (rw [e] at g; simp at g)
  induction h with
  | node j l r a b h1 h2 h3 ha hb =>
    rcases Nat.lt_or_ge 4 (l ++ (r)).length with g | g
    · exact big _ _ g
    · rcases pick h1 (by omega) h2 g with ⟨x, y, rfl, rfl⟩ | ⟨x, y, z, rfl, rfl⟩ | ⟨x, y, z, w, rfl, rfl⟩
      · rw [ha.unique (.leaf x), hb.unique (.leaf y)]; simp
      · rw [ha.unique (two x y), hb.unique (.leaf z)]; simp
      · rw [← h1] at h3; simp at h3
  | full j l r a x h1 h2 ha =>
    rcases Nat.lt_or_ge 4 (l ++ (r ++ [x])).length with g | g
    · exact big _ _ g
    · rcases pick h1 (by simp [h2]) (by simp) g with ⟨y, z, rfl, e⟩ | ⟨y, z, w, rfl, e⟩ | ⟨y, z, w, v, rfl, e⟩
      · rw [ha.unique (.leaf y)]
        cases r with
        | nil => simp
        | cons _ _ => simp at e
      · rw [← h1] at h2
        cases r with
        | nil => simp at h2
        | cons _ _ => simp at e
      · rw [ha.unique (two y z)]
        match r, e with
        | [_], e =>
          refine ⟨nofun, nofun, nofun, fun _ _ _ _ e => ?_⟩
          simp only [List.cons_append, List.nil_append, List.cons.injEq, and_true] at e
          obtain ⟨rfl, rfl, rfl, rfl⟩ := e
          exact .inr rfl
        | [], e => simp at e
        | _ :: _ :: _, e => simp at e
  | left j l r s h1 h2 h3 _ ih =>
    rcases Nat.lt_or_ge 4 (l ++ (r)).length with g | g
    · exact big _ _ g
    · rcases pick h1 h3 h2 g with ⟨x, y, rfl, rfl⟩ | ⟨x, y, z, rfl, rfl⟩ | ⟨x, y, z, w, rfl, rfl⟩
      · exact absurd rfl (ih.1 x)
      · have := ih.2.1 x y rfl; simp [this]
      · refine ⟨nofun, nofun, nofun, fun _ _ _ _ e => ?_⟩
        simp only [List.cons_append, List.nil_append, List.cons.injEq, and_true] at e
        obtain ⟨rfl, rfl, rfl, rfl⟩ := e
        exact .inl (ih.2.1 x y rfl)
  | right j l r s h1 h2 h3 _ ih =>
    rcases Nat.lt_or_ge 4 (l ++ (r)).length with g | g
    · exact big _ _ g
    · rcases pick h1 (by omega) h2 g with ⟨x, y, rfl, rfl⟩ | ⟨x, y, z, rfl, rfl⟩ | ⟨x, y, z, w, rfl, rfl⟩
      · exact absurd rfl (ih.1 y)
      · exact absurd rfl (ih.1 z)
      · rw [← h1] at h3; simp at h3

/-- The hypotheses of `C68_root_iff` are met by two lists of leaves with different roots. -/
example : NoCollision Sample.byteSum [Sample.leaf 1, Sample.leaf 2] [Sample.leaf 1, Sample.leaf 20, Sample.leaf 50] := by
  have k1 : ∀ s, AccumulatorString Sample.byteSum [Sample.leaf 1, Sample.leaf 2] s → s = [1] ++ (Sample.leaf 1).1 ++ (Sample.leaf 2).1 :=
    fun s hs => (string_small _ hs).2.1 _ _ rfl
  have k2 : ∀ s, AccumulatorString Sample.byteSum [Sample.leaf 1, Sample.leaf 20, Sample.leaf 50] s →
      s = [1] ++ (Sample.leaf 1).1 ++ (Sample.leaf 20).1 ∨
      s = [1] ++ (Sample.byteSum ([1] ++ (Sample.leaf 1).1 ++ (Sample.leaf 20).1)).1 ++ (Sample.leaf 50).1 :=
    fun s hs => (string_small _ hs).2.2.1 _ _ _ rfl
  refine ⟨fun s s' hs hs' => ?_, fun x hx s' hs' => ?_, fun x hx s hs => ?_⟩
  · rw [k1 s hs]
    rcases k2 s' hs' with rfl | rfl <;> decide +kernel
  · revert x
    rcases k2 s' hs' with rfl | rfl <;> decide +kernel
  · revert x
    rw [k1 s hs]
    decide +kernel

/-- Five leaves and eight leaves of which the first, second, fourth and last are the same. -/
example (a b c c' d x e f g : Nat) : Overlap [a, b, c, d, x] [a, b, c', d, e, f, g, x] := by
  refine ⟨.inr (.inl ⟨2, 0, by omega, Nat.dvd_zero _, rfl, rfl⟩), rfl, fun i hi hc => ?_⟩
  have hi : i + 1 < 5 := hi
  have hc : Covered (2 ^ 2 + 1) i := hc
  match i, hi with
  | 0, _ => rfl
  | 1, _ => rfl
  | 2, _ =>
    rcases (covered_append (by omega) (by omega)).mp hc with ⟨-, h⟩ | ⟨h, -⟩
    · rcases covered_pow.mp h with h | ⟨j, hj, h⟩
      · cases h
      · match j, hj with
        | 0, _ => cases h
        | 1, _ => cases h
        | 2, _ => cases h
    · omega
  | 3, _ => rfl

/-! ## Unlock conditions -/

theorem leafStrings_length (uc : UnlockConditions) : uc.leafStrings.length = uc.publicKeys.length + 2 := by
  simp [UnlockConditions.leafStrings]

theorem leafStrings_last (uc : UnlockConditions) : uc.leafStrings.getLast? = some ([0] ++ leBytes 8 uc.signaturesRequired.toNat) := by
  rw [UnlockConditions.leafStrings, getLast?_append_pos _ (by simp)]
  rfl

theorem leafStrings_zero (uc : UnlockConditions) : uc.leafStrings[0]? = some ([0] ++ leBytes 8 uc.timelock.toNat) := by
  simp [UnlockConditions.leafStrings]

theorem leafStrings_key (uc : UnlockConditions) (i : Nat) (h : i < uc.publicKeys.length) :
    uc.leafStrings[i + 1]? = uc.publicKeys[i]?.map (fun k => [0] ++ enc .v2 k) := by
  rw [UnlockConditions.leafStrings, List.append_assoc, List.singleton_append, List.getElem?_cons_succ,
    List.getElem?_append_left (by simpa), List.getElem?_map]

theorem covered_zero {n : Nat} (h : 0 < n) : Covered n 0 := by
  have h1 := Nat.log2_self_le (n := n) (by omega)
  have h2 := Nat.lt_log2_self (n := n)
  exact ⟨n.log2, 0, Nat.dvd_zero _, by omega, by omega, .inl rfl⟩

theorem key_string_inj {k k' : UnlockKey} (h : k.key.length < 2 ^ 64) (h' : k'.key.length < 2 ^ 64)
    (e : [0] ++ enc .v2 k = [0] ++ enc .v2 k') : k = k' := by
  have f1 : fits bigLim k := ⟨trivial, fits_byteList h⟩
  have f2 : fits bigLim k' := ⟨trivial, fits_byteList h'⟩
  exact (selfDelimiting (v := .v2) bigLim k k' [] [] f1 f2 (by rw [List.append_cancel_left e])).1

theorem overlap_of_sameAddress {uc uc' : UnlockConditions} (h : uc.SameAddress uc') : Overlap uc.leafStrings uc'.leafStrings := by
  obtain ⟨h1, h2, h3, h4⟩ := h
  have em : min uc.leafStrings.length uc'.leafStrings.length = min uc.publicKeys.length uc'.publicKeys.length + 2 := by
    rw [leafStrings_length, leafStrings_length]; omega
  refine ⟨?_, ?_, fun i hi hc => ?_⟩
  · rw [leafStrings_length, leafStrings_length]
    exact h3.imp (by omega) _root_.id
  · rw [leafStrings_last, leafStrings_last, h2]
  · rw [em] at hi hc
    cases i with
    | zero => rw [leafStrings_zero, leafStrings_zero, h1]
    | succ i => rw [leafStrings_key uc i (by omega), leafStrings_key uc' i (by omega), h4 i (by omega) hc]

theorem sameAddress_of_overlap {uc uc' : UnlockConditions} (hs : V1.SizedConditions uc) (hs' : V1.SizedConditions uc')
    (h : Overlap uc.leafStrings uc'.leafStrings) : uc.SameAddress uc' := by
  have em : min uc.leafStrings.length uc'.leafStrings.length = min uc.publicKeys.length uc'.publicKeys.length + 2 := by
    rw [leafStrings_length, leafStrings_length]; omega
  obtain ⟨h1, h2, h3⟩ := h
  rw [em] at h3
  refine ⟨?_, ?_, ?_, fun i hi hc => ?_⟩
  · have := h3 0 (by omega) (covered_zero (by omega))
    rw [leafStrings_zero, leafStrings_zero, Option.some.injEq] at this
    exact Derivation.le8_inj (List.append_cancel_left this)
  · rw [leafStrings_last, leafStrings_last, Option.some.injEq] at h2
    exact Derivation.le8_inj (List.append_cancel_left h2)
  · rw [leafStrings_length, leafStrings_length] at h1
    exact h1.imp (by omega) _root_.id
  · have := h3 (i + 1) (by omega) hc
    have g : i < uc.publicKeys.length := by omega
    have g' : i < uc'.publicKeys.length := by omega
    rw [leafStrings_key uc i g, leafStrings_key uc' i g', List.getElem?_eq_getElem g, List.getElem?_eq_getElem g',
      Option.map_some, Option.map_some, Option.some.injEq] at this
    rw [List.getElem?_eq_getElem g, List.getElem?_eq_getElem g',
      key_string_inj (hs.2 _ (List.getElem_mem ..)) (hs'.2 _ (List.getElem_mem ..)) this]

/-- C68.  Unlock conditions that agree where the accumulator looks have the same address, whatever the hash function. -/
theorem C68_same_address (H : Hasher) (uc uc' : UnlockConditions) (h : uc.publicKeys.length + 2 < 2 ^ 64)
    (h' : uc'.publicKeys.length + 2 < 2 ^ 64) (ho : uc.SameAddress uc') : uc.address H = uc'.address H := by
  have hc := ((sameCover_iff (List.length_pos_iff.mp (by rw [leafStrings_length]; omega))).mpr (overlap_of_sameAddress ho)).map H
  obtain ⟨r, h1, h2⟩ := C32_address_exact H uc h
  obtain ⟨r', h1', h2'⟩ := C32_address_exact H uc' h'
  obtain ⟨x, g, g'⟩ := hc.root H
  rw [h1, h1', h2.unique g, h2'.unique g']

/-- C68.  Two unlock conditions have the same address exactly if they have the same timelock and number of required signatures, numbers of
keys that the accumulator does not tell apart, and the same keys where it looks, unless hashes collide. -/
theorem C68_address_iff (H : Hasher) (uc uc' : UnlockConditions) (h : uc.publicKeys.length + 2 < 2 ^ 64)
    (h' : uc'.publicKeys.length + 2 < 2 ^ 64) (hs : V1.SizedConditions uc) (hs' : V1.SizedConditions uc')
    (hc : ∀ s s', uc.HashedFor H s → uc'.HashedFor H s' → H s = H s' → s = s') :
    uc.address H = uc'.address H ↔ uc.SameAddress uc' := by
  refine ⟨fun he => ?_, C68_same_address H uc uc' h h'⟩
  obtain ⟨r, h1, h2⟩ := C32_address_exact H uc h
  obtain ⟨r', h1', h2'⟩ := C32_address_exact H uc' h'
  rw [h1, h1', Res.ok.injEq] at he
  subst he
  have head : ∀ (uc : UnlockConditions) s, s ∈ uc.leafStrings → s.head? = some 0 := by
    intro uc s hs
    simp only [UnlockConditions.leafStrings, List.mem_append, List.mem_singleton, List.mem_map] at hs
    rcases hs with (rfl | ⟨k, -, rfl⟩) | rfl <;> rfl
  have hl := h2.same h2' (fun s s' a b => hc s s' (.inr a) (.inr b)) ?_ ?_
  · apply sameAddress_of_overlap hs hs'
    refine (sameCover_iff (List.length_pos_iff.mp (by rw [leafStrings_length]; omega))).mp ?_
    exact hl.of_map H _ _ rfl rfl fun s p s' p' => hc s s' (.inl p) (.inl p')
  · intro x hx s' p' e
    obtain ⟨s, p, rfl⟩ := List.mem_map.mp hx
    have e1 := hc s s' (.inl p) (.inr p') e.symm
    have e2 := head uc s p
    rw [e1, p'.head] at e2
    cases e2
  · intro x hx s p e
    obtain ⟨s', p', rfl⟩ := List.mem_map.mp hx
    have e1 := hc s s' (.inr p) (.inl p') e
    have e2 := head uc' s' p'
    rw [← e1, p.head] at e2
    cases e2

/-- The hypotheses of `C68_address_iff` are met by conditions with one key and with two keys; the first keys differ, and so do the addresses. -/
example : (⟨1, [⟨Sample.ed25519, [7]⟩], 2⟩ : UnlockConditions).address Sample.byteSum ≠
    (⟨1, [⟨Sample.ed25519, [77]⟩, ⟨Sample.ed25519, [20]⟩], 2⟩ : UnlockConditions).address Sample.byteSum := by
  intro he
  have k1 : ∀ s, (⟨1, [⟨Sample.ed25519, [7]⟩], 2⟩ : UnlockConditions).HashedFor Sample.byteSum s → s ∈
      [[0] ++ leBytes 8 1, [0] ++ enc .v2 (⟨Sample.ed25519, [7]⟩ : UnlockKey), [0] ++ leBytes 8 2,
        [1] ++ (Sample.byteSum ([0] ++ leBytes 8 1)).1 ++ (Sample.byteSum ([0] ++ enc .v2 (⟨Sample.ed25519, [7]⟩ : UnlockKey))).1,
        [1] ++ (Sample.byteSum ([1] ++ (Sample.byteSum ([0] ++ leBytes 8 1)).1 ++ (Sample.byteSum ([0] ++ enc .v2 (⟨Sample.ed25519, [7]⟩ : UnlockKey))).1)).1
          ++ (Sample.byteSum ([0] ++ leBytes 8 2)).1] := by
    rintro s (hs | hs)
    · exact List.mem_append_left (bs := [_, _]) hs
    · rcases (string_small _ hs).2.2.1 _ _ _ rfl with rfl | rfl
      · exact List.mem_cons_of_mem _ (List.mem_cons_of_mem _ (List.mem_cons_of_mem _ (List.mem_cons_self ..)))
      · exact List.mem_cons_of_mem _ (List.mem_cons_of_mem _ (List.mem_cons_of_mem _ (List.mem_cons_of_mem _ (List.mem_cons_self ..))))
  have k2 : ∀ s, (⟨1, [⟨Sample.ed25519, [77]⟩, ⟨Sample.ed25519, [20]⟩], 2⟩ : UnlockConditions).HashedFor Sample.byteSum s → s ∈
      [[0] ++ leBytes 8 1, [0] ++ enc .v2 (⟨Sample.ed25519, [77]⟩ : UnlockKey), [0] ++ enc .v2 (⟨Sample.ed25519, [20]⟩ : UnlockKey),
        [0] ++ leBytes 8 2,
        [1] ++ (Sample.byteSum ([0] ++ leBytes 8 1)).1 ++ (Sample.byteSum ([0] ++ enc .v2 (⟨Sample.ed25519, [77]⟩ : UnlockKey))).1,
        [1] ++ (Sample.byteSum ([1] ++ (Sample.byteSum ([0] ++ leBytes 8 1)).1 ++ (Sample.byteSum ([0] ++ enc .v2 (⟨Sample.ed25519, [77]⟩ : UnlockKey))).1)).1
          ++ (Sample.byteSum ([0] ++ leBytes 8 2)).1] := by
    rintro s (hs | hs)
    · exact List.mem_append_left (bs := [_, _]) hs
    · rcases (string_small _ hs).2.2.2 _ _ _ _ rfl with rfl | rfl
      · exact List.mem_cons_of_mem _ (List.mem_cons_of_mem _ (List.mem_cons_of_mem _ (List.mem_cons_of_mem _ (List.mem_cons_self ..))))
      · exact List.mem_cons_of_mem _ (List.mem_cons_of_mem _ (List.mem_cons_of_mem _ (List.mem_cons_of_mem _ (List.mem_cons_of_mem _
          (List.mem_cons_self ..)))))
  have := (C68_address_iff Sample.byteSum ⟨1, [⟨Sample.ed25519, [7]⟩], 2⟩ ⟨1, [⟨Sample.ed25519, [77]⟩, ⟨Sample.ed25519, [20]⟩], 2⟩
    (by decide) (by decide) (by simp [V1.SizedConditions]) (by simp [V1.SizedConditions]) ?_).mp he
  · have := this.2.2.2 0 (by decide) (by rw [show min _ _ + 2 = 2 ^ 1 + 1 from rfl, covered_append (by omega) (by omega)]; exact .inl ⟨by omega, covered_pow.mpr (.inr ⟨1, by omega, rfl⟩)⟩)
    exact absurd this (by decide +kernel)
  · intro s s' hs hs'
    have : ∀ s ∈ ([[0] ++ leBytes 8 1, [0] ++ enc .v2 (⟨Sample.ed25519, [7]⟩ : UnlockKey), [0] ++ leBytes 8 2,
        [1] ++ (Sample.byteSum ([0] ++ leBytes 8 1)).1 ++ (Sample.byteSum ([0] ++ enc .v2 (⟨Sample.ed25519, [7]⟩ : UnlockKey))).1,
        [1] ++ (Sample.byteSum ([1] ++ (Sample.byteSum ([0] ++ leBytes 8 1)).1 ++ (Sample.byteSum ([0] ++ enc .v2 (⟨Sample.ed25519, [7]⟩ : UnlockKey))).1)).1
          ++ (Sample.byteSum ([0] ++ leBytes 8 2)).1] : List (List UInt8)), ∀ s' ∈ ([[0] ++ leBytes 8 1,
        [0] ++ enc .v2 (⟨Sample.ed25519, [77]⟩ : UnlockKey), [0] ++ enc .v2 (⟨Sample.ed25519, [20]⟩ : UnlockKey), [0] ++ leBytes 8 2,
        [1] ++ (Sample.byteSum ([0] ++ leBytes 8 1)).1 ++ (Sample.byteSum ([0] ++ enc .v2 (⟨Sample.ed25519, [77]⟩ : UnlockKey))).1,
        [1] ++ (Sample.byteSum ([1] ++ (Sample.byteSum ([0] ++ leBytes 8 1)).1 ++ (Sample.byteSum ([0] ++ enc .v2 (⟨Sample.ed25519, [77]⟩ : UnlockKey))).1)).1
          ++ (Sample.byteSum ([0] ++ leBytes 8 2)).1] : List (List UInt8)), Sample.byteSum s = Sample.byteSum s' → s = s' := by
      decide +kernel
    exact this s (k1 s hs) s' (k2 s' hs')

/-- C68.  A second key added to unlock conditions with one key does not change the address: whoever holds one key and another holder of
two share the address. -/
theorem C68_one_or_two_keys (H : Hasher) (timelock sigs : U64) (k k2 : UnlockKey) :
    (⟨timelock, [k], sigs⟩ : UnlockConditions).address H = (⟨timelock, [k, k2], sigs⟩ : UnlockConditions).address H := by
  refine C68_same_address H _ _ (by simp) (by simp) ⟨rfl, rfl, .inr (.inl ⟨1, 0, by omega, Nat.dvd_zero _, rfl, rfl⟩), ?_⟩
  intro i hi _
  have hi : i < 1 := hi
  have : i = 0 := by omega
  subst this
  rfl

/-- C68.  Of 2^k - 2 keys only those numbered 2^j - 2 (from 0) have an influence on the address: k - 1 of them. -/
theorem C68_few_keys (H : Hasher) (k : Nat) (hk : k < 64) (timelock sigs : U64) (ks ks' : List UnlockKey) (h : ks.length + 2 = 2 ^ k)
    (h' : ks'.length + 2 = 2 ^ k) (he : ∀ j, 0 < j → j < k → ks[2 ^ j - 2]? = ks'[2 ^ j - 2]?) :
    (⟨timelock, ks, sigs⟩ : UnlockConditions).address H = (⟨timelock, ks', sigs⟩ : UnlockConditions).address H := by
  have hb : 2 ^ k < 2 ^ 64 := (Nat.pow_lt_pow_iff_right (by omega)).mpr hk
  refine C68_same_address H _ _ (by simp only; omega) (by simp only; omega) ⟨rfl, rfl, .inl (by simp only; omega), ?_⟩
  intro i hi hc
  have hi : i < min ks.length ks'.length := hi
  have hc : Covered (min ks.length ks'.length + 2) (i + 1) := hc
  rw [show min ks.length ks'.length + 2 = 2 ^ k by omega] at hc
  rcases covered_pow.mp hc with h0 | ⟨j, hj, e⟩
  · omega
  · have hj0 : 0 < j := pow_lt (a := 0) (by omega)
    have hjk : j < k := pow_lt (by omega)
    have := he j hj0 hjk
    rwa [show 2 ^ j - 2 = i by omega] at this

example : ([⟨Sample.ed25519, []⟩, ⟨Sample.ed25519, [1]⟩, ⟨Sample.ed25519, [2]⟩, ⟨Sample.ed25519, [3]⟩, ⟨Sample.ed25519, [4]⟩,
    ⟨Sample.ed25519, [5]⟩] : List UnlockKey).length + 2 = 2 ^ 3 := rfl

/-! ## Sectors -/

theorem take_of_segments {s s' : List UInt8} (m : Nat) (h : ∀ q < m, segment s q = segment s' q) : s.take (64 * m) = s'.take (64 * m) := by
  induction m with
  | zero => rfl
  | succ m ih =>
    rw [Nat.mul_succ, List.take_add, List.take_add, ih fun q hq => h q (by omega)]
    exact congrArg _ (h m (by omega))

theorem merkle_segments (H : Hasher) (f : Nat → Nat) (s s' : List UInt8) (r : Hash256)
    (hr : IsMerkleRoot H ((List.range 65536).map fun p => H ([0] ++ segment s (f p))) r)
    (hr' : IsMerkleRoot H ((List.range 65536).map fun p => H ([0] ++ segment s' (f p))) r)
    (hc : ∀ x y, SectorHashed H f s x → SectorHashed H f s' y → H x = H y → x = y) :
    ∀ p < 65536, segment s (f p) = segment s' (f p) := by
  have hl := hr.inj hr' (fun x y a b => hc x y (.inr a) (.inr b)) ?_ ?_
  · intro p hp
    have := congrArg (fun l => l[p]?) hl
    simp only [List.getElem?_map, List.getElem?_range hp, Option.map_some, Option.some.injEq] at this
    exact List.append_cancel_left (hc _ _ (.inl ⟨p, hp, rfl⟩) (.inl ⟨p, hp, rfl⟩) this)
  · intro x hx y hy e
    obtain ⟨p, hp, rfl⟩ := List.mem_map.mp hx
    have := hc _ y (.inl ⟨p, List.mem_range.mp hp, rfl⟩) (.inr hy) e.symm
    have h1 := hy.head
    rw [← this] at h1
    cases h1
  · intro x hx y hy e
    obtain ⟨p, hp, rfl⟩ := List.mem_map.mp hx
    have := hc y _ (.inr hy) (.inl ⟨p, List.mem_range.mp hp, rfl⟩) e
    have h1 := hy.head
    rw [this] at h1
    cases h1

/-- C68.  Two sectors have the same root exactly if they agree in the first 16387 segments, unless hashes collide. -/
theorem C68_sector_iff (H : Hasher) (s s' : List UInt8) (hl : s.length = 2 ^ 22) (hl' : s'.length = 2 ^ 22)
    (hc : ∀ x y, SectorHashed H (fun p => p / 4 + p % 4) s x → SectorHashed H (fun p => p / 4 + p % 4) s' y → H x = H y → x = y) :
    Rhp.sectorRoot H s = Rhp.sectorRoot H s' ↔ s.take (64 * 16387) = s'.take (64 * 16387) := by
  refine ⟨fun he => ?_, C34_rest_ignored H s s' hl hl'⟩
  obtain ⟨r, hr⟩ := IsMerkleRoot.exists H 65536 ((List.range 65536).map fun p => H ([0] ++ segment s (p / 4 + p % 4)))
    (by rw [List.length_map, List.length_range]) (by omega)
  have g := (C34_exact H s hl r).mpr hr
  have hr' := (C34_exact H s' hl' r).mp (he ▸ g)
  have hs := merkle_segments H (fun p => p / 4 + p % 4) s s' r hr hr' hc
  refine take_of_segments 16387 fun q hq => ?_
  rcases Nat.lt_or_ge q 16384 with h | h
  · have := hs (4 * q) (by omega)
    simpa only [show 4 * q / 4 + 4 * q % 4 = q by omega] using this
  · have := hs (4 * 16383 + (q - 16383)) (by omega)
    simpa only [show (4 * 16383 + (q - 16383)) / 4 + (4 * 16383 + (q - 16383)) % 4 = q by omega] using this

/-- C68.  With the segments read in order (`C34_repaired`) the root commits to the whole sector, unless hashes collide. -/
theorem C68_sector_repaired (H : Hasher) (s s' : List UInt8) (hl : s.length = 2 ^ 22) (hl' : s'.length = 2 ^ 22)
    (hc : ∀ x y, SectorHashed H (fun p => p) s x → SectorHashed H (fun p => p) s' y → H x = H y → x = y) :
    Rhp.rootOf (fun i j => 4 * i + j) Rhp.sectorSize H s = Rhp.rootOf (fun i j => 4 * i + j) Rhp.sectorSize H s' ↔ s = s' := by
  refine ⟨fun he => ?_, fun e => e ▸ rfl⟩
  obtain ⟨r, hr⟩ := IsMerkleRoot.exists H 65536 ((List.range 65536).map fun p => H ([0] ++ segment s p))
    (by rw [List.length_map, List.length_range]) (by omega)
  have g := (C34_repaired H s hl r).mpr hr
  have hr' := (C34_repaired H s' hl' r).mp (he ▸ g)
  have hs := merkle_segments H (fun p => p) s s' r hr hr' hc
  have := take_of_segments 65536 hs
  rwa [List.take_of_length_le (by rw [hl]; decide), List.take_of_length_le (by rw [hl']; decide)] at this

/-- A toy hash function: the sum of the first two bytes. -/
def Sample.firstTwo : Hasher := fun s => Sample.leaf (s.getD 0 0 + s.getD 1 0)

theorem firstTwo_leaf (b : UInt8) : Sample.firstTwo ([0] ++ List.replicate 64 b) = Sample.leaf b :=
  congrArg Sample.leaf (UInt8.zero_add b)

theorem firstTwo_node (b : UInt8) (y : Hash256) : Sample.firstTwo ([1] ++ (Sample.leaf b).1 ++ y.1) = Sample.leaf (1 + b) := rfl

theorem half {j k m : Nat} (h : 2 ^ j + m = 2 ^ k) (h0 : 0 < m) (h1 : m ≤ 2 ^ j) : k = j + 1 ∧ m = 2 ^ j := by
  have h2 : j < k := pow_lt (by omega)
  have h3 : k ≤ j + 1 := pow_le (by rw [Nat.pow_succ]; omega)
  have : k = j + 1 := by omega
  subst this
  rw [Nat.pow_succ] at h
  exact ⟨rfl, by omega⟩

theorem firstTwo_root {l : List Hash256} {r : Hash256} (h : IsMerkleRoot Sample.firstTwo l r) (b : UInt8) :
    ∀ k, (∀ x ∈ l, x = Sample.leaf b) → l.length = 2 ^ k → r = Sample.leaf (UInt8.ofNat k + b) := by
  induction h with
  | leaf x =>
    intro k hx hk
    rw [hx x (List.mem_singleton_self x), ← pow_inj (j := 0) (k := k) hk]
    exact congrArg Sample.leaf (UInt8.zero_add b).symm
  | node j l r x y h1 h2 h3 _ _ ih1 ih2 =>
    intro k hx hk
    rw [List.length_append, h1] at hk
    obtain ⟨rfl, -⟩ := half hk h2 h3
    rw [ih1 j (fun x m => hx x (List.mem_append_left _ m)) h1, firstTwo_node, UInt8.ofNat_add, ← UInt8.add_assoc,
      UInt8.add_comm (UInt8.ofNat j) (UInt8.ofNat 1)]
    rfl

theorem firstTwo_string {l : List Hash256} {s : List UInt8} (h : NodeString Sample.firstTwo l s) (b : UInt8) :
    ∀ k, (∀ x ∈ l, x = Sample.leaf b) → l.length = 2 ^ k → ∃ m < k, Sample.firstTwo s = Sample.leaf (UInt8.ofNat (m + 1) + b) := by
  induction h with
  | root j l r x y h1 h2 h3 hx hy =>
    intro k hm hk
    have hr := IsMerkleRoot.node j l r x y h1 h2 h3 hx hy
    have e := firstTwo_root hr b k hm hk
    rw [List.length_append, h1] at hk
    obtain ⟨rfl, -⟩ := half hk h2 h3
    exact ⟨j, by omega, e⟩
  | left j l r s h1 h2 h3 _ ih =>
    intro k hm hk
    rw [List.length_append, h1] at hk
    obtain ⟨rfl, -⟩ := half hk h2 h3
    obtain ⟨m, g, e⟩ := ih j (fun x h => hm x (List.mem_append_left _ h)) h1
    exact ⟨m, by omega, e⟩
  | right j l r s h1 h2 h3 _ ih =>
    intro k hm hk
    rw [List.length_append, h1] at hk
    obtain ⟨rfl, e⟩ := half hk h2 h3
    obtain ⟨m, g, e⟩ := ih j (fun x h => hm x (List.mem_append_right _ h)) e
    exact ⟨m, by omega, e⟩

theorem firstTwo_hashed (f : Nat → Nat) (hf : ∀ p < 65536, f p < 65536) (b : UInt8) (s : List UInt8)
    (h : SectorHashed Sample.firstTwo f (Sample.sector b) s) : ∃ m < 17, Sample.firstTwo s = Sample.leaf (UInt8.ofNat m + b) := by
  rcases h with ⟨p, hp, rfl⟩ | h
  · refine ⟨0, by omega, ?_⟩
    rw [segment_replicate b _ (hf p hp), firstTwo_leaf]
    exact congrArg Sample.leaf (UInt8.zero_add b).symm
  · obtain ⟨m, hm, e⟩ := firstTwo_string h b 16 (fun x hx => by
      obtain ⟨p, hp, rfl⟩ := List.mem_map.mp hx
      rw [segment_replicate b _ (hf p (List.mem_range.mp hp)), firstTwo_leaf]) (by rw [List.length_map, List.length_range])
    exact ⟨m + 1, by omega, e⟩

/-- The hypotheses of `C68_sector_iff` and `C68_sector_repaired` are met by two sectors of equal bytes. -/
theorem firstTwo_no_collision (f : Nat → Nat) (hf : ∀ p < 65536, f p < 65536) (x y : List UInt8)
    (hx : SectorHashed Sample.firstTwo f (Sample.sector 7) x) (hy : SectorHashed Sample.firstTwo f (Sample.sector 107) y)
    (e : Sample.firstTwo x = Sample.firstTwo y) : x = y := by
  obtain ⟨m, hm, e1⟩ := firstTwo_hashed f hf 7 x hx
  obtain ⟨n, hn, e2⟩ := firstTwo_hashed f hf 107 y hy
  rw [e1, e2] at e
  have : ∀ m < 17, ∀ n < 17, Sample.leaf (UInt8.ofNat m + 7) ≠ Sample.leaf (UInt8.ofNat n + 107) := by decide +kernel
  exact absurd e (this m hm n hn)

example : Rhp.sectorRoot Sample.firstTwo (Sample.sector 7) ≠ Rhp.sectorRoot Sample.firstTwo (Sample.sector 107) := by
  intro e
  have := (C68_sector_iff Sample.firstTwo _ _ (Sample.sector_length 7) (Sample.sector_length 107)
    (firstTwo_no_collision _ (by intro p hp; omega))).mp e
  have := congrArg List.head? this
  rw [Sample.sector, Sample.sector, List.take_replicate, List.take_replicate, List.head?_replicate, List.head?_replicate] at this
  exact absurd this (by decide +kernel)

example : Rhp.rootOf (fun i j => 4 * i + j) Rhp.sectorSize Sample.firstTwo (Sample.sector 7) ≠
    Rhp.rootOf (fun i j => 4 * i + j) Rhp.sectorSize Sample.firstTwo (Sample.sector 107) := by
  intro e
  have := (C68_sector_repaired Sample.firstTwo _ _ (Sample.sector_length 7) (Sample.sector_length 107)
    (firstTwo_no_collision _ (by intro p hp; exact hp))).mp e
  have := congrArg List.head? this
  rw [Sample.sector, Sample.sector, List.head?_replicate, List.head?_replicate] at this
  exact absurd this (by decide +kernel)

end Verif
