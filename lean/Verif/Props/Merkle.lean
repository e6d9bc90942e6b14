import Verif.Lemmas.Merkle
import Verif.Lemmas.Hashing
import Verif.Props.Samples

/-!
# The Merkle accumulator (C33) and the address of unlock conditions (C32)

Both properties are violated by the code: `add_leaf` combines an existing tree with the new leaf instead of with the
running node (sia/src/merkle.rs 34).
-/

namespace Verif

namespace Sample

/-- A toy hash function, to exhibit concrete differences: the first byte is the sum of all bytes. -/
def byteSum : Hasher := fun bs => ⟨bs.foldl (· + ·) 0 :: List.replicate 31 0, by simp⟩

/-- A leaf hash. -/
def leaf (b : UInt8) : Hash256 := ⟨b :: List.replicate 31 0, by simp⟩

end Sample

variable {H : Hasher}

theorem addLeaves_new (H : Hasher) (l : List Hash256) (h : l.length < 2 ^ 64) :
    ∃ a, Accumulator.new.addLeaves H l = .ok a ∧ Accumulator.Good (fun x _ => x) H l a := by
  rw [Accumulator.addLeaves_eq]
  simpa using Accumulator.addLeavesWith_good l [] Accumulator.new Accumulator.good_new (by simpa using h)

/-! ## C33 -/

/-- C33, exactly what is computed: for any number of leaves below 2^64 the accumulator does not panic and its root is the
`IsAccumulatorRoot` of the leaves, which is unique; without leaves it is the zero hash. -/
theorem C33_accumulator_exact (H : Hasher) (l : List Hash256) (h : l.length < 2 ^ 64) :
    ∃ a, Accumulator.new.addLeaves H l = .ok a ∧ (l = [] → a.root H = Arr.zero 32) ∧
      (l ≠ [] → ∀ r, a.root H = r ↔ IsAccumulatorRoot H l r) := by
  obtain ⟨a, ha, g⟩ := addLeaves_new H l h
  refine ⟨a, ha, ?_, fun hne r => ?_⟩
  · rintro rfl
    exact Accumulator.root_empty a (BitVec.eq_of_toNat_eq g.count)
  · have := isAccumulatorRoot_of_isRoot (Accumulator.root_good l a g h hne)
    exact ⟨fun e => e ▸ this, fun hr => this.unique hr⟩

/-- C33, partial: with at most three leaves the root is the Merkle root.  Missing: more leaves, for which it is false
(`C33_third_leaf_ignored`, `C33_not_merkle_root`). -/
theorem C33_merkle_root_partial (H : Hasher) (l : List Hash256) (h : l.length ≤ 3) (hne : l ≠ []) :
    ∃ a, Accumulator.new.addLeaves H l = .ok a ∧ ∀ r, a.root H = r ↔ IsMerkleRoot H l r := by
  obtain ⟨a, ha, -, hr⟩ := C33_accumulator_exact H l (by omega)
  have := ((hr hne _).mp rfl).small h
  exact ⟨a, ha, fun r => ⟨fun e => e ▸ this, fun hr => this.unique hr⟩⟩

example : [Sample.leaf 1, Sample.leaf 2, Sample.leaf 4].length ≤ 3 := by decide

/-- C33 is violated: with four or more leaves the root does not depend on the third leaf, whatever the hash function. -/
theorem C33_third_leaf_ignored (H : Hasher) (x y z z' w : Hash256) (t : List Hash256) (ht : t.length + 4 < 2 ^ 64) :
    ∃ a a', Accumulator.new.addLeaves H (x :: y :: z :: w :: t) = .ok a ∧
      Accumulator.new.addLeaves H (x :: y :: z' :: w :: t) = .ok a' ∧ a.root H = a'.root H := by
  obtain ⟨a, ha, -, hr⟩ := C33_accumulator_exact H (x :: y :: z :: w :: t) (by simpa using ht)
  obtain ⟨a', ha', -, hr'⟩ := C33_accumulator_exact H (x :: y :: z' :: w :: t) (by simpa using ht)
  refine ⟨a, a', ha, ha', ?_⟩
  have := (hr (by simp) _).mp rfl
  exact ((hr' (by simp) _).mpr (this.third _ _ _ _ _ z' rfl)).symm

/-- C33 is violated: four leaves and a hash function for which the root is not the Merkle root. -/
theorem C33_not_merkle_root :
    ∃ (H : Hasher) (l : List Hash256) (a : Accumulator), l.length = 4 ∧ Accumulator.new.addLeaves H l = .ok a ∧
      ¬ IsMerkleRoot H l (a.root H) := by
  let l := [Sample.leaf 1, Sample.leaf 2, Sample.leaf 4, Sample.leaf 8]
  obtain ⟨a, ha, -, hr⟩ := C33_accumulator_exact Sample.byteSum l (by decide)
  refine ⟨Sample.byteSum, l, a, rfl, ha, fun hm => ?_⟩
  have s1 : Sample.byteSum ([1] ++ (Sample.leaf 1).1 ++ (Sample.leaf 2).1) = Sample.leaf 4 := by decide +kernel
  have s2 : Sample.byteSum ([1] ++ (Sample.leaf 4).1 ++ (Sample.leaf 8).1) = Sample.leaf 13 := by decide +kernel
  have s3 : Sample.byteSum ([1] ++ (Sample.leaf 4).1 ++ (Sample.leaf 13).1) = Sample.leaf 18 := by decide +kernel
  have h1 : a.root Sample.byteSum = Sample.leaf 13 := by
    rw [hr (by simp [l]), ← s2]
    refine .full 1 [Sample.leaf 1, Sample.leaf 2] [Sample.leaf 4] _ _ rfl rfl ?_
    rw [← s1]
    exact .full 0 [Sample.leaf 1] [] _ _ rfl rfl (.leaf _)
  have h2 : IsMerkleRoot Sample.byteSum l (Sample.leaf 18) := by
    rw [← s3]
    refine .node 1 [Sample.leaf 1, Sample.leaf 2] [Sample.leaf 4, Sample.leaf 8] _ _ rfl (by decide) (by decide) ?_ ?_
    · rw [← s1]
      exact .node 0 [Sample.leaf 1] [Sample.leaf 2] _ _ rfl (by decide) (by decide) (.leaf _) (.leaf _)
    · rw [← s2]
      exact .node 0 [Sample.leaf 4] [Sample.leaf 8] _ _ rfl (by decide) (by decide) (.leaf _) (.leaf _)
  have := hm.unique h2
  rw [h1] at this
  exact absurd this (by decide)

/-- C33 for the repaired program: if `add_leaf` hashed the running node instead of the leaf, the root would be the Merkle
root for any number of leaves.  (This is not the code in the repository; it shows that line 34 is the only obstacle.) -/
theorem C33_repaired (H : Hasher) (l : List Hash256) (h : l.length < 2 ^ 64) (hne : l ≠ []) :
    ∃ a, Accumulator.new.addLeavesWith (fun _ node => node) H l = .ok a ∧ ∀ r, a.root H = r ↔ IsMerkleRoot H l r := by
  obtain ⟨a, ha, g⟩ := Accumulator.addLeavesWith_good (sel := fun _ node => node) (H := H) l [] Accumulator.new
    Accumulator.good_new (by simpa using h)
  rw [List.nil_append] at g
  have := isMerkleRoot_of_isRoot (Accumulator.root_good l a g h hne)
  exact ⟨a, ha, fun r => ⟨fun e => e ▸ this, fun hr => this.unique hr⟩⟩

/-- Every non-empty list of leaf hashes has exactly one Merkle root, so the specification of C33 is never vacuous. -/
theorem C33_spec_unique (H : Hasher) (l : List Hash256) (h : l ≠ []) : ∃ r, ∀ r', IsMerkleRoot H l r' ↔ r' = r := by
  obtain ⟨r, hr⟩ := IsMerkleRoot.exists H l.length l rfl (List.length_pos_iff.mpr h)
  exact ⟨r, fun r' => ⟨fun h => h.unique hr, fun e => e ▸ hr⟩⟩

/-- C33.  `add_leaf` panics exactly when 2^64 - 1 leaves have been added, in any accumulator. -/
theorem C33_panics_iff (H : Hasher) (a : Accumulator) (h : Hash256) :
    a.addLeaf H h = .panic ↔ a.numLeaves.toNat = 2 ^ 64 - 1 := by
  refine ⟨fun hp => ?_, Accumulator.addLeaf_full a h⟩
  apply Decidable.byContradiction
  intro hf
  obtain ⟨a', ha'⟩ := Accumulator.addLeaf_notFull (H := H) a h hf
  rw [hp] at ha'
  cases ha'

example : (⟨Accumulator.new.trees, 2 ^ 64 - 1⟩ : Accumulator).numLeaves.toNat = 2 ^ 64 - 1 := by decide +kernel

/-! ## C32 -/

theorem addLeaves_append (H : Hasher) (l m : List Hash256) : ∀ a : Accumulator,
    a.addLeaves H (l ++ m) = a.addLeaves H l >>= fun a => a.addLeaves H m := by
  induction l with
  | nil => intro a; rfl
  | cons h l ih =>
    intro a
    rw [List.cons_append, Accumulator.addLeaves, Accumulator.addLeaves]
    cases a.addLeaf H h with
    | ok a' => exact ih a'
    | err e => rfl
    | panic => rfl

theorem addLeaves_one (H : Hasher) (h : Hash256) (a : Accumulator) : a.addLeaves H [h] = a.addLeaf H h := by
  rw [Accumulator.addLeaves]
  cases a.addLeaf H h <;> rfl

theorem address_eq (H : Hasher) (uc : UnlockConditions) :
    uc.address H = Accumulator.new.addLeaves H (uc.leaves H) >>= fun a => pure (a.root H) := by
  have : uc.leaves H = [H ([0] ++ leBytes 8 uc.timelock.toNat)] ++ (uc.publicKeys.map (fun k => H ([0] ++ enc .v2 k)) ++
      [H ([0] ++ leBytes 8 uc.signaturesRequired.toNat)]) := by
    simp [UnlockConditions.leaves, UnlockConditions.leafStrings, Function.comp_def]
  rw [this, addLeaves_append, addLeaves_one, UnlockConditions.address]
  cases Accumulator.new.addLeaf H (H ([0] ++ leBytes 8 uc.timelock.toNat)) with
  | err e => rfl
  | panic => rfl
  | ok a =>
    simp only [Res.ok_bind]
    rw [addLeaves_append]
    cases a.addLeaves H (uc.publicKeys.map fun k => H ([0] ++ enc .v2 k)) with
    | err e => rfl
    | panic => rfl
    | ok a =>
      simp only [Res.ok_bind]
      rw [addLeaves_one]

theorem leaves_length (H : Hasher) (uc : UnlockConditions) : (uc.leaves H).length = uc.publicKeys.length + 2 := by
  simp [UnlockConditions.leaves, UnlockConditions.leafStrings]

theorem leaves_ne (H : Hasher) (uc : UnlockConditions) : uc.leaves H ≠ [] := by
  intro h
  have := leaves_length H uc
  rw [h] at this
  simp at this

/-- C32, exactly what is computed: the address of unlock conditions is the accumulator root over the timelock, the keys in
order and the number of required signatures, and computing it does not panic. -/
theorem C32_address_exact (H : Hasher) (uc : UnlockConditions) (h : uc.publicKeys.length + 2 < 2 ^ 64) :
    ∃ r, uc.address H = .ok r ∧ IsAccumulatorRoot H (uc.leaves H) r := by
  rw [address_eq]
  obtain ⟨a, ha, -, hr⟩ := C33_accumulator_exact H (uc.leaves H) (by rw [leaves_length]; exact h)
  rw [ha]
  exact ⟨_, rfl, (hr (leaves_ne H uc) _).mp rfl⟩

/-- C32, partial: with at most one key the address is the Merkle root.  Missing: two or more keys, for which it is false
(`C32_second_key_ignored`). -/
theorem C32_address_partial (H : Hasher) (uc : UnlockConditions) (h : uc.publicKeys.length ≤ 1) :
    ∃ r, uc.address H = .ok r ∧ IsMerkleRoot H (uc.leaves H) r := by
  obtain ⟨r, h1, h2⟩ := C32_address_exact H uc (by omega)
  exact ⟨r, h1, h2.small (by rw [leaves_length]; omega)⟩

/-- C32 is violated: the second public key of unlock conditions can be replaced without changing the address, whatever the
hash function. -/
theorem C32_second_key_ignored (H : Hasher) (timelock sigs : U64) (k k2 k2' : UnlockKey) (ks : List UnlockKey)
    (h : ks.length + 4 < 2 ^ 64) :
    (⟨timelock, k :: k2 :: ks, sigs⟩ : UnlockConditions).address H =
      (⟨timelock, k :: k2' :: ks, sigs⟩ : UnlockConditions).address H := by
  obtain ⟨r, h1, h2⟩ := C32_address_exact H ⟨timelock, k :: k2 :: ks, sigs⟩ (by simpa using h)
  obtain ⟨r', h1', h2'⟩ := C32_address_exact H ⟨timelock, k :: k2' :: ks, sigs⟩ (by simpa using h)
  rw [h1, h1']
  congr 1
  cases ks with
  | nil => exact (h2.third _ _ _ _ _ _ rfl).unique h2'
  | cons k3 ks => exact (h2.third _ _ _ _ _ _ rfl).unique h2'

example : (⟨7, [⟨Sample.ed25519, List.replicate 32 9⟩, ⟨Sample.ed25519, []⟩], 2⟩ : UnlockConditions) ≠
    ⟨7, [⟨Sample.ed25519, List.replicate 32 9⟩, ⟨Sample.ed25519, List.replicate 32 1⟩], 2⟩ := by decide +kernel

theorem leafStrings_inj {uc uc' : UnlockConditions} (h : V1.SizedConditions uc) (h' : V1.SizedConditions uc')
    (he : uc.leafStrings = uc'.leafStrings) : uc = uc' := by
  unfold UnlockConditions.leafStrings at he
  obtain ⟨t, ks, s⟩ := uc
  obtain ⟨t', ks', s'⟩ := uc'
  have le : ∀ {a b : U64}, [0] ++ leBytes 8 a.toNat = [0] ++ leBytes 8 b.toNat → a = b := by
    intro a b hab
    exact Derivation.le8_inj (List.append_cancel_left hab)
  obtain ⟨he, h3⟩ := List.append_inj' he rfl
  obtain ⟨h1, h2⟩ := List.append_inj he rfl
  simp only [List.cons.injEq, and_true] at h1 h3
  have hk : ks = ks' := by
    have : ∀ (ks ks' : List UnlockKey), (∀ k ∈ ks, k.key.length < 2 ^ 64) → (∀ k ∈ ks', k.key.length < 2 ^ 64) →
        ks.map (fun k => [0] ++ enc .v2 k) = ks'.map (fun k => [0] ++ enc .v2 k) → ks = ks' := by
      intro ks
      induction ks with
      | nil => intro ks' _ _ h; simpa using h.symm
      | cons k ks ih =>
        intro ks' g g' h
        cases ks' with
        | nil => simp at h
        | cons k' ks' =>
          rw [List.map_cons, List.map_cons, List.cons.injEq] at h
          have f1 : fits bigLim k := ⟨trivial, fits_byteList (g k (by simp))⟩
          have f2 : fits bigLim k' := ⟨trivial, fits_byteList (g' k' (by simp))⟩
          have e : k = k' := (selfDelimiting (v := .v2) bigLim k k' [] [] f1 f2 (by rw [List.append_cancel_left h.1])).1
          rw [e, ih ks' (fun k hk => g k (by simp [hk])) (fun k hk => g' k (by simp [hk])) h.2]
    exact this ks ks' h.2 h'.2 h2
  rw [le h1, hk, le h3]

theorem conditions_commit (H : Hasher) (uc uc' : UnlockConditions) (hs : V1.SizedConditions uc) (hs' : V1.SizedConditions uc')
    (hc : ∀ s s', uc.Hashed H s → uc'.Hashed H s' → H s = H s' → s = s') {r : Hash256} (h2 : IsMerkleRoot H (uc.leaves H) r)
    (h2' : IsMerkleRoot H (uc'.leaves H) r) : uc = uc' := by
  have head : ∀ (uc : UnlockConditions) s, s ∈ uc.leafStrings → s.head? = some 0 := by
    intro uc s hs
    simp only [UnlockConditions.leafStrings, List.mem_append, List.mem_singleton, List.mem_map] at hs
    rcases hs with (rfl | ⟨k, -, rfl⟩) | rfl <;> rfl
  have hl := h2.inj h2' (fun s s' a b => hc s s' (.inr a) (.inr b)) ?_ ?_
  · apply leafStrings_inj hs hs'
    have : ∀ (l l' : List (List UInt8)), (∀ s ∈ l, ∀ s' ∈ l', H s = H s' → s = s') → l.map H = l'.map H → l = l' := by
      intro l
      induction l with
      | nil => intro l' _ h; simpa using h.symm
      | cons s l ih =>
        intro l' g h
        cases l' with
        | nil => simp at h
        | cons s' l' =>
          rw [List.map_cons, List.map_cons, List.cons.injEq] at h
          rw [g s (by simp) s' (by simp) h.1, ih l' (fun s hs s' hs' => g s (by simp [hs]) s' (by simp [hs'])) h.2]
    exact this _ _ (fun s hs s' hs' => hc s s' (.inl hs) (.inl hs')) hl
  · intro x hx s' hs' e
    obtain ⟨s, hs, rfl⟩ := List.mem_map.mp hx
    have e1 := hc s s' (.inl hs) (.inr hs') e.symm
    have e2 := head uc s hs
    rw [e1, hs'.head] at e2
    cases e2
  · intro x hx s hs e
    obtain ⟨s', hs', rfl⟩ := List.mem_map.mp hx
    have e1 := hc s s' (.inr hs) (.inl hs') e
    have e2 := head uc' s' hs'
    rw [← e1, hs.head] at e2
    cases e2

/-- C32, partial: with at most one key the address commits to the unlock conditions, if the hash function has no collision
between the strings that are hashed for the two addresses. -/
theorem C32_commits_partial (H : Hasher) (uc uc' : UnlockConditions) (h : uc.publicKeys.length ≤ 1)
    (h' : uc'.publicKeys.length ≤ 1) (hs : V1.SizedConditions uc) (hs' : V1.SizedConditions uc')
    (hc : ∀ s s', uc.Hashed H s → uc'.Hashed H s' → H s = H s' → s = s') (he : uc.address H = uc'.address H) : uc = uc' := by
  obtain ⟨r, h1, h2⟩ := C32_address_partial H uc h
  obtain ⟨r', h1', h2'⟩ := C32_address_partial H uc' h'
  rw [h1, h1', Res.ok.injEq] at he
  subst he
  exact conditions_commit H uc uc' hs hs' hc h2 h2'

theorem nodeString_two (H : Hasher) (x y : Hash256) (s : List UInt8) (h : NodeString H [x, y] s) : s = [1] ++ x.1 ++ y.1 := by
  have one : ∀ z t, ¬ NodeString H [z] t := by
    intro z t h
    generalize hm : [z] = m at h
    cases h with
    | root j l r a b h1 h2 h3 _ _ => have := congrArg List.length hm; have := Nat.two_pow_pos j; simp at *; omega
    | left j l r s h1 h2 h3 _ => have := congrArg List.length hm; have := Nat.two_pow_pos j; simp at *; omega
    | right j l r s h1 h2 h3 _ => have := congrArg List.length hm; have := Nat.two_pow_pos j; simp at *; omega
  generalize hm : [x, y] = m at h
  have split : ∀ (j : Nat) (l r : List Hash256), l.length = 2 ^ j → 0 < r.length → [x, y] = l ++ r → l = [x] ∧ r = [y] := by
    intro j l r h1 h2 h
    have hl := congrArg List.length h
    have := Nat.two_pow_pos j
    rw [List.length_append] at hl
    match l, r, h, hl, h1, h2 with
    | [a], [b], h, _, _, _ => simpa [eq_comm] using h
    | [], _, _, _, h1, _ => simp at h1; omega
    | _ :: _ :: _, _ :: _, _, hl, _, _ => simp at hl; omega
    | [_], _ :: _ :: _, _, hl, _, _ => simp at hl; omega
    | _, [], _, _, _, h2 => simp at h2
  cases h with
  | root j l r a b h1 h2 h3 ha hb =>
    obtain ⟨rfl, rfl⟩ := split j l r h1 h2 hm
    rw [ha.unique (.leaf x), hb.unique (.leaf y)]
  | left j l r s h1 h2 h3 h =>
    obtain ⟨rfl, rfl⟩ := split j l r h1 h2 hm
    exact absurd h (one _ _)
  | right j l r s h1 h2 h3 h =>
    obtain ⟨rfl, rfl⟩ := split j l r h1 h2 hm
    exact absurd h (one _ _)

/-- The hypotheses of `C32_commits_partial` are met by different unlock conditions (so their addresses differ). -/
example : (⟨1, [], 2⟩ : UnlockConditions).address Sample.byteSum ≠ (⟨5, [], 9⟩ : UnlockConditions).address Sample.byteSum := by
  intro he
  have key : ∀ (t u : U64) s, (⟨t, [], u⟩ : UnlockConditions).Hashed Sample.byteSum s →
      s = [0] ++ leBytes 8 t.toNat ∨ s = [0] ++ leBytes 8 u.toNat ∨
      s = [1] ++ (Sample.byteSum ([0] ++ leBytes 8 t.toNat)).1 ++ (Sample.byteSum ([0] ++ leBytes 8 u.toNat)).1 := by
    intro t u s hs
    rcases hs with hs | hs
    · simp only [UnlockConditions.leafStrings, List.map_nil, List.append_nil, List.mem_append, List.mem_singleton] at hs
      exact hs.elim .inl fun h => .inr (.inl h)
    · exact .inr (.inr (nodeString_two _ _ _ s hs))
  have := C32_commits_partial Sample.byteSum ⟨1, [], 2⟩ ⟨5, [], 9⟩ (by decide) (by decide) (by simp [V1.SizedConditions])
    (by simp [V1.SizedConditions]) ?_ he
  · exact absurd this (by decide)
  · intro s s' hs hs' e
    rcases key 1 2 s hs with rfl | rfl | rfl <;> rcases key 5 9 s' hs' with rfl | rfl | rfl <;>
      exact absurd e (by decide +kernel)

end Verif
