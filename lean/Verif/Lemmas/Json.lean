import Verif.Spec.Json

/-!
# Lemmas about JSON values and derived structs
-/

namespace Verif

namespace Json

mutual

/-- No object has a repeated key. -/
def Distinct : Json → Prop
  | .arr l => DistinctList l
  | .obj m => DistinctMembers m
  | _ => True

def DistinctList : List Json → Prop
  | [] => True
  | j :: l => Distinct j ∧ DistinctList l

def DistinctMembers : List (String × Json) → Prop
  | [] => True
  | (k, v) :: m => (∀ p ∈ m, p.1 ≠ k) ∧ Distinct v ∧ DistinctMembers m

end

theorem distinctList_iff (l : List Json) : DistinctList l ↔ ∀ j ∈ l, Distinct j := by
  induction l with
  | nil => simp [DistinctList]
  | cons j l ih => simp [DistinctList, ih]

theorem normList_eq (l : List Json) : normList l = l.map norm := by
  induction l with
  | nil => rfl
  | cons j l ih => rw [normList, ih]; rfl

theorem mem_insertKey {k : String} {v : Json} {m : List (String × Json)} {p : String × Json} (h : p ∈ insertKey k v m) :
    p = (k, v) ∨ p ∈ m := by
  induction m with
  | nil => simpa [insertKey] using h
  | cons q m ih =>
    obtain ⟨k', v'⟩ := q
    rw [insertKey] at h
    split at h
    · simpa using h
    · split at h
      · exact .inr h
      · rcases List.mem_cons.mp h with h | h
        · exact .inr (by simp [h])
        · rcases ih h with h | h
          · exact .inl h
          · exact .inr (by simp [h])

theorem mem_normMembers {m : List (String × Json)} {p : String × Json} (h : p ∈ normMembers m) :
    ∃ v, (p.1, v) ∈ m ∧ p.2 = norm v := by
  induction m with
  | nil => simp [normMembers] at h
  | cons q m ih =>
    obtain ⟨k, v⟩ := q
    rw [normMembers] at h
    rcases mem_insertKey h with rfl | h
    · exact ⟨v, by simp, rfl⟩
    · obtain ⟨w, h1, h2⟩ := ih h
      exact ⟨w, by simp [h1], h2⟩

/-- Sorted by key. -/
def Sorted (m : List (String × Json)) : Prop := m.Pairwise fun p q => p.1 < q.1

theorem str_total {a b : String} (h : ¬ a < b) (h' : a ≠ b) : b < a := by
  have h1 : b ≤ a := String.not_lt.mp h
  rcases String.le_total a b with h2 | h2
  · exact absurd (String.le_antisymm h2 h1) h'
  · exact Decidable.byContradiction fun h3 => h' (String.le_antisymm (String.not_lt.mp h3) h1)

theorem insertKey_sorted {k : String} {v : Json} {m : List (String × Json)} (h : Sorted m) : Sorted (insertKey k v m) := by
  induction m with
  | nil => simp [insertKey, Sorted]
  | cons q m ih =>
    obtain ⟨k', v'⟩ := q
    unfold Sorted at h ih ⊢
    rw [List.pairwise_cons] at h
    rw [insertKey]
    split
    · rename_i hk
      rw [List.pairwise_cons, List.pairwise_cons]
      refine ⟨fun p hp => ?_, h.1, h.2⟩
      rcases List.mem_cons.mp hp with rfl | hp
      · exact hk
      · exact String.lt_trans hk (h.1 p hp)
    · split
      · exact List.pairwise_cons.mpr h
      · rename_i h1 h2
        rw [List.pairwise_cons]
        refine ⟨fun p hp => ?_, ih h.2⟩
        rcases mem_insertKey hp with rfl | hp
        · exact str_total h1 h2
        · exact h.1 p hp

theorem normMembers_sorted (m : List (String × Json)) : Sorted (normMembers m) := by
  induction m with
  | nil => simp [normMembers, Sorted]
  | cons q m ih => obtain ⟨k, v⟩ := q; rw [normMembers]; exact insertKey_sorted ih

theorem insertKey_front {k : String} {v : Json} {m : List (String × Json)} (h : ∀ p ∈ m, k < p.1) : insertKey k v m = (k, v) :: m := by
  cases m with
  | nil => rfl
  | cons q m => obtain ⟨k', v'⟩ := q; rw [insertKey, if_pos (h (k', v') (by simp))]

theorem normMembers_fixed {m : List (String × Json)} (hs : Sorted m) (hv : ∀ p ∈ m, norm p.2 = p.2) : normMembers m = m := by
  induction m with
  | nil => rfl
  | cons q m ih =>
    obtain ⟨k, v⟩ := q
    unfold Sorted at hs ih
    rw [List.pairwise_cons] at hs
    rw [normMembers, ih hs.2 (fun p hp => hv p (by simp [hp])), hv (k, v) (by simp), insertKey_front hs.1]

/-- Induction over documents. -/
theorem induct {P : Json → Prop} (hnull : P .null) (hbool : ∀ b, P (.bool b)) (hnat : ∀ n, P (.nat n)) (hneg : ∀ k, P (.neg k))
    (hfloat : P .float) (hstr : ∀ s, P (.str s)) (harr : ∀ l, (∀ j ∈ l, P j) → P (.arr l))
    (hobj : ∀ m, (∀ p ∈ m, P p.2) → P (.obj m)) (j : Json) : P j :=
  Json.rec (motive_1 := P) (motive_2 := fun l => ∀ j ∈ l, P j) (motive_3 := fun m => ∀ p ∈ m, P p.2) (motive_4 := fun p => P p.2)
    hnull hbool hnat hneg hfloat hstr harr hobj (by simp) (fun a l h1 h2 => by
      intro j hj; rcases List.mem_cons.mp hj with rfl | hj
      · exact h1
      · exact h2 j hj) (by simp) (fun a l h1 h2 => by
      intro j hj; rcases List.mem_cons.mp hj with rfl | hj
      · exact h1
      · exact h2 j hj) (fun _ _ h => h) j

theorem norm_norm (j : Json) : norm (norm j) = norm j := by
  induction j using induct with
  | harr l ih =>
    simp only [norm, normList_eq, List.map_map]
    congr 1
    exact List.map_congr_left fun j hj => ih j hj
  | hobj m ih =>
    simp only [norm]
    rw [normMembers_fixed (normMembers_sorted m)]
    intro p hp
    obtain ⟨v, h1, h2⟩ := mem_normMembers hp
    rw [h2]
    exact ih _ h1
  | _ => rfl

theorem distinctMembers_iff (m : List (String × Json)) : DistinctMembers m ↔ (m.Pairwise fun p q => q.1 ≠ p.1) ∧ ∀ p ∈ m, Distinct p.2 := by
  induction m with
  | nil => simp [DistinctMembers]
  | cons q m ih =>
    obtain ⟨k, v⟩ := q
    rw [DistinctMembers, ih, List.pairwise_cons]
    simp only [List.mem_cons, forall_eq_or_imp]
    grind

theorem distinct_norm (j : Json) : Distinct (norm j) := by
  induction j using induct with
  | harr l ih =>
    simp only [norm, Distinct, normList_eq, distinctList_iff]
    intro j hj
    obtain ⟨x, hx, rfl⟩ := List.mem_map.mp hj
    exact ih x hx
  | hobj m ih =>
    simp only [norm, Distinct, distinctMembers_iff]
    refine ⟨(normMembers_sorted m).imp fun {p q} h e => ?_, fun p hp => ?_⟩
    · rw [e] at h; exact String.lt_irrefl _ h
    · obtain ⟨v, h1, h2⟩ := mem_normMembers hp
      rw [h2]
      exact ih _ h1
  | _ => trivial

/-! ## Values of a key -/

theorem valuesOf_cons (k k' : String) (v : Json) (m : List (String × Json)) :
    valuesOf k ((k', v) :: m) = if k' = k then v :: valuesOf k m else valuesOf k m := by
  unfold valuesOf
  rw [List.filterMap_cons]
  by_cases h : k' = k
  · simp [h]
  · simp [h]

theorem valuesOf_nil {k : String} {m : List (String × Json)} (h : ∀ p ∈ m, p.1 ≠ k) : valuesOf k m = [] := by
  unfold valuesOf
  rw [List.filterMap_eq_nil_iff]
  intro p hp
  simp [h p hp]

theorem valuesOf_append (k : String) (m m' : List (String × Json)) : valuesOf k (m ++ m') = valuesOf k m ++ valuesOf k m' :=
  List.filterMap_append

theorem valuesOf_insertKey {k k' : String} {v : Json} {m : List (String × Json)} (h : ∀ p ∈ m, p.1 ≠ k') :
    valuesOf k (insertKey k' v m) = if k' = k then [v] else valuesOf k m := by
  induction m with
  | nil => simp [insertKey, valuesOf_cons, valuesOf_nil]
  | cons q m ih =>
    obtain ⟨l, w⟩ := q
    have hl : l ≠ k' := h (l, w) (by simp)
    have hm : ∀ p ∈ m, p.1 ≠ k' := fun p hp => h p (by simp [hp])
    have key : valuesOf k ((k', v) :: (l, w) :: m) = if k' = k then [v] else valuesOf k ((l, w) :: m) := by
      rw [valuesOf_cons]
      by_cases hk : k' = k
      · rw [if_pos hk, if_pos hk, valuesOf_nil (by subst hk; exact h)]
      · rw [if_neg hk, if_neg hk]
    rw [insertKey]
    split
    · exact key
    · rw [if_neg (Ne.symm hl), valuesOf_cons, ih hm, valuesOf_cons]
      by_cases hk : k' = k
      · subst hk; simp [hl]
      · simp [hk]

theorem valuesOf_normMembers {m : List (String × Json)} (h : DistinctMembers m) (k : String) :
    valuesOf k (normMembers m) = (valuesOf k m).map norm := by
  induction m with
  | nil => rfl
  | cons q m ih =>
    obtain ⟨k', v⟩ := q
    rw [DistinctMembers] at h
    rw [normMembers, valuesOf_insertKey, valuesOf_cons, ih h.2.2]
    · by_cases hk : k' = k
      · rw [if_pos hk, if_pos hk, valuesOf_nil (by subst hk; exact h.1)]; rfl
      · rw [if_neg hk, if_neg hk]
    · intro p hp
      obtain ⟨w, h1, -⟩ := mem_normMembers hp
      exact h.1 (p.1, w) h1

theorem valuesOf_distinct {m : List (String × Json)} (h : DistinctMembers m) (k : String) : ∀ v ∈ valuesOf k m, Distinct v := by
  intro v hv
  unfold valuesOf at hv
  obtain ⟨p, hp, e⟩ := List.mem_filterMap.mp hv
  have := ((distinctMembers_iff m).mp h).2 p hp
  split at e
  · cases e; exact this
  · cases e

/-! ## Reordering -/

theorem insertKey_comm {k l : String} (h : k ≠ l) (v w : Json) (m : List (String × Json)) :
    insertKey k v (insertKey l w m) = insertKey l w (insertKey k v m) := by
  have hkl : k < l ∨ l < k := by
    by_cases h' : k < l
    · exact .inl h'
    · exact .inr (str_total h' h)
  induction m with
  | nil =>
    simp only [insertKey]
    rcases hkl with h' | h'
    · rw [if_pos h', if_neg (String.lt_asymm h'), if_neg (Ne.symm h)]
    · rw [if_pos h', if_neg (String.lt_asymm h'), if_neg h]
  | cons q m ih =>
    obtain ⟨c, u⟩ := q
    simp only [insertKey]
    by_cases h1 : k < c
    · by_cases h2 : l < c
      · rw [if_pos h1, if_pos h2]
        simp only [insertKey, if_pos h1, if_pos h2]
        rcases hkl with h' | h'
        · rw [if_pos h', if_neg (String.lt_asymm h'), if_neg (Ne.symm h)]
        · rw [if_pos h', if_neg (String.lt_asymm h'), if_neg h]
      · by_cases h3 : l = c
        · subst h3
          rw [if_pos h1, if_neg h2, if_pos rfl]
          simp only [insertKey, if_pos h1]
          rw [if_neg (String.lt_asymm h1), if_neg (Ne.symm h), if_neg h2]
          simp
        · have h4 : k < l := String.lt_trans h1 (str_total h2 h3)
          rw [if_pos h1, if_neg h2, if_neg h3]
          simp only [insertKey, if_pos h1]
          rw [if_neg (String.lt_asymm h4), if_neg (Ne.symm h), if_neg h2, if_neg h3]
    · by_cases h1' : k = c
      · subst h1'
        rw [if_neg h1, if_pos rfl]
        by_cases h2 : l < k
        · rw [if_pos h2]
          simp only [insertKey]
          rw [if_neg (String.lt_asymm h2), if_neg h, if_neg h1, if_pos trivial, if_pos h2]
        · rw [if_neg h2, if_neg (Ne.symm h)]
          simp only [insertKey]
          rw [if_neg h1, if_pos trivial, if_neg h2, if_neg (Ne.symm h)]
      · rw [if_neg h1, if_neg h1']
        have hck := str_total h1 h1'
        by_cases h2 : l < c
        · have h4 : l < k := String.lt_trans h2 hck
          rw [if_pos h2]
          simp only [insertKey, if_pos h2]
          rw [if_neg (String.lt_asymm h4), if_neg h, if_neg h1, if_neg h1']
        · by_cases h3 : l = c
          · subst h3
            rw [if_neg h2, if_pos rfl]
            simp only [insertKey]
            rw [if_neg h1, if_neg h1', if_neg h2]
            simp
          · rw [if_neg h2, if_neg h3]
            simp only [insertKey]
            rw [if_neg h1, if_neg h1', if_neg h2, if_neg h3, ih]

/-- The keys are the same up to order. -/
theorem Reordered.keys {j j' : Json} (h : Reordered j j') : ∀ m m', j = .obj m → j' = .obj m' → ∀ k, (∃ p ∈ m', p.1 = k) → ∃ p ∈ m, p.1 = k := by
  induction h with
  | refl j => rintro m m' rfl e k; cases e; exact id
  | trans h1 h2 ih1 ih2 =>
    rintro m m'' rfl rfl k hk
    rename_i j'
    have : ∃ m', j' = .obj m' := by
      clear ih1 ih2 h2 hk
      generalize hj : Json.obj m = j at h1
      induction h1 generalizing m with
      | refl j => exact ⟨m, hj.symm⟩
      | trans _ _ i1 i2 => obtain ⟨m1, e⟩ := i1 m hj; exact i2 m1 e.symm
      | swap => exact ⟨_, rfl⟩
      | member => exact ⟨_, rfl⟩
      | element => cases hj
    obtain ⟨m', rfl⟩ := this
    exact ih1 m m' rfl rfl k (ih2 m' m'' rfl rfl k hk)
  | swap k l v w m h =>
    rintro m1 m2 e1 e2 x ⟨p, hp, rfl⟩
    cases e1; cases e2
    exact ⟨p, by simp only [List.mem_cons] at hp ⊢; grind, rfl⟩
  | @member k v v' m m' h1 h2 ih1 ih2 =>
    rintro m1 m2 e1 e2 x ⟨p, hp, rfl⟩
    cases e1; cases e2
    rcases List.mem_cons.mp hp with rfl | hp
    · exact ⟨(k, v), by simp, rfl⟩
    · obtain ⟨q, hq, e⟩ := ih2 m m' rfl rfl p.1 ⟨p, hp, rfl⟩
      exact ⟨q, by simp [hq], e⟩
  | element => rintro m m' e; cases e

theorem Reordered.norm_eq {j j' : Json} (h : Reordered j j') (hd : Distinct j) : Distinct j' ∧ norm j' = norm j := by
  induction h with
  | refl j => exact ⟨hd, rfl⟩
  | trans _ _ ih1 ih2 =>
    obtain ⟨h1, h2⟩ := ih1 hd
    obtain ⟨h3, h4⟩ := ih2 h1
    exact ⟨h3, h4.trans h2⟩
  | swap k l v w m h =>
    simp only [Distinct, DistinctMembers, norm, normMembers] at hd ⊢
    obtain ⟨h1, h2, h3, h4, h5⟩ := hd
    refine ⟨⟨?_, h4, ?_, h2, h5⟩, ?_⟩
    · intro p hp
      rcases List.mem_cons.mp hp with rfl | hp
      · exact h
      · exact h3 p hp
    · exact fun p hp => h1 p (by simp [hp])
    · rw [insertKey_comm h]
  | @member k v v' m m' h1 h2 ih1 ih2 =>
    simp only [Distinct, DistinctMembers, norm, normMembers] at hd ih1 ih2 ⊢
    obtain ⟨a1, a2, a3⟩ := hd
    obtain ⟨b1, b2⟩ := ih1 a2
    obtain ⟨c1, c2⟩ := ih2 a3
    refine ⟨⟨?_, b1, c1⟩, ?_⟩
    · intro p hp e
      obtain ⟨q, hq, e'⟩ := h2.keys m m' rfl rfl k ⟨p, hp, e⟩
      exact a1 q hq e'
    · rw [b2, Json.obj.inj c2]
  | @element v v' l l' h1 h2 ih1 ih2 =>
    simp only [Distinct, DistinctList, norm, normList] at hd ih1 ih2 ⊢
    obtain ⟨b1, b2⟩ := ih1 hd.1
    obtain ⟨c1, c2⟩ := ih2 hd.2
    exact ⟨⟨b1, c1⟩, by rw [b2, Json.arr.inj c2]⟩

end Json

/-! ## Reading derived structs -/

namespace Shape

/-- What one local variable is after the loop, given what it was before. -/
def Filled {α : Type} (f : JField α) (m : List (String × Json)) : Option α → Option α → Prop
  | some a, y => valuesOf f.name m = [] ∧ y = some a
  | none, none => valuesOf f.name m = []
  | none, some a => ∃ v, valuesOf f.name m = [v] ∧ f.type.de v = .ok a

/-- What the local variables are after the loop. -/
def Fills : {β : Type} → (s : Shape β) → List (String × Json) → s.Slots → s.Slots → Prop
  | _, .one f, m, x, y => Filled f m x y
  | _, .cons f s, m, x, y => Filled f m x.1 y.1 ∧ s.Fills m x.2 y.2

theorem filled_other {α : Type} {f : JField α} {k : String} {v : Json} {m : List (String × Json)} (h : k ≠ f.name) (x y : Option α) :
    Filled f ((k, v) :: m) x y ↔ Filled f m x y := by
  cases x <;> cases y <;> simp [Filled, Json.valuesOf_cons, h]

theorem filled_same {α : Type} {f : JField α} {v : Json} {m : List (String × Json)} (x y : Option α) :
    Filled f ((f.name, v) :: m) x y ↔ x = none ∧ ∃ a, f.type.de v = .ok a ∧ Filled f m (some a) y := by
  cases x <;> cases y <;> simp only [Filled, Json.valuesOf_cons, if_pos] <;> grind

theorem fills_other {β : Type} (s : Shape β) {k : String} {v : Json} {m : List (String × Json)} (h : k ∉ s.names) (x y : s.Slots) :
    s.Fills ((k, v) :: m) x y ↔ s.Fills m x y := by
  induction s with
  | one f => exact filled_other (by simpa [names] using h) x y
  | cons f s ih =>
    simp only [names, List.mem_cons, not_or] at h
    simp only [Fills, filled_other h.1, ih h.2]

theorem step_other {β : Type} (s : Shape β) {k : String} {v : Json} (h : k ∉ s.names) (x : s.Slots) : s.step x k v = .ok x := by
  induction s with
  | one f => exact if_neg (by simpa [names] using h)
  | cons f s ih =>
    simp only [names, List.mem_cons, not_or] at h
    simp only [step]
    rw [if_neg h.1, ih h.2]
    rfl

theorem put_ok {α : Type} (f : JField α) (x z : Option α) (v : Json) : f.put x v = .ok z ↔ x = none ∧ ∃ a, f.type.de v = .ok a ∧ z = some a := by
  cases x with
  | some a => simp [JField.put, Res.fail]
  | none => cases h : f.type.de v <;> simp [JField.put, h, eq_comm]

theorem step_one {α : Type} (f : JField α) {k : String} {v : Json} {m : List (String × Json)} (x y : Option α) :
    Filled f ((k, v) :: m) x y ↔ ∃ z, (if k = f.name then f.put x v else Res.ok x) = .ok z ∧ Filled f m z y := by
  by_cases h : k = f.name
  · subst h
    simp only [if_true, filled_same, put_ok]
    grind
  · simp only [if_neg h, filled_other h]
    exact ⟨fun h' => ⟨x, rfl, h'⟩, fun ⟨z, h1, h2⟩ => by cases h1; exact h2⟩

theorem step_cons {α β : Type} (f : JField α) (s : Shape β) (hn : f.name ∉ s.names) {k : String} {v : Json} {m : List (String × Json)}
    (ih : ∀ x y : s.Slots, s.Fills ((k, v) :: m) x y ↔ ∃ z, s.step x k v = .ok z ∧ s.Fills m z y)
    (x1 y1 : Option α) (x2 y2 : s.Slots) :
    (Filled f ((k, v) :: m) x1 y1 ∧ s.Fills ((k, v) :: m) x2 y2) ↔ ∃ z : Option α × s.Slots,
      (if k = f.name then do let a ← f.put x1 v; pure (a, x2) else do let y ← s.step x2 k v; pure (x1, y)) = Res.ok z ∧
        (Filled f m z.1 y1 ∧ s.Fills m z.2 y2) := by
  by_cases h : k = f.name
  · subst h
    rw [filled_same, fills_other s hn]
    constructor
    · rintro ⟨⟨rfl, a, h1, h2⟩, h3⟩
      exact ⟨(some a, x2), by simp [JField.put, h1], h2, h3⟩
    · rintro ⟨z, h1, h2, h3⟩
      rw [if_pos rfl] at h1
      cases h4 : f.put x1 v with
      | ok a =>
        rw [h4] at h1
        cases h1
        obtain ⟨h5, b, h6, h7⟩ := (put_ok f x1 a v).mp h4
        exact ⟨⟨h5, b, h6, h7 ▸ h2⟩, h3⟩
      | err e => rw [h4] at h1; cases h1
      | panic => rw [h4] at h1; cases h1
  · rw [if_neg h, filled_other h, ih]
    constructor
    · rintro ⟨h1, z, h2, h3⟩
      exact ⟨(x1, z), by simp [h2], h1, h3⟩
    · rintro ⟨z, h1, h2, h3⟩
      cases h4 : s.step x2 k v with
      | ok a => rw [h4] at h1; cases h1; exact ⟨h2, a, rfl, h3⟩
      | err e => rw [h4] at h1; cases h1
      | panic => rw [h4] at h1; cases h1

theorem step_fills {β : Type} (s : Shape β) (hn : s.names.Nodup) {k : String} {v : Json} {m : List (String × Json)} (x y : s.Slots) :
    s.Fills ((k, v) :: m) x y ↔ ∃ z, s.step x k v = .ok z ∧ s.Fills m z y := by
  induction s with
  | one f => exact step_one f x y
  | cons f s ih =>
    simp only [names, List.nodup_cons] at hn
    exact step_cons f s hn.1 (ih hn.2) x.1 y.1 x.2 y.2

theorem fills_nil {β : Type} (s : Shape β) (x y : s.Slots) : s.Fills [] x y ↔ y = x := by
  have one : ∀ {α : Type} (f : JField α) (x y : Option α), Filled f [] x y ↔ y = x := by
    intro α f x y
    cases x <;> cases y <;> simp [Filled, Json.valuesOf_nil]
  induction s with
  | one f => exact one f x y
  | cons f s ih =>
    simp only [Fills, one, ih]
    exact ⟨fun ⟨h1, h2⟩ => Prod.ext h1 h2, fun h => ⟨congrArg (·.1) h, congrArg (·.2) h⟩⟩

theorem run_iff {β : Type} (s : Shape β) (hn : s.names.Nodup) (m : List (String × Json)) (x y : s.Slots) :
    s.run x m = .ok y ↔ s.Fills m x y := by
  induction m generalizing x with
  | nil => rw [fills_nil, run]; exact ⟨fun h => by cases h; rfl, fun h => by rw [h]⟩
  | cons p m ih =>
    obtain ⟨k, v⟩ := p
    rw [run, step_fills s hn]
    cases h : s.step x k v with
    | ok z =>
      simp only [Res.ok_bind, ih]
      exact ⟨fun h => ⟨z, rfl, h⟩, fun ⟨z', h1, h2⟩ => by cases h1; exact h2⟩
    | err e => exact ⟨fun h => (by cases h), fun ⟨z, h1, _⟩ => (by cases h1)⟩
    | panic => exact ⟨fun h => (by cases h), fun ⟨z, h1, _⟩ => (by cases h1)⟩

theorem missing_iff {α : Type} (f : JField α) (a : α) : f.missing = .ok a ↔ ∃ skip, f.opt = some (a, skip) := by
  unfold JField.missing
  split
  · rename_i d skip h
    rw [h]
    constructor
    · intro e; cases e; exact ⟨skip, rfl⟩
    · rintro ⟨_, e⟩; cases e; rfl
  · rename_i h
    rw [h]
    exact ⟨fun e => (by cases e), fun ⟨_, e⟩ => (by cases e)⟩

theorem finish_one {α : Type} (f : JField α) (m : List (String × Json)) (a : α) :
    (∃ y, Filled f m none y ∧ f.get y = .ok a) ↔ f.Reads m a := by
  unfold JField.Reads
  constructor
  · rintro ⟨y, h1, h2⟩
    cases y with
    | none => exact .inr ⟨h1, (missing_iff f a).mp h2⟩
    | some b => cases h2; exact .inl h1
  · rintro (h | ⟨h1, h2⟩)
    · exact ⟨some a, h, rfl⟩
    · exact ⟨none, h1, (missing_iff f a).mpr h2⟩

theorem finish_cons {α β : Type} (f : JField α) (s : Shape β) (m : List (String × Json)) (x2 : s.Slots) (b1 : α) (b2 : β) :
    (∃ y : Option α × s.Slots, (Filled f m none y.1 ∧ s.Fills m x2 y.2) ∧ (do let a ← f.get y.1; let b ← s.finish y.2; pure (a, b)) = Res.ok (b1, b2)) ↔
    f.Reads m b1 ∧ ∃ y, s.Fills m x2 y ∧ s.finish y = .ok b2 := by
  rw [← finish_one]
  constructor
  · rintro ⟨⟨y1, y2⟩, ⟨h1, h2⟩, h3⟩
    simp only at h1 h2 h3
    cases hx : f.get y1 with
    | ok a =>
      cases hy : s.finish y2 with
      | ok b => rw [hx, hy] at h3; cases h3; exact ⟨⟨y1, h1, hx⟩, y2, h2, hy⟩
      | err e => rw [hx, hy] at h3; cases h3
      | panic => rw [hx, hy] at h3; cases h3
    | err e => rw [hx] at h3; cases h3
    | panic => rw [hx] at h3; cases h3
  · rintro ⟨⟨y1, h1, h2⟩, y2, h3, h4⟩
    exact ⟨(y1, y2), ⟨h1, h3⟩, by simp [h2, h4]⟩

theorem finish_reads {β : Type} (s : Shape β) (m : List (String × Json)) (b : β) :
    (∃ y, s.Fills m s.start y ∧ s.finish y = .ok b) ↔ s.Reads m b := by
  induction s with
  | one f => exact finish_one f m b
  | cons f s ih =>
    obtain ⟨b1, b2⟩ := b
    simp only [Reads, ← ih]
    exact finish_cons f s m s.start b1 b2

theorem de_obj {β : Type} (s : Shape β) (hn : s.names.Nodup) (m : List (String × Json)) (b : β) :
    s.de (.obj m) = .ok b ↔ s.Reads m b := by
  rw [← finish_reads, de]
  constructor
  · intro h
    cases hr : s.run s.start m with
    | ok y => rw [hr] at h; exact ⟨y, (run_iff s hn m _ _).mp hr, h⟩
    | err e => rw [hr] at h; cases h
    | panic => rw [hr] at h; cases h
  · rintro ⟨y, h1, h2⟩
    rw [(run_iff s hn m _ _).mpr h1]
    exact h2

theorem de_arr {β : Type} (s : Shape β) (l : List Json) (b : β) : s.de (.arr l) = .ok b ↔ s.ReadsSeq l b := by
  rw [de]
  induction s generalizing l with
  | one f =>
    cases l with
    | nil => simp [seq, ReadsSeq, JField.ReadsAt, missing_iff]
    | cons j l =>
      simp only [seq, ReadsSeq, JField.ReadsAt, List.head?_cons, List.length_cons]
      cases hd : f.type.de j with
      | ok a =>
        cases l with
        | nil => simp
        | cons j' l => simp [Res.fail]
      | err e => simp
      | panic => simp
  | cons f s ih =>
    obtain ⟨b1, b2⟩ := b
    cases l with
    | nil =>
      simp only [seq, ReadsSeq, JField.ReadsAt, List.head?_nil, List.tail_nil, ← missing_iff, ← ih]
      cases f.missing with
      | ok a => cases s.seq [] <;> simp
      | err e => simp
      | panic => simp
    | cons j l =>
      simp only [seq, ReadsSeq, JField.ReadsAt, List.head?_cons, List.tail_cons, ← ih]
      cases f.type.de j with
      | ok a => cases s.seq l <;> simp
      | err e => simp
      | panic => simp

end Shape

/-! ## Round trips -/

/-- `a` is written to a document without repeated keys, and every document without repeated keys with the same canonical form is read as `a`. -/
def Serde.Gives {α : Type} (s : Serde α) (a : α) : Prop :=
  ∃ j, s.ser a = .ok j ∧ j.Distinct ∧ ∀ j', j'.Distinct → j'.norm = j.norm → s.de j' = .ok a

theorem Serde.Gives.reordered {α : Type} {s : Serde α} {a : α} (h : s.Gives a) :
    ∃ j, s.ser a = .ok j ∧ ∀ j', j.Reordered j' → s.de j' = .ok a := by
  obtain ⟨j, h1, h2, h3⟩ := h
  exact ⟨j, h1, fun j' hr => h3 j' (hr.norm_eq h2).1 (hr.norm_eq h2).2⟩

theorem Json.norm_str {j : Json} {s : String} (h : j.norm = .str s) : j = .str s := by
  cases j <;> simp only [Json.norm] at h <;> first | exact h | cases h

theorem Json.norm_nat {j : Json} {n : U64} (h : j.norm = .nat n) : j = .nat n := by
  cases j <;> simp only [Json.norm] at h <;> first | exact h | cases h

theorem Json.norm_bool {j : Json} {n : Bool} (h : j.norm = .bool n) : j = .bool n := by
  cases j <;> simp only [Json.norm] at h <;> first | exact h | cases h

theorem Json.norm_null {j : Json} (h : j.norm = .null) : j = .null := by
  cases j <;> first | rfl | (simp only [Json.norm] at h; cases h)

theorem Json.norm_arr {j : Json} {l : List Json} (h : j.norm = .arr l) : ∃ l', j = .arr l' ∧ l'.map norm = l := by
  cases j <;> simp only [Json.norm] at h <;>
    first | exact ⟨_, rfl, (Json.normList_eq _).symm.trans (Json.arr.inj h)⟩ | cases h

theorem Json.norm_obj {j : Json} {m : List (String × Json)} (h : j.norm = .obj m) : ∃ m', j = .obj m' ∧ normMembers m' = m := by
  cases j <;> simp only [Json.norm] at h <;> first | exact ⟨_, rfl, Json.obj.inj h⟩ | cases h

namespace Serde

theorem gives_text {α : Type} {write : α → Res String} {read : String → Res α} {a : α} {t : String} (h : write a = .ok t) (h' : read t = .ok a) :
    (text write read).Gives a := by
  refine ⟨.str t, by simp [text, h], trivial, fun j' _ e => ?_⟩
  rw [Json.norm_str e]
  exact h'

theorem gives_u64 (x : U64) : u64.Gives x := ⟨.nat x, rfl, trivial, fun j' _ e => by rw [Json.norm_nat e]; rfl⟩

theorem gives_u8 (x : UInt8) : u8.Gives x := by
  refine ⟨.nat _, rfl, trivial, fun j' _ e => ?_⟩
  rw [Json.norm_nat e]
  have : (BitVec.ofNat 64 x.toNat).toNat = x.toNat := by
    rw [BitVec.toNat_ofNat, Nat.mod_eq_of_lt (Nat.lt_trans x.toNat_lt (by decide))]
  simp only [u8, this]
  rw [if_pos x.toNat_lt, UInt8.ofNat_toNat]

theorem gives_bool (x : Bool) : bool.Gives x := ⟨.bool x, rfl, trivial, fun j' _ e => by rw [Json.norm_bool e]; rfl⟩

theorem gives_string (x : String) : string.Gives x := gives_text rfl rfl

theorem gives_each {α : Type} {s : Serde α} {l : List α} (h : ∀ a ∈ l, s.Gives a) : ∃ js, each s.ser l = .ok js ∧ (∀ j ∈ js, j.Distinct) ∧
    ∀ js', (∀ j ∈ js', j.Distinct) → js'.map Json.norm = js.map Json.norm → each s.de js' = .ok l := by
  induction l with
  | nil =>
    refine ⟨[], rfl, by simp, fun js' _ e => ?_⟩
    cases js' with
    | nil => rfl
    | cons => cases e
  | cons a l ih =>
    obtain ⟨js, h1, h2, h3⟩ := ih fun b hb => h b (by simp [hb])
    obtain ⟨j, h4, h5, h6⟩ := h a (by simp)
    refine ⟨j :: js, by simp [each, h1, h4], ?_, fun js' hd e => ?_⟩
    · intro x hx
      rcases List.mem_cons.mp hx with rfl | hx
      · exact h5
      · exact h2 x hx
    · cases js' with
      | nil => cases e
      | cons j' js' =>
        simp only [List.map_cons, List.cons.injEq] at e
        simp [each, h6 j' (hd j' (by simp)) e.1, h3 js' (fun x hx => hd x (by simp [hx])) e.2]

theorem gives_list {α : Type} {s : Serde α} {l : List α} (h : ∀ a ∈ l, s.Gives a) : (list s).Gives l := by
  obtain ⟨js, h1, h2, h3⟩ := gives_each h
  refine ⟨.arr js, by simp [list, h1], (Json.distinctList_iff js).mpr h2, fun j' hd e => ?_⟩
  simp only [Json.norm, Json.normList_eq] at e
  obtain ⟨l', rfl, e'⟩ := Json.norm_arr e
  exact h3 l' ((Json.distinctList_iff l').mp hd) e'

theorem gives_option {α : Type} {s : Serde α} {o : Option α} (h : ∀ a ∈ o, s.Gives a) (hn : ∀ a ∈ o, s.ser a ≠ .ok .null) : (option s).Gives o := by
  cases o with
  | none => exact ⟨.null, rfl, trivial, fun j' _ e => by rw [Json.norm_null e]; rfl⟩
  | some a =>
    obtain ⟨j, h1, h2, h3⟩ := h a rfl
    refine ⟨j, h1, h2, fun j' hd e => ?_⟩
    have := h3 j' hd e
    have hj : j' ≠ .null := by
      rintro rfl
      simp only [Json.norm] at e
      rw [Json.norm_null e.symm] at h1
      exact hn a rfl h1
    cases j' <;> first | exact absurd rfl hj | simp [option, this]

end Serde

/-- What is skipped is the default. -/
def JField.Ok {α : Type} (f : JField α) : Prop := ∀ d skip a, f.opt = some (d, skip) → skip a = true → d = a

/-- All fields are consistent and round trip. -/
def Shape.Gives : {β : Type} → Shape β → β → Prop
  | _, .one f, a => f.Ok ∧ f.type.Gives a
  | _, .cons f s, p => (f.Ok ∧ f.type.Gives p.1) ∧ s.Gives p.2

theorem JField.ok_req {α : Type} (n : String) (t : Serde α) : (JField.req n t).Ok := by intro d skip a h; cases h
theorem JField.ok_vec {α : Type} (n : String) (t : Serde (List α)) : (JField.vec n t).Ok := by
  intro d skip a h h'
  cases h
  exact (List.isEmpty_iff.mp h').symm
theorem JField.ok_opt {α : Type} (n : String) (t : Serde (Option α)) : (JField.opt? n t).Ok := by
  intro d skip a h h'
  cases h
  exact (Option.isNone_iff_eq_none.mp h').symm

/-- The members of `m'` for the key are those of `m`, up to form. -/
def SameAt (m m' : List (String × Json)) (k : String) : Prop :=
  (∀ j ∈ valuesOf k m', j.Distinct) ∧ (valuesOf k m').map Json.norm = (valuesOf k m).map Json.norm

theorem JField.gives {α : Type} {f : JField α} {a : α} (ho : f.Ok) (h : f.type.Gives a) :
    ∃ m, f.ser a = .ok m ∧ (∀ p ∈ m, p.1 = f.name) ∧ Json.DistinctMembers m ∧ ∀ m', SameAt m m' f.name → f.Reads m' a := by
  obtain ⟨j, h1, h2, h3⟩ := h
  have main : ∃ m, (do let j ← f.type.ser a; pure [(f.name, j)] : Res (List (String × Json))) = .ok m ∧ (∀ p ∈ m, p.1 = f.name) ∧
      Json.DistinctMembers m ∧ ∀ m', SameAt m m' f.name → f.Reads m' a := by
    refine ⟨[(f.name, j)], by simp [h1], by simp, by simp [Json.DistinctMembers, h2], fun m' hs => ?_⟩
    obtain ⟨hd, hs⟩ := hs
    rw [Json.valuesOf_cons, if_pos rfl, Json.valuesOf_nil (m := []) (by simp)] at hs
    cases hv : valuesOf f.name m' with
    | nil => rw [hv] at hs; cases hs
    | cons v r =>
      rw [hv] at hs hd
      simp only [List.map_cons, List.map_nil, List.cons.injEq, List.map_eq_nil_iff] at hs
      obtain ⟨hs, rfl⟩ := hs
      exact .inl ⟨v, hv, h3 v (hd v (by simp)) hs⟩
  unfold JField.ser
  split
  · rename_i d skip ho'
    by_cases hsk : skip a = true
    · rw [if_pos hsk]
      refine ⟨[], rfl, by simp, trivial, fun m' hs => .inr ⟨?_, skip, ?_⟩⟩
      · have := hs.2
        rw [Json.valuesOf_nil (m := []) (by simp)] at this
        simpa using this
      · rw [ho', ho d skip a ho' hsk]
    · rw [if_neg hsk]
      exact main
  · exact main

theorem Shape.gives {β : Type} {s : Shape β} (hn : s.names.Nodup) {b : β} (h : s.Gives b) :
    ∃ m, s.ser b = .ok m ∧ (∀ p ∈ m, p.1 ∈ s.names) ∧ Json.DistinctMembers m ∧ ∀ m', (∀ k ∈ s.names, SameAt m m' k) → s.Reads m' b := by
  induction s with
  | one f =>
    obtain ⟨m, h1, h2, h3, h4⟩ := JField.gives h.1 h.2
    exact ⟨m, h1, fun p hp => by simp [names, h2 p hp], h3, fun m' hs => h4 m' (hs _ (by simp [names]))⟩
  | cons f s ih =>
    obtain ⟨b1, b2⟩ := b
    simp only [names, List.nodup_cons] at hn
    obtain ⟨m1, h1, h2, h3, h4⟩ := JField.gives h.1.1 h.1.2
    obtain ⟨m2, g1, g2, g3, g4⟩ := ih hn.2 h.2
    simp only at h1
    refine ⟨m1 ++ m2, by simp [ser, h1, g1], ?_, ?_, fun m' hs => ⟨h4 m' ?_, g4 m' fun k hk => ?_⟩⟩
    · intro p hp
      rcases List.mem_append.mp hp with hp | hp
      · simp [names, h2 p hp]
      · simp [names, g2 p hp]
    · rw [Json.distinctMembers_iff] at h3 g3 ⊢
      refine ⟨List.pairwise_append.mpr ⟨h3.1, g3.1, fun p hp q hq e => ?_⟩, fun p hp => ?_⟩
      · rw [h2 p hp] at e
        exact hn.1 (e ▸ g2 q hq)
      · rcases List.mem_append.mp hp with hp | hp
        · exact h3.2 p hp
        · exact g3.2 p hp
    · have := hs f.name (by simp [names])
      unfold SameAt at this ⊢
      rw [Json.valuesOf_append, Json.valuesOf_nil (m := m2), List.append_nil] at this
      · exact this
      · exact fun p hp e => hn.1 (e ▸ g2 p hp)
    · have := hs k (by simp [names, hk])
      unfold SameAt at this ⊢
      rw [Json.valuesOf_append, Json.valuesOf_nil (m := m1), List.nil_append] at this
      · exact this
      · exact fun p hp e => hn.1 (by rw [← h2 p hp, e]; exact hk)

theorem sameAt_norm {m m' : List (String × Json)} (hd : Json.DistinctMembers m) (hd' : Json.DistinctMembers m')
    (h : Json.normMembers m' = Json.normMembers m) (k : String) : SameAt m m' k := by
  refine ⟨Json.valuesOf_distinct hd' k, ?_⟩
  rw [← Json.valuesOf_normMembers hd', ← Json.valuesOf_normMembers hd, h]

theorem Serde.gives_record {α β : Type} {s : Shape β} {fields : α → β} {build : β → α} {a : α} (hn : s.names.Nodup) (hb : build (fields a) = a)
    (h : s.Gives (fields a)) : (Serde.record s fields build).Gives a := by
  obtain ⟨m, h1, h2, h3, h4⟩ := Shape.gives hn h
  refine ⟨.obj m, by simp [record, h1], h3, fun j' hd e => ?_⟩
  simp only [Json.norm] at e
  obtain ⟨m', rfl, e'⟩ := Json.norm_obj e
  have := (Shape.de_obj s hn m' (fields a)).mpr (h4 m' fun k _ => sameAt_norm h3 hd e' k)
  simp [record, this, hb]

end Verif
