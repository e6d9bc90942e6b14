import Verif.Spec.Merkle
import Verif.Lemmas.Consensus

/-!
# The accumulator

The proofs are done for a loop in which the second argument of `sum_node` is chosen by `sel` from the new leaf and the
running node; the code is the choice of the leaf.
-/

namespace Verif

/-- The common generalisation of `IsMerkleRoot` and `IsAccumulatorRoot`. -/
inductive IsRoot (sel : Hash256 → Hash256 → Hash256) (H : Hasher) : List Hash256 → Hash256 → Prop
  | leaf (x : Hash256) : IsRoot sel H [x] x
  | node (j : Nat) (l r : List Hash256) (a b : Hash256) : l.length = 2 ^ j → 0 < r.length → r.length < 2 ^ j →
      IsRoot sel H l a → IsRoot sel H r b → IsRoot sel H (l ++ r) (sumNode H a b)
  | full (j : Nat) (l r : List Hash256) (a x b : Hash256) : l.length = 2 ^ j → r.length + 1 = 2 ^ j →
      IsRoot sel H l a → IsRoot sel H (r ++ [x]) b → IsRoot sel H (l ++ (r ++ [x])) (sumNode H a (sel x b))

namespace Accumulator

variable {sel : Hash256 → Hash256 → Hash256} {H : Hasher}

theorem addLoop_eq (a : Accumulator) (h : Hash256) :
    ∀ fuel i node, addLoop H a h fuel i node = addLoopWith (fun x _ => x) H a h fuel i node := by
  intro fuel
  induction fuel with
  | zero => intros; rfl
  | succ n ih =>
    intro i node
    simp only [addLoop, addLoopWith, ih]
    rfl

theorem addLeaf_eq (a : Accumulator) (h : Hash256) : a.addLeaf H h = a.addLeafWith (fun x _ => x) H h := by
  rw [addLeaf, addLeafWith, addLoop_eq]
  rfl

theorem addLeaves_eq (a : Accumulator) (l : List Hash256) : a.addLeaves H l = a.addLeavesWith (fun x _ => x) H l := by
  induction l generalizing a with
  | nil => rfl
  | cons h l ih => simp only [addLeaves, addLeavesWith, addLeaf_eq, ih]

/-- The leaves below the tree at height `i`. -/
def seg (l : List Hash256) (i : Nat) : List Hash256 := (l.drop (l.length / 2 ^ (i + 1) * 2 ^ (i + 1))).take (2 ^ i)

/-- The accumulator represents the leaves `l`. -/
structure Good (sel : Hash256 → Hash256 → Hash256) (H : Hasher) (l : List Hash256) (a : Accumulator) : Prop where
  count : a.numLeaves.toNat = l.length
  trees : ∀ i t, a.trees.1[i]? = some t → l.length.testBit i = true → IsRoot sel H (seg l i) t

theorem testBit_iff (n i : Nat) : n.testBit i = true ↔ n / 2 ^ i % 2 = 1 := by
  rw [Nat.testBit_eq_decide_div_mod_eq]; simp

theorem mod_succ (n i : Nat) : n % 2 ^ (i + 1) = n % 2 ^ i + 2 ^ i * (n / 2 ^ i % 2) := Nat.mod_pow_succ

theorem mod_of_set {n i : Nat} (h : n.testBit i = true) : n % 2 ^ (i + 1) = n % 2 ^ i + 2 ^ i := by
  rw [mod_succ, (testBit_iff n i).mp h, Nat.mul_one]

theorem mod_of_clear {n i : Nat} (h : n.testBit i = false) : n % 2 ^ (i + 1) = n % 2 ^ i := by
  have : n / 2 ^ i % 2 ≠ 1 := fun e => by rw [(testBit_iff n i).mpr e] at h; cases h
  have : n / 2 ^ i % 2 = 0 := by omega
  rw [mod_succ, this]
  rfl

theorem base_eq (n m : Nat) : n / m * m = n - n % m := by
  have := Nat.div_add_mod n m
  rw [Nat.mul_comm] at this
  omega

theorem good_new : Good sel H [] new := ⟨rfl, fun i t _ h => by simp at h⟩

/-- One list split as in the `full` step. -/
theorem drop_split (l : List Hash256) (h : Hash256) (P : Nat) (hP : 0 < P) (hl : 2 * P ≤ l.length + 1) :
    (l ++ [h]).drop (l.length + 1 - 2 * P) =
      (l.drop (l.length + 1 - 2 * P)).take P ++ (l.drop (l.length + 1 - P) ++ [h]) := by
  rw [List.drop_append_of_le_length (by omega)]
  conv => lhs; rw [← List.take_append_drop P (l.drop (l.length + 1 - 2 * P))]
  rw [List.append_assoc, List.drop_drop]
  congr 3
  omega

theorem loop_step (l : List Hash256) (a : Accumulator) (h : Hash256) (g : Good sel H l a) (hn : l.length + 1 < 2 ^ 64) :
    ∀ fuel i node, fuel + i = 64 → l.length % 2 ^ i + 1 = 2 ^ i →
      IsRoot sel H (l.drop (l.length + 1 - 2 ^ i) ++ [h]) node →
      ∃ j node', addLoopWith sel H a h fuel i node = some (j, node') ∧ j < 64 ∧ l.length.testBit j = false ∧
        l.length % 2 ^ j + 1 = 2 ^ j ∧ IsRoot sel H (l.drop (l.length + 1 - 2 ^ j) ++ [h]) node' := by
  intro fuel
  induction fuel with
  | zero =>
    intro i node hi hm _
    have : i = 64 := by omega
    subst this
    rw [Nat.mod_eq_of_lt (by omega)] at hm
    omega
  | succ fuel ih =>
    intro i node hi hm hr
    rw [addLoopWith, hasTreeAtHeight_eq, g.count]
    cases hb : l.length.testBit i with
    | false =>
      rw [if_neg (by simp)]
      exact ⟨i, node, rfl, by omega, hb, hm, hr⟩
    | true =>
      rw [if_pos rfl]
      have hlt : i < a.trees.1.length := by rw [a.trees.2]; omega
      rw [List.getElem?_eq_getElem hlt]
      have hm' := mod_of_set hb
      have hpow : 2 ^ (i + 1) = 2 * 2 ^ i := by rw [Nat.pow_succ, Nat.mul_comm]
      have hle := Nat.mod_le l.length (2 ^ (i + 1))
      have hP : 0 < 2 ^ i := Nat.two_pow_pos i
      apply ih (i + 1) _ (by omega) (by omega)
      have hs := g.trees i _ (List.getElem?_eq_getElem hlt) hb
      have hseg : seg l i = (l.drop (l.length + 1 - 2 * 2 ^ i)).take (2 ^ i) := by
        rw [seg, base_eq, hm']
        congr 2
        omega
      rw [hseg] at hs
      have hd : l.drop (l.length + 1 - 2 ^ (i + 1)) ++ [h] =
          (l.drop (l.length + 1 - 2 * 2 ^ i)).take (2 ^ i) ++ (l.drop (l.length + 1 - 2 ^ i) ++ [h]) := by
        rw [← drop_split l h (2 ^ i) hP (by omega), hpow, List.drop_append_of_le_length (by omega)]
      rw [hd]
      exact .full i _ _ _ h _ (by rw [List.length_take, List.length_drop]; omega)
        (by rw [List.length_drop]; omega) hs hr

theorem addLeafWith_good (l : List Hash256) (a : Accumulator) (h : Hash256) (g : Good sel H l a) (hn : l.length + 1 < 2 ^ 64) :
    ∃ a', a.addLeafWith sel H h = .ok a' ∧ Good sel H (l ++ [h]) a' := by
  obtain ⟨j, node, he, hj, hb, hm, hr⟩ := loop_step l a h g hn 64 0 h rfl (by simp [Nat.mod_one])
    (by simpa using IsRoot.leaf h)
  refine ⟨⟨a.trees.set j node, a.numLeaves + 1⟩, by rw [addLeafWith, he], ?_, ?_⟩
  · show (a.numLeaves + 1).toNat = _
    have h1 : (1 : U64).toNat = 1 := rfl
    rw [BitVec.toNat_add, g.count, List.length_append, List.length_singleton, h1]
    exact Nat.mod_eq_of_lt hn
  · intro i t ht hbit
    rw [List.length_append, List.length_singleton] at hbit
    have hmj := mod_of_clear hb
    have hpow : 2 ^ (j + 1) = 2 * 2 ^ j := by rw [Nat.pow_succ, Nat.mul_comm]
    have hPj : 0 < 2 ^ j := Nat.two_pow_pos j
    have hmle := Nat.mod_le l.length (2 ^ j)
    have hdiv : (l.length + 1) / 2 ^ (j + 1) = l.length / 2 ^ (j + 1) := by
      have h1 := Nat.div_add_mod l.length (2 ^ (j + 1))
      have : l.length + 1 = 2 ^ (j + 1) * (l.length / 2 ^ (j + 1)) + 2 ^ j := by omega
      rw [this, Nat.mul_add_div (by omega), Nat.div_eq_of_lt (show 2 ^ j < 2 ^ (j + 1) by omega), Nat.add_zero]
    have hmod : (l.length + 1) % 2 ^ (j + 1) = 2 ^ j := by
      have h1 := Nat.div_add_mod (l.length + 1) (2 ^ (j + 1))
      have h2 := Nat.div_add_mod l.length (2 ^ (j + 1))
      rw [hdiv] at h1
      omega
    change (a.trees.1.set j node)[i]? = some t at ht
    rcases Nat.lt_trichotomy i j with hij | hij | hij
    · exfalso
      have hz : (l.length + 1) % 2 ^ j = 0 := by
        have := mod_succ (l.length + 1) j
        rcases Nat.mod_two_eq_zero_or_one ((l.length + 1) / 2 ^ j) with e | e
        · rw [e, Nat.mul_zero, hmod] at this
          have := Nat.mod_lt (l.length + 1) hPj
          omega
        · rw [e, hmod] at this; omega
      have : ((l.length + 1) % 2 ^ j).testBit i = (l.length + 1).testBit i := by
        rw [Nat.testBit_mod_two_pow]; simp [hij]
      rw [hz, hbit] at this
      simp at this
    · subst hij
      rw [List.getElem?_set_self (by rw [a.trees.2]; omega)] at ht
      cases ht
      have : seg (l ++ [h]) i = l.drop (l.length + 1 - 2 ^ i) ++ [h] := by
        rw [seg, base_eq, List.length_append, List.length_singleton, hmod, List.drop_append_of_le_length (by omega)]
        apply List.take_of_length_le
        rw [List.length_append, List.length_drop, List.length_singleton]
        omega
      rw [this]
      exact hr
    · rw [List.getElem?_set_ne (by omega)] at ht
      have hup : ∀ k, j < k → (l.length + 1) / 2 ^ k = l.length / 2 ^ k := by
        intro k hk
        have : 2 ^ k = 2 ^ (j + 1) * 2 ^ (k - (j + 1)) := by rw [← Nat.pow_add]; congr 1; omega
        rw [this, ← Nat.div_div_eq_div_mul, ← Nat.div_div_eq_div_mul, hdiv]
      have hbit' : l.length.testBit i = true := by
        rw [testBit_iff] at hbit ⊢
        rw [← hup i hij]; exact hbit
      have := g.trees i t ht hbit'
      have hseg : seg (l ++ [h]) i = seg l i := by
        rw [seg, seg, List.length_append, List.length_singleton, hup (i + 1) (by omega), base_eq]
        have h1 := mod_of_set hbit'
        have h2 := Nat.mod_le l.length (2 ^ (i + 1))
        rw [List.drop_append_of_le_length (by omega), List.take_append_of_le_length (by rw [List.length_drop]; omega)]
      rw [hseg]; exact this

theorem addLeavesWith_good (m : List Hash256) : ∀ (l : List Hash256) (a : Accumulator), Good sel H l a →
    (l ++ m).length < 2 ^ 64 → ∃ a', a.addLeavesWith sel H m = .ok a' ∧ Good sel H (l ++ m) a' := by
  induction m with
  | nil => intro l a g _; exact ⟨a, rfl, by simpa using g⟩
  | cons h m ih =>
    intro l a g hl
    rw [List.length_append, List.length_cons] at hl
    obtain ⟨a', h1, h2⟩ := addLeafWith_good l a h g (by omega)
    obtain ⟨a'', h3, h4⟩ := ih (l ++ [h]) a' h2 (by simp; omega)
    refine ⟨a'', ?_, by simpa using h4⟩
    rw [addLeavesWith, h1]
    exact h3

/-! ### The root -/

theorem rootLoop_good (l : List Hash256) (a : Accumulator) (g : Good sel H l a) (hl : l.length < 2 ^ 64) :
    ∀ (ts : List Hash256) (j : Nat) (root : Hash256), ts = a.trees.1.drop j → j ≤ 64 → 0 < l.length % 2 ^ j →
      IsRoot sel H (l.drop (l.length / 2 ^ j * 2 ^ j)) root → IsRoot sel H l (rootLoop H a.numLeaves j ts root) := by
  intro ts
  induction ts with
  | nil =>
    intro j root hts hj _ hr
    have : j = 64 := by
      have := congrArg List.length hts
      rw [List.length_drop, a.trees.2] at this
      simp at this
      omega
    subst this
    rw [Nat.div_eq_of_lt hl] at hr
    simpa [rootLoop] using hr
  | cons t ts ih =>
    intro j root hts hj hpos hr
    have hlen := congrArg List.length hts
    rw [List.length_drop, a.trees.2, List.length_cons] at hlen
    have ht : a.trees.1[j]? = some t := by
      have := congrArg (·[0]?) hts
      simpa using this.symm
    have hts' : ts = a.trees.1.drop (j + 1) := by
      have := congrArg (List.drop 1) hts
      simpa [List.drop_drop] using this
    rw [rootLoop, hasTreeAtHeight_eq, g.count]
    have hpow : 2 ^ (j + 1) = 2 * 2 ^ j := by rw [Nat.pow_succ, Nat.mul_comm]
    have hPj : 0 < 2 ^ j := Nat.two_pow_pos j
    have hml := Nat.mod_lt l.length hPj
    cases hb : l.length.testBit j with
    | false =>
      have hm := mod_of_clear hb
      rw [if_neg (by simp)]
      apply ih (j + 1) root hts' (by omega) (by omega)
      rw [base_eq, hm, ← base_eq]
      exact hr
    | true =>
      have hm := mod_of_set hb
      have hmle := Nat.mod_le l.length (2 ^ (j + 1))
      rw [if_pos rfl]
      apply ih (j + 1) _ hts' (by omega) (by omega)
      have hs := g.trees j t ht hb
      rw [base_eq, hm]
      rw [seg, base_eq, hm] at hs
      rw [base_eq] at hr
      have : l.drop (l.length - (l.length % 2 ^ j + 2 ^ j)) =
          (l.drop (l.length - (l.length % 2 ^ j + 2 ^ j))).take (2 ^ j) ++ l.drop (l.length - l.length % 2 ^ j) := by
        conv => lhs; rw [← List.take_append_drop (2 ^ j) (l.drop (l.length - (l.length % 2 ^ j + 2 ^ j)))]
        rw [List.drop_drop]
        congr 2
        omega
      rw [this]
      exact .node j _ _ _ _ (by rw [List.length_take, List.length_drop]; omega)
        (by rw [List.length_drop]; omega) (by rw [List.length_drop]; omega) hs hr

theorem trailingZeros_spec (x : U64) (h : x.toNat ≠ 0) :
    trailingZeros x < 64 ∧ x.toNat.testBit (trailingZeros x) = true ∧ x.toNat % 2 ^ trailingZeros x = 0 := by
  unfold trailingZeros
  cases hf : (List.range 64).find? fun i => x.toNat.testBit i with
  | none =>
    exfalso
    apply h
    apply Nat.eq_of_testBit_eq
    intro i
    rw [Nat.zero_testBit]
    by_cases hi : i < 64
    · have := List.find?_eq_none.mp hf i (by simpa using hi)
      simpa using this
    · exact Nat.testBit_lt_two_pow (Nat.lt_of_lt_of_le x.isLt (Nat.pow_le_pow_right (by decide) (by omega)))
  | some i =>
    rw [List.find?_range_eq_some] at hf
    obtain ⟨h1, h2, h3⟩ := hf
    refine ⟨by simpa using h2, h1, ?_⟩
    apply Nat.eq_of_testBit_eq
    intro k
    rw [Nat.testBit_mod_two_pow, Nat.zero_testBit]
    by_cases hk : k < i
    · have := h3 k hk
      simpa [hk] using this
    · simp; omega

theorem root_good (l : List Hash256) (a : Accumulator) (g : Good sel H l a) (hl : l.length < 2 ^ 64) (hne : l ≠ []) :
    IsRoot sel H l (a.root H) := by
  have hpos : 0 < l.length := List.length_pos_iff.mpr hne
  obtain ⟨h1, h2, h3⟩ := trailingZeros_spec a.numLeaves (by rw [g.count]; omega)
  rw [g.count] at h2 h3
  unfold root
  have hlt : trailingZeros a.numLeaves < a.trees.1.length := by rw [a.trees.2]; exact h1
  simp only [List.getElem?_eq_getElem hlt]
  have hm := mod_of_set h2
  have hP : 0 < 2 ^ trailingZeros a.numLeaves := Nat.two_pow_pos _
  apply rootLoop_good l a g hl _ _ _ rfl (by omega) (by omega)
  have hs := g.trees _ _ (List.getElem?_eq_getElem hlt) h2
  rw [seg] at hs
  have hmle := Nat.mod_le l.length (2 ^ (trailingZeros a.numLeaves + 1))
  rw [base_eq] at hs ⊢
  rw [List.take_of_length_le (by rw [List.length_drop]; omega)] at hs
  exact hs

theorem root_empty (a : Accumulator) (h : a.numLeaves = 0) : a.root H = Arr.zero 32 := by
  unfold root
  rw [h]
  have : trailingZeros (0 : U64) = 64 := by decide
  simp only [this]
  rw [List.getElem?_eq_none (by rw [a.trees.2]; exact Nat.le_refl _)]

/-! ### Panics -/

theorem addLeaf_full (a : Accumulator) (h : Hash256) (hf : a.numLeaves.toNat = 2 ^ 64 - 1) : a.addLeaf H h = .panic := by
  rw [addLeaf_eq, addLeafWith]
  have : ∀ fuel i node, fuel + i = 64 → addLoopWith (fun x _ => x) H a h fuel i node = none := by
    intro fuel
    induction fuel with
    | zero => intros; rfl
    | succ n ih =>
      intro i node hi
      have hlt : i < a.trees.1.length := by rw [a.trees.2]; omega
      have hb : (2 ^ 64 - 1).testBit i = true := by
        rw [Nat.testBit_two_pow_sub_one]; simp; omega
      rw [addLoopWith, hasTreeAtHeight_eq, hf, hb, if_pos rfl, List.getElem?_eq_getElem hlt]
      exact ih (i + 1) _ (by omega)
  rw [this 64 0 h rfl]

theorem addLoopWith_some (a : Accumulator) (h : Hash256) (hf : a.numLeaves.toNat ≠ 2 ^ 64 - 1) :
    ∀ fuel i node, fuel + i = 64 → (∀ k < i, a.numLeaves.toNat.testBit k = true) →
      ∃ r, addLoopWith sel H a h fuel i node = some r := by
  intro fuel
  induction fuel with
  | zero =>
    intro i node hi hk
    exfalso
    apply hf
    apply Nat.eq_of_testBit_eq
    intro k
    rw [Nat.testBit_two_pow_sub_one]
    by_cases hk' : k < 64
    · simp [hk', hk k (by omega)]
    · rw [Nat.testBit_lt_two_pow (Nat.lt_of_lt_of_le a.numLeaves.isLt (Nat.pow_le_pow_right (by decide) (by omega)))]
      simp [hk']
  | succ n ih =>
    intro i node hi hk
    rw [addLoopWith, hasTreeAtHeight_eq]
    have hlt : i < a.trees.1.length := by rw [a.trees.2]; omega
    cases hb : a.numLeaves.toNat.testBit i with
    | false => exact ⟨_, by rw [if_neg (by simp)]⟩
    | true =>
      rw [if_pos rfl, List.getElem?_eq_getElem hlt]
      apply ih (i + 1) _ (by omega)
      intro k hk'
      by_cases e : k = i
      · rw [e]; exact hb
      · exact hk k (by omega)

theorem addLeaf_notFull (a : Accumulator) (h : Hash256) (hf : a.numLeaves.toNat ≠ 2 ^ 64 - 1) :
    ∃ a', a.addLeaf H h = .ok a' := by
  rw [addLeaf_eq, addLeafWith]
  obtain ⟨r, hr⟩ := addLoopWith_some (sel := fun x _ => x) (H := H) a h hf 64 0 h rfl (by intro k hk; omega)
  rw [hr]
  exact ⟨_, rfl⟩

end Accumulator

/-! ## The relations -/

variable {H : Hasher}

theorem sumNode_eq (a b : Hash256) : sumNode H a b = H ([1] ++ a.1 ++ b.1) := by simp [sumNode]

theorem isMerkleRoot_of_isRoot {l : List Hash256} {r : Hash256} (h : IsRoot (fun _ b => b) H l r) : IsMerkleRoot H l r := by
  induction h with
  | leaf x => exact .leaf x
  | node j l r a b h1 h2 h3 _ _ ih1 ih2 => rw [sumNode_eq]; exact .node j l r a b h1 h2 (by omega) ih1 ih2
  | full j l r a x b h1 h2 _ _ ih1 ih2 => rw [sumNode_eq]; exact .node j l _ a b h1 (by simp) (by simp; omega) ih1 ih2

theorem isAccumulatorRoot_of_isRoot {l : List Hash256} {r : Hash256} (h : IsRoot (fun x _ => x) H l r) :
    IsAccumulatorRoot H l r := by
  induction h with
  | leaf x => exact .leaf x
  | node j l r a b h1 h2 h3 _ _ ih1 ih2 => rw [sumNode_eq]; exact .node j l r a b h1 h2 h3 ih1 ih2
  | full j l r a x b h1 h2 _ _ ih1 _ => rw [sumNode_eq]; exact .full j l r a x h1 h2 ih1

theorem pow_between {i j m n : Nat} (h : 2 ^ i + m = 2 ^ j + n) (hm : 0 < m) (hm' : m ≤ 2 ^ i) (hn : 0 < n) (hn' : n ≤ 2 ^ j) :
    i = j := by
  rcases Nat.lt_trichotomy i j with h1 | h1 | h1
  · have : 2 ^ (i + 1) ≤ 2 ^ j := Nat.pow_le_pow_right (by decide) h1
    rw [Nat.pow_succ] at this
    omega
  · exact h1
  · have : 2 ^ (j + 1) ≤ 2 ^ i := Nat.pow_le_pow_right (by decide) h1
    rw [Nat.pow_succ] at this
    omega

theorem IsMerkleRoot.length_pos {l : List Hash256} {r : Hash256} (h : IsMerkleRoot H l r) : 0 < l.length := by
  cases h with
  | leaf x => simp
  | node j l r a b h1 h2 h3 _ _ => simp; omega

/-- A list has at most one Merkle root. -/
theorem IsMerkleRoot.unique {l : List Hash256} {r : Hash256} (h : IsMerkleRoot H l r) :
    ∀ {r'}, IsMerkleRoot H l r' → r = r' := by
  induction h with
  | leaf x =>
    intro r' h'
    generalize hl : [x] = l at h'
    cases h' with
    | leaf y => simpa using hl
    | node j l r a b h1 h2 h3 _ _ =>
      have := congrArg List.length hl
      have := Nat.two_pow_pos j
      simp at *
      omega
  | node j l r a b h1 h2 h3 ha hb ih1 ih2 =>
    intro r' h'
    generalize hl : l ++ r = m at h'
    cases h' with
    | leaf y =>
      have := congrArg List.length hl
      have := Nat.two_pow_pos j
      simp at *
      omega
    | node j' l' r' a' b' h1' h2' h3' ha' hb' =>
      have hlen := congrArg List.length hl
      simp only [List.length_append] at hlen
      have hj : j = j' := pow_between (by rw [← h1, ← h1']; exact hlen) h2 h3 h2' h3'
      obtain ⟨e1, e2⟩ := List.append_inj hl (by rw [h1, h1', hj])
      subst e1 e2
      rw [ih1 ha', ih2 hb']

/-- Every non-empty list has a Merkle root. -/
theorem exists_pow {n : Nat} (h : 2 ≤ n) : ∃ j, 2 ^ j < n ∧ n ≤ 2 * 2 ^ j := by
  refine ⟨(n - 1).log2, ?_, ?_⟩
  · have := Nat.log2_self_le (n := n - 1) (by omega)
    omega
  · have := Nat.lt_log2_self (n := n - 1)
    rw [Nat.pow_succ] at this
    omega

theorem IsMerkleRoot.exists (H : Hasher) : ∀ (n : Nat) (l : List Hash256), l.length = n → 0 < n → ∃ r, IsMerkleRoot H l r := by
  intro n
  induction n using Nat.strongRecOn with
  | _ n ih =>
    intro l hl hn
    by_cases h1 : n = 1
    · subst h1
      match l, hl with
      | [x], _ => exact ⟨x, .leaf x⟩
    · obtain ⟨j, hj1, hj2⟩ := exists_pow (n := n) (by omega)
      have hP := Nat.two_pow_pos j
      have l1 : (l.take (2 ^ j)).length = 2 ^ j := by rw [List.length_take]; omega
      have l2 : (l.drop (2 ^ j)).length = n - 2 ^ j := by rw [List.length_drop]; omega
      obtain ⟨a, ha⟩ := ih _ (by omega) (l.take (2 ^ j)) l1 hP
      obtain ⟨b, hb⟩ := ih _ (by omega) (l.drop (2 ^ j)) l2 (by omega)
      refine ⟨H ([1] ++ a.1 ++ b.1), ?_⟩
      rw [← List.take_append_drop (2 ^ j) l]
      exact .node j _ _ a b l1 (by omega) (by omega) ha hb

theorem IsAccumulatorRoot.unique {l : List Hash256} {r : Hash256} (h : IsAccumulatorRoot H l r) :
    ∀ {r'}, IsAccumulatorRoot H l r' → r = r' := by
  induction h with
  | leaf x =>
    intro r' h'
    generalize hl : [x] = l at h'
    cases h' with
    | leaf y => simpa using hl
    | node j l r a b h1 h2 h3 _ _ =>
      have := congrArg List.length hl
      have := Nat.two_pow_pos j
      simp at *
      omega
    | full j l r a y h1 h2 _ =>
      have := congrArg List.length hl
      have := Nat.two_pow_pos j
      simp at *
      omega
  | node j l r a b h1 h2 h3 ha hb ih1 ih2 =>
    intro r' h'
    generalize hl : l ++ r = m at h'
    cases h' with
    | leaf y =>
      have := congrArg List.length hl
      have := Nat.two_pow_pos j
      simp at *
      omega
    | node j' l' r' a' b' h1' h2' h3' ha' hb' =>
      have hlen := congrArg List.length hl
      simp only [List.length_append] at hlen
      have hj : j = j' := pow_between (by rw [← h1, ← h1']; exact hlen) h2 (by omega) h2' (by omega)
      obtain ⟨e1, e2⟩ := List.append_inj hl (by rw [h1, h1', hj])
      subst e1 e2
      rw [ih1 ha', ih2 hb']
    | full j' l' r' a' y h1' h2' ha' =>
      have hlen := congrArg List.length hl
      simp only [List.length_append, List.length_singleton] at hlen
      have hj : j = j' := pow_between (by rw [← h1, ← h1']; exact hlen) h2 (by omega) (by omega) (by omega)
      subst hj
      omega
  | full j l r a x h1 h2 ha ih1 =>
    intro r' h'
    generalize hl : l ++ (r ++ [x]) = m at h'
    cases h' with
    | leaf y =>
      have := congrArg List.length hl
      have := Nat.two_pow_pos j
      simp at *
      omega
    | node j' l' r' a' b' h1' h2' h3' ha' hb' =>
      have hlen := congrArg List.length hl
      simp only [List.length_append, List.length_singleton] at hlen
      have hj : j = j' := pow_between (by rw [← h1, ← h1']; exact hlen) (by omega) (by omega) h2' (by omega)
      subst hj
      omega
    | full j' l' r' a' y h1' h2' ha' =>
      have hlen := congrArg List.length hl
      simp only [List.length_append, List.length_singleton] at hlen
      have hj : j = j' := pow_between (by rw [← h1, ← h1']; exact hlen) (by omega) (by omega) (by omega) (by omega)
      obtain ⟨e1, e2⟩ := List.append_inj hl (by rw [h1, h1', hj])
      obtain ⟨e3, e4⟩ := List.append_inj' e2 rfl
      simp only [List.cons.injEq, and_true] at e4
      subst e1 e3 e4
      rw [ih1 ha']

/-- The third of at least four leaves does not matter. -/
theorem IsAccumulatorRoot.third {m : List Hash256} {r : Hash256} (h : IsAccumulatorRoot H m r) :
    ∀ (x y z w : Hash256) (t : List Hash256) (z' : Hash256), m = x :: y :: z :: w :: t →
      IsAccumulatorRoot H (x :: y :: z' :: w :: t) r := by
  induction h with
  | leaf x => intro _ _ _ _ _ _ h; simp at h
  | node j l r a b h1 h2 h3 ha hb ih1 _ =>
    intro x y z w t z' h
    have hlen := congrArg List.length h
    simp only [List.length_append, List.length_cons] at hlen
    match l, h, h1, ha, ih1, hlen with
    | x1 :: y1 :: z1 :: w1 :: t1, h, h1, ha, ih1, _ =>
      simp only [List.cons_append, List.cons.injEq] at h
      obtain ⟨rfl, rfl, rfl, rfl, rfl⟩ := h
      exact .node j (x1 :: y1 :: z' :: w1 :: t1) r a b (by simpa using h1) h2 h3 (ih1 _ _ _ _ _ z' rfl) hb
    | [], _, h1, _, _, _ => have := Nat.two_pow_pos j; simp at h1; omega
    | [_], _, h1, _, _, hlen => simp at h1 hlen; omega
    | [_, _], _, h1, _, _, hlen => simp at h1 hlen; omega
    | [_, _, _], _, h1, _, _, hlen => simp at h1 hlen; rcases j with _ | _ | j <;> simp [Nat.pow_succ] at h1; omega
  | full j l r a u h1 h2 ha ih1 =>
    intro x y z w t z' h
    have hlen := congrArg List.length h
    simp only [List.length_append, List.length_cons, List.length_nil] at hlen
    match l, h, h1, ha, ih1, hlen with
    | x1 :: y1 :: z1 :: w1 :: t1, h, h1, ha, ih1, _ =>
      simp only [List.cons_append, List.cons.injEq] at h
      obtain ⟨rfl, rfl, rfl, rfl, rfl⟩ := h
      exact .full j (x1 :: y1 :: z' :: w1 :: t1) r a u (by simpa using h1) h2 (ih1 _ _ _ _ _ z' rfl)
    | [], _, h1, _, _, _ => have := Nat.two_pow_pos j; simp at h1; omega
    | [_], _, h1, _, _, hlen => simp at h1 hlen; omega
    | [x1, y1], h, h1, ha, _, hlen =>
      simp only [List.cons_append, List.nil_append, List.cons.injEq] at h
      obtain ⟨ex, ey, ez⟩ := h
      simp only [List.length_cons, List.length_nil] at h1
      subst ex ey
      match r, h2, ez with
      | [z1], _, ez =>
        simp only [List.cons_append, List.nil_append, List.cons.injEq] at ez
        obtain ⟨rfl, rfl, rfl⟩ := ez
        exact .full j [x1, y1] [z'] a u (by simpa using h1) (by simp; omega) ha
      | [], h2, _ => simp at h2; omega
      | _ :: _ :: _, h2, _ => simp at h2; omega
    | [_, _, _], _, h1, _, _, hlen => simp at h1 hlen; rcases j with _ | _ | j <;> simp [Nat.pow_succ] at h1; omega

theorem IsAccumulatorRoot.small {m : List Hash256} {r : Hash256} (h : IsAccumulatorRoot H m r) :
    m.length ≤ 3 → IsMerkleRoot H m r := by
  induction h with
  | leaf x => intro _; exact .leaf x
  | node j l r a b h1 h2 h3 ha hb ih1 ih2 =>
    intro h
    rw [List.length_append] at h
    exact .node j l r a b h1 h2 (by omega) (ih1 (by omega)) (ih2 (by omega))
  | full j l r a x h1 h2 ha ih1 =>
    intro h
    simp only [List.length_append, List.length_singleton] at h
    have hr : r = [] := by
      apply List.eq_nil_of_length_eq_zero
      rcases j with _ | j
      · simpa using h2
      · have := Nat.two_pow_pos j
        rw [Nat.pow_succ] at h1 h2
        omega
    subst hr
    exact .node j l [x] a x h1 (by simp) (by simp at h2 ⊢; omega) (ih1 (by omega)) (.leaf x)

/-! ## Commitment -/

/-- If no two of the strings hashed in two trees collide, equal roots imply equal lists of leaves. -/
theorem IsMerkleRoot.inj {l : List Hash256} {r : Hash256} (h : IsMerkleRoot H l r) :
    ∀ {l' : List Hash256}, IsMerkleRoot H l' r →
      (∀ s s', NodeString H l s → NodeString H l' s' → H s = H s' → s = s') →
      (∀ x ∈ l, ∀ s', NodeString H l' s' → H s' ≠ x) → (∀ x ∈ l', ∀ s, NodeString H l s → H s ≠ x) → l = l' := by
  induction h with
  | leaf x =>
    intro l' h' _ h1 _
    cases h' with
    | leaf => rfl
    | node j l r a b e1 e2 e3 ha hb => exact absurd rfl (h1 _ (by simp) _ (.root j l r a b e1 e2 e3 ha hb))
  | node j l r a b e1 e2 e3 ha hb ih1 ih2 =>
    intro l' h' hc h1 h2
    generalize hr : H ([1] ++ a.1 ++ b.1) = R at h'
    cases h' with
    | leaf => exact absurd hr (h2 _ (by simp) _ (.root j l r a b e1 e2 e3 ha hb))
    | node j' l' r' a' b' e1' e2' e3' ha' hb' =>
      have := hc _ _ (.root j l r a b e1 e2 e3 ha hb) (.root j' l' r' a' b' e1' e2' e3' ha' hb') hr
      simp only [List.append_assoc] at this
      obtain ⟨e4, e5⟩ := List.append_inj (List.append_cancel_left this) (by rw [a.2, a'.2])
      have ea := Subtype.ext e4
      have eb := Subtype.ext e5
      subst ea eb
      rw [ih1 ha' (fun s s' hs hs' => hc s s' (.left j l r s e1 e2 e3 hs) (.left j' l' r' s' e1' e2' e3' hs'))
          (fun x hx s' hs' => h1 x (by simp [hx]) s' (.left j' l' r' s' e1' e2' e3' hs'))
          (fun x hx s hs => h2 x (by simp [hx]) s (.left j l r s e1 e2 e3 hs)),
        ih2 hb' (fun s s' hs hs' => hc s s' (.right j l r s e1 e2 e3 hs) (.right j' l' r' s' e1' e2' e3' hs'))
          (fun x hx s' hs' => h1 x (by simp [hx]) s' (.right j' l' r' s' e1' e2' e3' hs'))
          (fun x hx s hs => h2 x (by simp [hx]) s (.right j l r s e1 e2 e3 hs))]

theorem NodeString.head {l : List Hash256} {s : List UInt8} (h : NodeString H l s) : s.head? = some 1 := by
  induction h with
  | root => rfl
  | left _ _ _ _ _ _ _ _ ih => exact ih
  | right _ _ _ _ _ _ _ _ ih => exact ih

end Verif
