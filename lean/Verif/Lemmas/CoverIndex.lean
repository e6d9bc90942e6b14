import Verif.Lemmas.Cover

/-!
# Which leaves the accumulator looks at: positions
-/

namespace Verif

variable {α : Type}

theorem dvd_pow {a b : Nat} (h : a ≤ b) : 2 ^ a ∣ 2 ^ b := Nat.pow_dvd_pow 2 h

theorem pow_le {a b : Nat} (h : 2 ^ a ≤ 2 ^ b) : a ≤ b := (Nat.pow_le_pow_iff_right (a := 2) (by omega)).mp h

theorem pow_lt {a b : Nat} (h : 2 ^ a < 2 ^ b) : a < b := (Nat.pow_lt_pow_iff_right (a := 2) (by omega)).mp h

theorem le_pow {a b : Nat} (h : a ≤ b) : 2 ^ a ≤ 2 ^ b := (Nat.pow_le_pow_iff_right (a := 2) (by omega)).mpr h

/-- A multiple below another multiple is a step below. -/
theorem step_le {d a b : Nat} (ha : d ∣ a) (hb : d ∣ b) (h : a < b) : a + d ≤ b := by
  obtain ⟨x, rfl⟩ := ha
  obtain ⟨y, rfl⟩ := hb
  have : x < y := Nat.lt_of_mul_lt_mul_left h
  calc d * x + d = d * (x + 1) := by rw [Nat.mul_add, Nat.mul_one]
    _ ≤ d * y := Nat.mul_le_mul_left d this

theorem covered_one {i : Nat} : Covered 1 i ↔ i = 0 := by
  constructor
  · rintro ⟨k, s, -, h1, h2, h3⟩
    have := Nat.two_pow_pos k
    have hk : k = 0 := Nat.le_zero.mp (pow_le (show 2 ^ k ≤ 2 ^ 0 by omega))
    subst hk
    rcases h3 with rfl | ⟨j, hj, h3⟩
    · omega
    · have : j = 0 := by omega
      subst this; omega
  · rintro rfl
    exact ⟨0, 0, Nat.dvd_zero _, by omega, by omega, .inl rfl⟩

theorem covered_pow {k i : Nat} : Covered (2 ^ k) i ↔ i = 0 ∨ ∃ j ≤ k, i + 1 = 2 ^ j := by
  constructor
  · rintro ⟨k', s, hd, h1, h2, h3⟩
    have hk : k' ≤ k := pow_le (by omega)
    rcases Nat.lt_or_ge k' k with h | h
    · have hd' : 2 ^ (k' + 1) ∣ 2 ^ k := dvd_pow h
      have := Nat.two_pow_pos k'
      have := step_le hd hd' (by omega)
      omega
    · have : k' = k := by omega
      subst this
      have hs : s = 0 := by omega
      subst hs
      simpa using h3
  · intro h
    exact ⟨k, 0, Nat.dvd_zero _, by omega, by rw [Nat.pow_succ]; have := Nat.two_pow_pos k; omega, by simpa using h⟩

theorem covered_append {k m i : Nat} (h0 : 0 < m) (hm : m < 2 ^ k) :
    Covered (2 ^ k + m) i ↔ i < 2 ^ k ∧ Covered (2 ^ k) i ∨ 2 ^ k ≤ i ∧ Covered m (i - 2 ^ k) := by
  constructor
  · rintro ⟨k', s, hd, h1, h2, h3⟩
    have hk : k' < k + 1 := pow_lt (by rw [Nat.pow_succ]; omega)
    rcases Nat.lt_or_ge k' k with h | h
    · have hd' : 2 ^ (k' + 1) ∣ 2 ^ k := dvd_pow h
      have hs : 2 ^ k ≤ s := by
        apply Decidable.byContradiction
        intro hs
        have := step_le hd hd' (by omega)
        omega
      refine .inr ⟨?_, k', s - 2 ^ k, Nat.dvd_sub hd hd', by omega, by omega, ?_⟩
      · rcases h3 with rfl | ⟨j, -, h3⟩
        · exact hs
        · have := Nat.two_pow_pos j; omega
      · rcases h3 with rfl | ⟨j, hj, h3⟩
        · exact .inl rfl
        · have := Nat.two_pow_pos j; exact .inr ⟨j, hj, by omega⟩
    · have : k' = k := by omega
      subst this
      have hs : s = 0 := by
        apply Decidable.byContradiction
        intro hs
        have := Nat.le_of_dvd (by omega) hd
        rw [Nat.pow_succ] at this
        omega
      subst hs
      refine .inl ⟨?_, covered_pow.mpr (by simpa using h3)⟩
      rcases h3 with rfl | ⟨j, hj, h3⟩
      · exact Nat.two_pow_pos _
      · have := le_pow hj; omega
  · rintro (⟨h1, h2⟩ | ⟨h1, k', s, hd, h2, h3, h4⟩)
    · refine ⟨k, 0, Nat.dvd_zero _, by omega, by rw [Nat.pow_succ]; omega, ?_⟩
      simpa using covered_pow.mp h2
    · have hk : k' < k := pow_lt (by omega)
      refine ⟨k', s + 2 ^ k, (Nat.dvd_add hd (dvd_pow hk)), by omega, by omega, ?_⟩
      rcases h4 with h4 | ⟨j, hj, h4⟩
      · exact .inl (by omega)
      · exact .inr ⟨j, hj, by omega⟩

theorem covered_double {k i : Nat} : Covered (2 ^ k + 2 ^ k) i ↔ i < 2 ^ k ∧ Covered (2 ^ k) i ∨ i + 1 = 2 ^ k + 2 ^ k := by
  have e : 2 ^ k + 2 ^ k = 2 ^ (k + 1) := by rw [Nat.pow_succ]; omega
  have := Nat.two_pow_pos k
  rw [e, covered_pow, covered_pow]
  constructor
  · rintro (rfl | ⟨j, hj, h⟩)
    · exact .inl ⟨this, .inl rfl⟩
    · rcases Nat.lt_or_ge k j with g | g
      · have : j = k + 1 := by omega
        subst this; exact .inr h
      · have := le_pow g
        exact .inl ⟨by omega, .inr ⟨j, g, h⟩⟩
  · rintro (⟨-, rfl | ⟨j, hj, h⟩⟩ | h)
    · exact .inl rfl
    · exact .inr ⟨j, by omega, h⟩
    · exact .inr ⟨k + 1, Nat.le_refl _, h⟩

/-- The last leaf counts. -/
theorem covered_last {n : Nat} (h : 0 < n) : Covered n (n - 1) := by
  induction n using Nat.strongRecOn with
  | ind n ih =>
    have h1 := Nat.log2_self_le (n := n) (by omega)
    have h2 := Nat.lt_log2_self (n := n)
    rw [Nat.pow_succ] at h2
    have := Nat.two_pow_pos n.log2
    generalize hk : n.log2 = k at *
    rcases Nat.lt_or_ge (2 ^ k) n with g | g
    · have e : n = 2 ^ k + (n - 2 ^ k) := by omega
      rw [e, covered_append (by omega) (by omega)]
      refine .inr ⟨by omega, ?_⟩
      have := ih (n - 2 ^ k) (by omega) (by omega)
      rwa [show 2 ^ k + (n - 2 ^ k) - 1 - 2 ^ k = n - 2 ^ k - 1 by omega]
    · have e : n = 2 ^ k := by omega
      rw [e, covered_pow]
      exact .inr ⟨k, Nat.le_refl _, by omega⟩

/-- One leaf, twice a power of two, or a power of two and fewer. -/
theorem count_cases {n : Nat} (h : 0 < n) : n = 1 ∨ (∃ k, n = 2 ^ k + 2 ^ k) ∨ ∃ k m, 0 < m ∧ m < 2 ^ k ∧ n = 2 ^ k + m := by
  have h1 := Nat.log2_self_le (n := n) (by omega)
  have h2 := Nat.lt_log2_self (n := n)
  rw [Nat.pow_succ] at h2
  generalize n.log2 = k at *
  rcases Nat.lt_or_ge (2 ^ k) n with g | g
  · exact .inr (.inr ⟨k, n - 2 ^ k, by omega, by omega, by omega⟩)
  · cases k with
    | zero => exact .inl (by omega)
    | succ k => exact .inr (.inl ⟨k, by rw [Nat.pow_succ] at *; omega⟩)

/-! ## Lists of the same length -/

theorem split_at {l : List α} {n m : Nat} (h : l.length = n + m) : ∃ a b, l = a ++ b ∧ a.length = n ∧ b.length = m :=
  ⟨l.take n, l.drop n, (List.take_append_drop n l).symm, by simp; omega, by simp; omega⟩

theorem split_last {l : List α} {n : Nat} (h : l.length = n + 1) : ∃ a x, l = a ++ [x] ∧ a.length = n := by
  obtain ⟨a, b, rfl, ha, hb⟩ := split_at h
  obtain ⟨x, rfl⟩ := List.length_eq_one_iff.mp hb
  exact ⟨a, x, rfl, ha⟩

theorem SameCover.index {l l' : List α} (h : SameCover l l') : l.length = l'.length →
    ∀ i, Covered l.length i → l[i]? = l'[i]? := by
  induction h with
  | leaf x => intro _ i _; rfl
  | append k a a' b b' h1 h2 h3 h4 h5 h6 _ _ iha ihb =>
    intro e i hi
    rw [List.length_append, List.length_append] at e
    rw [List.length_append, h1, covered_append h3 h4] at hi
    rcases hi with ⟨g1, g2⟩ | ⟨g1, g2⟩
    · rw [List.getElem?_append_left (by omega), List.getElem?_append_left (by omega)]
      exact iha (by omega) i (h1 ▸ g2)
    · rw [List.getElem?_append_right (by omega), List.getElem?_append_right (by omega), h1, h2]
      exact ihb (by omega) _ g2
  | full k a a' b b' x h1 h2 h3 h4 _ ih =>
    intro e i hi
    have el : (a ++ (b ++ [x])).length = 2 ^ k + 2 ^ k := by simp; omega
    rw [el, covered_double] at hi
    rcases hi with ⟨g1, g2⟩ | g1
    · rw [List.getElem?_append_left (by omega), List.getElem?_append_left (by omega)]
      exact ih (by omega) i (h1 ▸ g2)
    · rw [List.getElem?_append_right (by omega), List.getElem?_append_right (by omega), List.getElem?_append_right (by omega),
        List.getElem?_append_right (by omega), show i - a.length - b.length = i - a'.length - b'.length by omega]
  | short k a a' b x h1 h2 h3 h4 _ ih => intro e; simp at e; omega
  | long k a a' b x h1 h2 h3 h4 _ ih => intro e; simp at e; omega

theorem sameCover_of_index : ∀ (n : Nat) (l l' : List α), 0 < n → l.length = n → l'.length = n →
    (∀ i, Covered n i → l[i]? = l'[i]?) → SameCover l l' := by
  intro n
  induction n using Nat.strongRecOn with
  | ind n ih =>
    intro l l' h0 hl hl' h
    rcases count_cases h0 with rfl | ⟨k, rfl⟩ | ⟨k, m, m0, m1, rfl⟩
    · obtain ⟨x, rfl⟩ := List.length_eq_one_iff.mp hl
      obtain ⟨y, rfl⟩ := List.length_eq_one_iff.mp hl'
      have := h 0 (covered_one.mpr rfl)
      simp only [List.getElem?_cons_zero, Option.some.injEq] at this
      rw [this]
      exact .leaf y
    · have p := Nat.two_pow_pos k
      obtain ⟨a, c, rfl, ha, hc⟩ := split_at hl
      obtain ⟨a', c', rfl, ha', hc'⟩ := split_at hl'
      obtain ⟨b, x, rfl, hb⟩ := split_last (n := 2 ^ k - 1) (l := c) (by omega)
      obtain ⟨b', x', rfl, hb'⟩ := split_last (n := 2 ^ k - 1) (l := c') (by omega)
      have hx := h (2 ^ k + 2 ^ k - 1) (covered_double.mpr (.inr (by omega)))
      rw [List.getElem?_append_right (by omega), List.getElem?_append_right (by omega), List.getElem?_append_right (by omega),
        List.getElem?_append_right (by omega), ha, ha', hb, hb', show 2 ^ k + 2 ^ k - 1 - 2 ^ k - (2 ^ k - 1) = 0 by omega] at hx
      simp only [List.getElem?_cons_zero, Option.some.injEq] at hx
      rw [hx]
      refine .full k a a' b b' x' ha ha' (by omega) (by omega) (ih (2 ^ k) (by omega) a a' p ha ha' fun i hi => ?_)
      have g : i < 2 ^ k := by
        rcases covered_pow.mp hi with rfl | ⟨j, hj, e⟩
        · exact p
        · have := le_pow hj; omega
      have := h i (covered_double.mpr (.inl ⟨g, hi⟩))
      rwa [List.getElem?_append_left (by omega), List.getElem?_append_left (by omega)] at this
    · have p := Nat.two_pow_pos k
      obtain ⟨a, b, rfl, ha, hb⟩ := split_at hl
      obtain ⟨a', b', rfl, ha', hb'⟩ := split_at hl'
      refine .append k a a' b b' ha ha' (by omega) (by omega) (by omega) (by omega)
        (ih (2 ^ k) (by omega) a a' p ha ha' fun i hi => ?_) (ih m (by omega) b b' m0 hb hb' fun i hi => ?_)
      · have g : i < 2 ^ k := by
          rcases covered_pow.mp hi with rfl | ⟨j, hj, e⟩
          · exact p
          · have := le_pow hj; omega
        have := h i ((covered_append m0 m1).mpr (.inl ⟨g, hi⟩))
        rwa [List.getElem?_append_left (by omega), List.getElem?_append_left (by omega)] at this
      · have := h (2 ^ k + i) ((covered_append m0 m1).mpr (.inr ⟨by omega, by rwa [Nat.add_sub_cancel_left]⟩))
        rwa [List.getElem?_append_right (by omega), List.getElem?_append_right (by omega), ha, ha', Nat.add_sub_cancel_left] at this

/-! ## Lists of different lengths -/

theorem Confused.lt {n n' : Nat} (h : Confused n n') : n < n' := by
  obtain ⟨k, s, h0, -, rfl, rfl⟩ := h
  have := le_pow (show 1 ≤ k from h0)
  rw [Nat.pow_succ]
  omega

theorem confused_zero {k : Nat} (h : 1 < 2 ^ k) : Confused (2 ^ k + 1) (2 ^ k + 2 ^ k) := by
  have : 0 < k := pow_lt (a := 0) (by omega)
  exact ⟨k, 0, this, Nat.dvd_zero _, by omega, by rw [Nat.pow_succ]; omega⟩

theorem Confused.add {n n' k : Nat} (h : Confused n n') (h' : n' < 2 ^ k) : Confused (2 ^ k + n) (2 ^ k + n') := by
  obtain ⟨j, s, h0, hd, rfl, rfl⟩ := h
  have : j + 1 < k := pow_lt (by omega)
  exact ⟨j, s + 2 ^ k, h0, Nat.dvd_add hd (dvd_pow this), by omega, by omega⟩

/-- The sum begins with the power of two 2^j itself, or with a larger one. -/
theorem Confused.cases {n n' : Nat} (h : Confused n n') :
    (∃ k, 1 < 2 ^ k ∧ n = 2 ^ k + 1 ∧ n' = 2 ^ k + 2 ^ k) ∨
    ∃ k m m', 0 < m ∧ m' < 2 ^ k ∧ Confused m m' ∧ n = 2 ^ k + m ∧ n' = 2 ^ k + m' := by
  have hn := h
  obtain ⟨k, s, h0, hd, e, e'⟩ := h
  rcases Nat.eq_zero_or_pos s with rfl | hs
  · exact .inl ⟨k, Nat.one_lt_two_pow (by omega), by omega, by rw [Nat.pow_succ] at e'; omega⟩
  · have h1 := Nat.log2_self_le (n := s) (by omega)
    have h2 := Nat.lt_log2_self (n := s)
    generalize s.log2 = K at *
    have p := Nat.two_pow_pos k
    have e2 : 2 ^ (k + 2) = 2 ^ k * 4 := by rw [Nat.pow_add]
    have e1 : 2 ^ (k + 1) = 2 ^ k * 2 := by rw [Nat.pow_succ]
    have hK : k + 2 < K + 1 := pow_lt (Nat.lt_of_le_of_lt (Nat.le_of_dvd hs hd) h2)
    have hdK : 2 ^ (k + 2) ∣ 2 ^ K := dvd_pow (by omega)
    have hstep := step_le hd (dvd_pow (show k + 2 ≤ K + 1 by omega)) h2
    rw [Nat.pow_succ] at hstep
    refine .inr ⟨K, s - 2 ^ K + 2 ^ k + 1, s - 2 ^ K + 2 ^ (k + 1), by omega, by omega,
      ⟨k, s - 2 ^ K, h0, Nat.dvd_sub hd hdK, by omega, by omega⟩, by omega, by omega⟩

theorem SameCover.length {l l' : List α} (h : SameCover l l') :
    l.length = l'.length ∨ Confused l.length l'.length ∨ Confused l'.length l.length := by
  induction h with
  | leaf x => exact .inl rfl
  | append k a a' b b' h1 h2 h3 h4 h5 h6 _ _ _ ihb =>
    rw [List.length_append, List.length_append, h1, h2]
    rcases ihb with e | e | e
    · exact .inl (by rw [e])
    · exact .inr (.inl (e.add h6))
    · exact .inr (.inr (e.add h4))
  | full k a a' b b' x h1 h2 h3 h4 _ _ => exact .inl (by simp; omega)
  | short k a a' b x h1 h2 h3 h4 _ _ =>
    have := confused_zero (k := k) (by omega)
    refine .inr (.inl ?_)
    rwa [List.length_append, List.length_append, List.length_append, h1, h2, List.length_singleton, h4]
  | long k a a' b x h1 h2 h3 h4 _ _ =>
    have := confused_zero (k := k) (by omega)
    refine .inr (.inr ?_)
    rwa [List.length_append, List.length_append, List.length_append, h1, h2, List.length_singleton, h4]

theorem getLast?_append_pos (a : List α) {b : List α} (h : 0 < b.length) : (a ++ b).getLast? = b.getLast? := by
  rw [List.getLast?_append, List.getLast?_eq_some_getLast (List.length_pos_iff.mp h)]
  rfl

theorem SameCover.last {l l' : List α} (h : SameCover l l') : l.getLast? = l'.getLast? := by
  induction h with
  | leaf x => rfl
  | append k a a' b b' h1 h2 h3 h4 h5 h6 _ _ _ ihb =>
    rw [getLast?_append_pos _ h3, getLast?_append_pos _ h5, ihb]
  | full k a a' b b' x h1 h2 h3 h4 _ _ => simp
  | short k a a' b x h1 h2 h3 h4 _ _ => simp
  | long k a a' b x h1 h2 h3 h4 _ _ => simp

theorem SameCover.before {l l' : List α} (h : SameCover l l') :
    ∀ i, i + 1 < min l.length l'.length → Covered (min l.length l'.length) i → l[i]? = l'[i]? := by
  induction h with
  | leaf x => intro i _ _; rfl
  | append k a a' b b' h1 h2 h3 h4 h5 h6 ha _ _ ihb =>
    intro i h hi
    have e : min (a ++ b).length (a' ++ b').length = 2 ^ k + min b.length b'.length := by
      rw [List.length_append, List.length_append, h1, h2]; omega
    rw [e] at h hi
    rcases (covered_append (by omega) (by omega)).mp hi with ⟨g1, g2⟩ | ⟨g1, g2⟩
    · rw [List.getElem?_append_left (by omega), List.getElem?_append_left (by omega)]
      exact ha.index (by omega) i (h1 ▸ g2)
    · rw [List.getElem?_append_right (by omega), List.getElem?_append_right (by omega), h1, h2]
      exact ihb _ (by omega) g2
  | full k a a' b b' x h1 h2 h3 h4 ha _ =>
    intro i h hi
    have e : min (a ++ (b ++ [x])).length (a' ++ (b' ++ [x])).length = 2 ^ k + 2 ^ k := by simp; omega
    rw [e] at h hi
    rcases covered_double.mp hi with ⟨g1, g2⟩ | g1
    · rw [List.getElem?_append_left (by omega), List.getElem?_append_left (by omega)]
      exact ha.index (by omega) i (h1 ▸ g2)
    · omega
  | short k a a' b x h1 h2 h3 h4 ha _ =>
    intro i h hi
    have e : min (a ++ [x]).length (a' ++ (b ++ [x])).length = 2 ^ k + 1 := by simp; omega
    rw [e] at h hi
    rcases (covered_append (by omega) (by omega)).mp hi with ⟨g1, g2⟩ | ⟨g1, g2⟩
    · rw [List.getElem?_append_left (by omega), List.getElem?_append_left (by omega)]
      exact ha.index (by omega) i (h1 ▸ g2)
    · omega
  | long k a a' b x h1 h2 h3 h4 ha _ =>
    intro i h hi
    have e : min (a ++ (b ++ [x])).length (a' ++ [x]).length = 2 ^ k + 1 := by simp; omega
    rw [e] at h hi
    rcases (covered_append (by omega) (by omega)).mp hi with ⟨g1, g2⟩ | ⟨g1, g2⟩
    · rw [List.getElem?_append_left (by omega), List.getElem?_append_left (by omega)]
      exact ha.index (by omega) i (h1 ▸ g2)
    · omega

theorem sameCover_of_before : ∀ (n n' : Nat) (l l' : List α), Confused n n' → l.length = n → l'.length = n' →
    l.getLast? = l'.getLast? → (∀ i, i + 1 < n → Covered n i → l[i]? = l'[i]?) → SameCover l l' := by
  intro n
  induction n using Nat.strongRecOn with
  | ind n ih =>
    intro n' l l' hc hl hl' he h
    have small : ∀ {k i}, Covered (2 ^ k) i → i < 2 ^ k := by
      intro k i hi
      rcases covered_pow.mp hi with rfl | ⟨j, hj, e⟩
      · exact Nat.two_pow_pos k
      · have := le_pow hj; omega
    rcases hc.cases with ⟨k, k1, rfl, rfl⟩ | ⟨k, m, m', m0, m1, hm, rfl, rfl⟩
    · obtain ⟨a, x, rfl, ha⟩ := split_last hl
      obtain ⟨a', c, rfl, ha', hc'⟩ := split_at hl'
      obtain ⟨b, x', rfl, hb⟩ := split_last (n := 2 ^ k - 1) (l := c) (by omega)
      have : x = x' := by simpa using he
      subst this
      refine .short k a a' b x ha ha' (by omega) (by omega) (sameCover_of_index (2 ^ k) a a' (by omega) ha ha' fun i hi => ?_)
      have g := small hi
      have := h i (by omega) ((covered_append (by omega) k1).mpr (.inl ⟨g, hi⟩))
      rwa [List.getElem?_append_left (by omega), List.getElem?_append_left (by omega)] at this
    · have := hm.lt
      have p := Nat.two_pow_pos k
      obtain ⟨a, b, rfl, ha, hb⟩ := split_at hl
      obtain ⟨a', b', rfl, ha', hb'⟩ := split_at hl'
      refine .append k a a' b b' ha ha' (by omega) (by omega) (by omega) (by omega)
        (sameCover_of_index (2 ^ k) a a' p ha ha' fun i hi => ?_) (ih m (by omega) m' b b' hm hb hb' ?_ fun i h1 hi => ?_)
      · have g := small hi
        have := h i (by omega) ((covered_append m0 (by omega)).mpr (.inl ⟨g, hi⟩))
        rwa [List.getElem?_append_left (by omega), List.getElem?_append_left (by omega)] at this
      · rwa [getLast?_append_pos _ (by omega), getLast?_append_pos _ (by omega)] at he
      · have := h (2 ^ k + i) (by omega) ((covered_append m0 (by omega)).mpr (.inr ⟨by omega, by rwa [Nat.add_sub_cancel_left]⟩))
        rwa [List.getElem?_append_right (by omega), List.getElem?_append_right (by omega), ha, ha', Nat.add_sub_cancel_left] at this

/-- The relation in terms of positions. -/
theorem sameCover_iff {l l' : List α} (h0 : l ≠ []) : SameCover l l' ↔ Overlap l l' := by
  constructor
  · intro h
    exact ⟨h.length, h.last, h.before⟩
  · rintro ⟨h1, h2, h3⟩
    have p : 0 < l.length := List.length_pos_iff.mpr h0
    rcases h1 with e | e | e
    · refine sameCover_of_index l.length l l' p rfl e.symm fun i hi => ?_
      rcases Nat.lt_or_ge (i + 1) l.length with g | g
      · exact h3 i (by omega) (by rwa [← e, Nat.min_self])
      · rcases Nat.lt_or_ge i l.length with g' | g'
        · rw [List.getLast?_eq_getElem?, List.getLast?_eq_getElem?] at h2
          rw [show i = l.length - 1 by omega, h2, e]
        · rw [List.getElem?_eq_none (by omega), List.getElem?_eq_none (by omega)]
    · have := e.lt
      rw [Nat.min_eq_left (by omega)] at h3
      exact sameCover_of_before _ _ l l' e rfl rfl h2 h3
    · have := e.lt
      rw [Nat.min_eq_right (by omega)] at h3
      exact (sameCover_of_before _ _ l' l e rfl rfl h2.symm fun i a b => (h3 i a b).symm).symm

end Verif
