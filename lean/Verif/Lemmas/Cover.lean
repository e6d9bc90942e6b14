import Verif.Spec.Cover
import Verif.Lemmas.Merkle

/-!
# What the roots of the accumulator commit to: lemmas
-/

namespace Verif

/-- `Overlap` along the shape of the tree. -/
inductive SameCover {α : Type} : List α → List α → Prop
  /-- a single leaf -/
  | leaf (x : α) : SameCover [x] [x]
  /-- the largest power of two of leaves, and the others -/
  | append (k : Nat) (a a' b b' : List α) : a.length = 2 ^ k → a'.length = 2 ^ k → 0 < b.length → b.length < 2 ^ k →
      0 < b'.length → b'.length < 2 ^ k → SameCover a a' → SameCover b b' → SameCover (a ++ b) (a' ++ b')
  /-- a power of two of leaves: the first half, and the last leaf -/
  | full (k : Nat) (a a' b b' : List α) (x : α) : a.length = 2 ^ k → a'.length = 2 ^ k → b.length + 1 = 2 ^ k →
      b'.length + 1 = 2 ^ k → SameCover a a' → SameCover (a ++ (b ++ [x])) (a' ++ (b' ++ [x]))
  /-- one leaf more than a power of two looks like the next power of two -/
  | short (k : Nat) (a a' b : List α) (x : α) : a.length = 2 ^ k → a'.length = 2 ^ k → 0 < b.length → b.length + 1 = 2 ^ k →
      SameCover a a' → SameCover (a ++ [x]) (a' ++ (b ++ [x]))
  | long (k : Nat) (a a' b : List α) (x : α) : a.length = 2 ^ k → a'.length = 2 ^ k → 0 < b.length → b.length + 1 = 2 ^ k →
      SameCover a a' → SameCover (a ++ (b ++ [x])) (a' ++ [x])

variable {α β : Type} {H : Hasher}

namespace SameCover

theorem pos {l l' : List α} (h : SameCover l l') : 0 < l.length ∧ 0 < l'.length := by
  cases h <;> simp <;> omega

theorem symm {l l' : List α} (h : SameCover l l') : SameCover l' l := by
  induction h with
  | leaf x => exact .leaf x
  | append k a a' b b' h1 h2 h3 h4 h5 h6 _ _ iha ihb => exact .append k a' a b' b h2 h1 h5 h6 h3 h4 iha ihb
  | full k a a' b b' x h1 h2 h3 h4 _ ih => exact .full k a' a b' b x h2 h1 h4 h3 ih
  | short k a a' b x h1 h2 h3 h4 _ ih => exact .long k a' a b x h2 h1 h3 h4 ih
  | long k a a' b x h1 h2 h3 h4 _ ih => exact .short k a' a b x h2 h1 h3 h4 ih

end SameCover


theorem pow_inj {j k : Nat} (h : 2 ^ j = 2 ^ k) : j = k := (Nat.pow_right_inj (a := 2) (by omega)).mp h

theorem pow_same {k m : Nat} (h : 2 ^ k ≤ 2 ^ m) (h' : 2 ^ m < 2 ^ k * 2) : m = k := by
  have h1 := (Nat.pow_le_pow_iff_right (a := 2) (by omega)).mp h
  rw [← Nat.pow_succ] at h'
  have h2 := (Nat.pow_lt_pow_iff_right (a := 2) (by omega)).mp h'
  omega

/-- Powers of two are told apart. -/
theorem SameCover.pow {l l' : List α} (h : SameCover l l') : ∀ j j', l.length = 2 ^ j → l'.length = 2 ^ j' → j = j' := by
  cases h with
  | leaf x => intro j j' g g'; exact pow_inj (g.symm.trans g')
  | append k a a' b b' h1 h2 h3 h4 h5 h6 =>
    intro j j' g _
    rw [List.length_append] at g
    have : j = k := pow_same (by omega) (by omega)
    subst this; omega
  | full k a a' b b' x h1 h2 h3 h4 =>
    intro j j' g g'
    simp only [List.length_append, List.length_singleton] at g g'
    exact pow_inj (show 2 ^ j = 2 ^ j' by omega)
  | short k a a' b x h1 h2 h3 h4 =>
    intro j j' g _
    simp only [List.length_append, List.length_singleton] at g
    have : j = k := pow_same (by omega) (by omega)
    subst this; omega
  | long k a a' b x h1 h2 h3 h4 =>
    intro j j' _ g
    simp only [List.length_append, List.length_singleton] at g
    have : j' = k := pow_same (by omega) (by omega)
    subst this; omega

/-- Lists that agree where the accumulator looks have the same root. -/
theorem SameCover.root {l l' : List Hash256} (h : SameCover l l') (H : Hasher) :
    ∃ r, IsAccumulatorRoot H l r ∧ IsAccumulatorRoot H l' r := by
  induction h with
  | leaf x => exact ⟨x, .leaf x, .leaf x⟩
  | append k a a' b b' h1 h2 h3 h4 h5 h6 _ _ iha ihb =>
    obtain ⟨x, p, p'⟩ := iha
    obtain ⟨y, q, q'⟩ := ihb
    exact ⟨_, .node k a b x y h1 h3 h4 p q, .node k a' b' x y h2 h5 h6 p' q'⟩
  | full k a a' b b' x h1 h2 h3 h4 _ ih =>
    obtain ⟨y, p, p'⟩ := ih
    exact ⟨_, .full k a b y x h1 h3 p, .full k a' b' y x h2 h4 p'⟩
  | short k a a' b x h1 h2 h3 h4 _ ih =>
    obtain ⟨y, p, p'⟩ := ih
    exact ⟨_, .node k a [x] y x h1 (by simp) (by rw [List.length_singleton]; omega) p (.leaf x), .full k a' b y x h2 h4 p'⟩
  | long k a a' b x h1 h2 h3 h4 _ ih =>
    obtain ⟨y, p, p'⟩ := ih
    exact ⟨_, .full k a b y x h1 h4 p, .node k a' [x] y x h2 (by simp) (by rw [List.length_singleton]; omega) p' (.leaf x)⟩

theorem IsAccumulatorRoot.pos {l : List Hash256} {r : Hash256} (h : IsAccumulatorRoot H l r) : 0 < l.length := by
  cases h <;> simp <;> omega

theorem node_inj {a b a' b' : Hash256} (h : [1] ++ a.1 ++ b.1 = [1] ++ a'.1 ++ b'.1) : a = a' ∧ b = b' := by
  rw [List.append_assoc, List.append_assoc] at h
  obtain ⟨h1, h2⟩ := List.append_inj (List.append_cancel_left h) (by rw [a.2, a'.2])
  exact ⟨Subtype.ext h1, Subtype.ext h2⟩

/-- Lists with the same root agree where the accumulator looks, unless strings that are hashed collide. -/
theorem IsAccumulatorRoot.same {l : List Hash256} {r : Hash256} (h : IsAccumulatorRoot H l r) :
    ∀ {l'}, IsAccumulatorRoot H l' r →
      (∀ s s', AccumulatorString H l s → AccumulatorString H l' s' → H s = H s' → s = s') →
      (∀ x ∈ l, ∀ s', AccumulatorString H l' s' → H s' ≠ x) → (∀ x ∈ l', ∀ s, AccumulatorString H l s → H s ≠ x) →
      SameCover l l' := by
  induction h with
  | leaf x =>
    intro l' h' hc h1 h2
    cases h' with
    | leaf _ => exact .leaf x
    | node j l r a b g1 g2 g3 ga gb => exact absurd rfl (h1 _ (by simp) _ (.node j l r a b g1 g2 g3 ga gb))
    | full j l r a x g1 g2 ga => exact absurd rfl (h1 _ (by simp) _ (.full j l r a x g1 g2 ga))
  | node j l r a b g1 g2 g3 ga gb iha ihb =>
    intro l' h' hc h1 h2
    generalize hr : H ([1] ++ a.1 ++ b.1) = root at h'
    cases h' with
    | leaf _ => exact absurd hr (h2 _ (by simp) _ (.node j l r a b g1 g2 g3 ga gb))
    | node j' l' r' a' b' g1' g2' g3' ga' gb' =>
      obtain ⟨rfl, rfl⟩ := node_inj (hc _ _ (.node j l r a b g1 g2 g3 ga gb) (.node j' l' r' a' b' g1' g2' g3' ga' gb') hr)
      have sa := iha ga' (fun s s' p q => hc s s' (.left j l r s g1 g2 (by omega) p) (.left j' l' r' s' g1' g2' (by omega) q))
        (fun x hx s' q => h1 x (by simp [hx]) s' (.left j' l' r' s' g1' g2' (by omega) q))
        (fun x hx s p => h2 x (by simp [hx]) s (.left j l r s g1 g2 (by omega) p))
      have sb := ihb gb' (fun s s' p q => hc s s' (.right j l r s g1 g2 g3 p) (.right j' l' r' s' g1' g2' g3' q))
        (fun x hx s' q => h1 x (by simp [hx]) s' (.right j' l' r' s' g1' g2' g3' q))
        (fun x hx s p => h2 x (by simp [hx]) s (.right j l r s g1 g2 g3 p))
      have e := sa.pow j j' g1 g1'
      subst e
      exact .append j l l' r r' g1 g1' g2 g3 g2' g3' sa sb
    | full j' l' r' a' x' g1' g2' ga' =>
      obtain ⟨rfl, rfl⟩ := node_inj (hc _ _ (.node j l r a b g1 g2 g3 ga gb) (.full j' l' r' a' x' g1' g2' ga') hr)
      have sa := iha ga' (fun s s' p q => hc s s' (.left j l r s g1 g2 (by omega) p) (.left j' l' _ s' g1' (by simp) (by simp; omega) q))
        (fun x hx s' q => h1 x (by simp [hx]) s' (.left j' l' _ s' g1' (by simp) (by simp; omega) q))
        (fun x hx s p => h2 x (by simp [hx]) s (.left j l r s g1 g2 (by omega) p))
      have e := sa.pow j j' g1 g1'
      subst e
      have mem : b ∈ l' ++ (r' ++ [b]) := by simp
      cases gb with
      | leaf _ => exact .short j l l' r' b g1 g1' (by rw [List.length_singleton] at g3; omega) g2' sa
      | node k l2 r2 a2 b2 k1 k2 k3 ka kb =>
        exact absurd rfl (h2 _ mem _ (.right j l _ _ g1 g2 g3 (.node k l2 r2 a2 b2 k1 k2 k3 ka kb)))
      | full k l2 r2 a2 x2 k1 k2 ka =>
        exact absurd rfl (h2 _ mem _ (.right j l _ _ g1 g2 g3 (.full k l2 r2 a2 x2 k1 k2 ka)))
  | full j l r a b g1 g2 ga iha =>
    intro l' h' hc h1 h2
    generalize hr : H ([1] ++ a.1 ++ b.1) = root at h'
    cases h' with
    | leaf _ => exact absurd hr (h2 _ (by simp) _ (.full j l r a b g1 g2 ga))
    | node j' l' r' a' b' g1' g2' g3' ga' gb' =>
      obtain ⟨rfl, rfl⟩ := node_inj (hc _ _ (.full j l r a b g1 g2 ga) (.node j' l' r' a' b' g1' g2' g3' ga' gb') hr)
      have sa := iha ga' (fun s s' p q => hc s s' (.left j l _ s g1 (by simp) (by simp; omega) p) (.left j' l' r' s' g1' g2' (by omega) q))
        (fun x hx s' q => h1 x (by simp [hx]) s' (.left j' l' r' s' g1' g2' (by omega) q))
        (fun x hx s p => h2 x (by simp [hx]) s (.left j l _ s g1 (by simp) (by simp; omega) p))
      have e := sa.pow j j' g1 g1'
      subst e
      have mem : b ∈ l ++ (r ++ [b]) := by simp
      cases gb' with
      | leaf _ => exact .long j l l' r b g1 g1' (by rw [List.length_singleton] at g3'; omega) g2 sa
      | node k l2 r2 a2 b2 k1 k2 k3 ka kb =>
        exact absurd rfl (h1 _ mem _ (.right j l' _ _ g1' g2' g3' (.node k l2 r2 a2 b2 k1 k2 k3 ka kb)))
      | full k l2 r2 a2 x2 k1 k2 ka =>
        exact absurd rfl (h1 _ mem _ (.right j l' _ _ g1' g2' g3' (.full k l2 r2 a2 x2 k1 k2 ka)))
    | full j' l' r' a' x' g1' g2' ga' =>
      obtain ⟨rfl, rfl⟩ := node_inj (hc _ _ (.full j l r a b g1 g2 ga) (.full j' l' r' a' x' g1' g2' ga') hr)
      have sa := iha ga' (fun s s' p q => hc s s' (.left j l _ s g1 (by simp) (by simp; omega) p) (.left j' l' _ s' g1' (by simp) (by simp; omega) q))
        (fun x hx s' q => h1 x (by simp [hx]) s' (.left j' l' _ s' g1' (by simp) (by simp; omega) q))
        (fun x hx s p => h2 x (by simp [hx]) s (.left j l _ s g1 (by simp) (by simp; omega) p))
      have e := sa.pow j j' g1 g1'
      subst e
      exact .full j l l' r r' b g1 g1' g2 g2' sa

theorem AccumulatorString.head {l : List Hash256} {s : List UInt8} (h : AccumulatorString H l s) : s.head? = some 1 := by
  induction h with
  | node => rfl
  | full => rfl
  | left _ _ _ _ _ _ _ _ ih => exact ih
  | right _ _ _ _ _ _ _ _ ih => exact ih

/-- Mapping. -/
theorem SameCover.map {l l' : List α} (h : SameCover l l') (f : α → β) : SameCover (l.map f) (l'.map f) := by
  induction h with
  | leaf x => exact .leaf _
  | append k a a' b b' h1 h2 h3 h4 h5 h6 _ _ iha ihb =>
    rw [List.map_append, List.map_append]
    exact .append k _ _ _ _ (by simpa) (by simpa) (by simpa) (by simpa) (by simpa) (by simpa) iha ihb
  | full k a a' b b' x h1 h2 h3 h4 _ ih =>
    simp only [List.map_append, List.map_cons, List.map_nil]
    exact .full k _ _ _ _ _ (by simpa) (by simpa) (by simpa) (by simpa) ih
  | short k a a' b x h1 h2 h3 h4 _ ih =>
    simp only [List.map_append, List.map_cons, List.map_nil]
    exact .short k _ _ _ _ (by simpa) (by simpa) (by simpa) (by simpa) ih
  | long k a a' b x h1 h2 h3 h4 _ ih =>
    simp only [List.map_append, List.map_cons, List.map_nil]
    exact .long k _ _ _ _ (by simpa) (by simpa) (by simpa) (by simpa) ih

theorem SameCover.of_map {m m' : List β} (h : SameCover m m') (f : α → β) : ∀ (l l' : List α), l.map f = m → l'.map f = m' →
    (∀ x ∈ l, ∀ y ∈ l', f x = f y → x = y) → SameCover l l' := by
  induction h with
  | leaf x =>
    intro l l' h h' g
    obtain ⟨y, rfl, hy⟩ := List.map_eq_singleton_iff.mp h
    obtain ⟨y', rfl, hy'⟩ := List.map_eq_singleton_iff.mp h'
    rw [g y (by simp) y' (by simp) (hy.trans hy'.symm)]
    exact .leaf _
  | append k a a' b b' h1 h2 h3 h4 h5 h6 _ _ iha ihb =>
    intro l l' h h' g
    obtain ⟨p, q, rfl, rfl, rfl⟩ := List.map_eq_append_iff.mp h
    obtain ⟨p', q', rfl, rfl, rfl⟩ := List.map_eq_append_iff.mp h'
    rw [List.length_map] at h1 h2 h3 h4 h5 h6
    exact .append k p p' q q' h1 h2 h3 h4 h5 h6 (iha p p' rfl rfl fun x hx y hy => g x (by simp [hx]) y (by simp [hy]))
      (ihb q q' rfl rfl fun x hx y hy => g x (by simp [hx]) y (by simp [hy]))
  | full k a a' b b' x h1 h2 h3 h4 _ ih =>
    intro l l' h h' g
    obtain ⟨p, q, rfl, rfl, hq⟩ := List.map_eq_append_iff.mp h
    obtain ⟨q, z, rfl, rfl, hz⟩ := List.map_eq_append_iff.mp hq
    obtain ⟨z, rfl, ez⟩ := List.map_eq_singleton_iff.mp hz
    obtain ⟨p', q', rfl, rfl, hq'⟩ := List.map_eq_append_iff.mp h'
    obtain ⟨q', z', rfl, rfl, hz'⟩ := List.map_eq_append_iff.mp hq'
    obtain ⟨z', rfl, ez'⟩ := List.map_eq_singleton_iff.mp hz'
    rw [g z (by simp) z' (by simp) (ez.trans ez'.symm)]
    rw [List.length_map] at h1 h2 h3 h4
    exact .full k p p' q q' z' h1 h2 h3 h4 (ih p p' rfl rfl fun x hx y hy => g x (by simp [hx]) y (by simp [hy]))
  | short k a a' b x h1 h2 h3 h4 _ ih =>
    intro l l' h h' g
    obtain ⟨p, z, rfl, rfl, hz⟩ := List.map_eq_append_iff.mp h
    obtain ⟨z, rfl, ez⟩ := List.map_eq_singleton_iff.mp hz
    obtain ⟨p', q', rfl, rfl, hq'⟩ := List.map_eq_append_iff.mp h'
    obtain ⟨q', z', rfl, rfl, hz'⟩ := List.map_eq_append_iff.mp hq'
    obtain ⟨z', rfl, ez'⟩ := List.map_eq_singleton_iff.mp hz'
    rw [g z (by simp) z' (by simp) (ez.trans ez'.symm)]
    rw [List.length_map] at h1 h2 h3 h4
    exact .short k p p' q' z' h1 h2 h3 h4 (ih p p' rfl rfl fun x hx y hy => g x (by simp [hx]) y (by simp [hy]))
  | long k a a' b x h1 h2 h3 h4 _ ih =>
    intro l l' h h' g
    obtain ⟨p, q, rfl, rfl, hq⟩ := List.map_eq_append_iff.mp h
    obtain ⟨q, z, rfl, rfl, hz⟩ := List.map_eq_append_iff.mp hq
    obtain ⟨z, rfl, ez⟩ := List.map_eq_singleton_iff.mp hz
    obtain ⟨p', z', rfl, rfl, hz'⟩ := List.map_eq_append_iff.mp h'
    obtain ⟨z', rfl, ez'⟩ := List.map_eq_singleton_iff.mp hz'
    rw [g z (by simp) z' (by simp) (ez.trans ez'.symm)]
    rw [List.length_map] at h1 h2 h3 h4
    exact .long k p p' q z' h1 h2 h3 h4 (ih p p' rfl rfl fun x hx y hy => g x (by simp [hx]) y (by simp [hy]))

end Verif
