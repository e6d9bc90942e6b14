import Mathlib.Algebra.Field.Basic
import Mathlib.Tactic.FieldSimp
import Mathlib.Tactic.LinearCombination
import Mathlib.Tactic.Ring

/-!
# Addition on the curve `y² - x² = 1 + d x² y²`

Over any field in which -1 is a square and `d` is not: sums are defined, lie on the curve, and addition is associative.  The coefficients of the
`linear_combination`s come from reducing the difference of the two sides by the equations of the points.
-/

namespace Verif.Edwards

variable {K : Type} [Field K]

/-- The point lies on the curve. -/
def On (d x y : K) : Prop := y ^ 2 - x ^ 2 = 1 + d * x ^ 2 * y ^ 2

/-- The first coordinate of a sum. -/
def sumX (d x1 y1 x2 y2 : K) : K := (x1 * y2 + y1 * x2) / (1 + d * x1 * x2 * y1 * y2)

/-- The second coordinate of a sum. -/
def sumY (d x1 y1 x2 y2 : K) : K := (y1 * y2 + x1 * x2) / (1 - d * x1 * x2 * y1 * y2)

/-- The denominators are not zero: otherwise `d` would be a square. -/
theorem denom {d i x1 y1 x2 y2 : K} (hi : i ^ 2 = -1) (h2 : (2 : K) ≠ 0) (hd : ∀ s, s ^ 2 ≠ d) (h1 : On d x1 y1) (h2' : On d x2 y2) :
    (d * x1 * x2 * y1 * y2) ^ 2 ≠ 1 := by
  intro he
  unfold On at h1 h2'
  have hne : d * x1 * x2 * y1 * y2 ≠ 0 := fun h => by rw [h] at he; norm_num at he
  simp only [mul_ne_zero_iff] at hne
  obtain ⟨⟨⟨⟨hd0, hx1⟩, hx2⟩, hy1⟩, hy2⟩ := hne
  have hi0 : i ≠ 0 := fun h => by rw [h] at hi; norm_num at hi
  have key : ∀ e : K, (e = 1 ∨ e = -1) → i * x2 + e * y2 = 0 := by
    intro e hee
    by_contra hs
    have he2 : e ^ 2 = 1 := by rcases hee with rfl | rfl <;> norm_num
    refine hd ((i * x1 + e * (d * x1 * x2 * y1 * y2) * y1) / (x1 * y1 * (i * x2 + e * y2))) ?_
    rw [div_pow, div_eq_iff (pow_ne_zero 2 (mul_ne_zero (mul_ne_zero hx1 hy1) hs))]
    have he' : d ^ 2 * x1 ^ 2 * x2 ^ 2 * y1 ^ 2 * y2 ^ 2 = 1 := by rw [← he]; ring
    linear_combination (x1 ^ 2 - d * x1 ^ 2 * y1 ^ 2 * x2 ^ 2) * hi
      + (e ^ 2 * y1 ^ 2 - 1) * he' + y1 ^ 2 * he2 - d * x1 ^ 2 * y1 ^ 2 * y2 ^ 2 * he2 + h1 - d * x1 ^ 2 * y1 ^ 2 * h2'
  have ha := key 1 (Or.inl rfl)
  have hb := key (-1) (Or.inr rfl)
  have : 2 * (i * x2) = 0 := by linear_combination ha + hb
  rcases mul_eq_zero.mp this with h | h
  · exact h2 h
  · exact (mul_ne_zero hi0 hx2) h

theorem denom_add {e : K} (h : e ^ 2 ≠ 1) : 1 + e ≠ 0 := fun h0 => h (by rw [show e = -1 by linear_combination h0]; norm_num)

theorem denom_sub {e : K} (h : e ^ 2 ≠ 1) : 1 - e ≠ 0 := fun h0 => h (by rw [show e = 1 by linear_combination -h0]; norm_num)

theorem on_sum {d x1 y1 x2 y2 : K} (h1 : On d x1 y1) (h2 : On d x2 y2) (hn : (d * x1 * x2 * y1 * y2) ^ 2 ≠ 1) :
    On d (sumX d x1 y1 x2 y2) (sumY d x1 y1 x2 y2) := by
  unfold On at h1 h2
  have ha := denom_add hn
  have hs := denom_sub hn
  unfold On sumX sumY
  generalize hA : 1 + d * x1 * x2 * y1 * y2 = A at *
  generalize hS : 1 - d * x1 * x2 * y1 * y2 = S at *
  field_simp
  subst hA hS
  linear_combination
    (y2 ^ 4 - 4 * x2 ^ 2 * y2 ^ 2 + 2 * x2 ^ 2 * y2 ^ 4 + x2 ^ 4 - 2 * x2 ^ 4 * y2 ^ 2 - 2 * d * x2 ^ 2 * y2 ^ 2 - 2 * d * x2 ^ 4 * y2 ^ 4 -
      d * y1 ^ 2 * x2 ^ 2 * y2 ^ 4 + d * y1 ^ 2 * x2 ^ 4 * y2 ^ 2 + d * x1 ^ 2 * x2 ^ 2 * y2 ^ 4 - d * x1 ^ 2 * x2 ^ 4 * y2 ^ 2 - d ^ 2 * x2
      ^ 4 * y2 ^ 4 + d ^ 2 * y1 ^ 2 * x2 ^ 4 * y2 ^ 4 - d ^ 2 * x1 ^ 2 * x2 ^ 4 * y2 ^ 4 + d ^ 3 * x1 ^ 2 * y1 ^ 2 * x2 ^ 4 * y2 ^ 4) * h1 +
      (1 + y2 ^ 2 - x2 ^ 2 + 2 * x2 ^ 2 * y2 ^ 2 - y1 ^ 2 * y2 ^ 2 + y1 ^ 2 * x2 ^ 2 - 2 * y1 ^ 2 * x2 ^ 2 * y2 ^ 2 + x1 ^ 2 * y2 ^ 2 - x1 ^
      2 * x2 ^ 2 + 2 * x1 ^ 2 * x2 ^ 2 * y2 ^ 2 + d * x2 ^ 2 * y2 ^ 2 - 2 * d * y1 ^ 2 * x2 ^ 2 * y2 ^ 2 + d * y1 ^ 4 * x2 ^ 2 * y2 ^ 2 + 2
      * d * x1 ^ 2 * x2 ^ 2 * y2 ^ 2 + d * x1 ^ 4 * x2 ^ 2 * y2 ^ 2) * h2

theorem sumX_assoc {d x1 y1 x2 y2 x3 y3 : K} (h1 : On d x1 y1) (h2 : On d x2 y2) (h3 : On d x3 y3) (h12 : (d * x1 * x2 * y1 * y2) ^ 2 ≠ 1)
    (h23 : (d * x2 * x3 * y2 * y3) ^ 2 ≠ 1)
    (hl : (d * sumX d x1 y1 x2 y2 * x3 * sumY d x1 y1 x2 y2 * y3) ^ 2 ≠ 1) (hr : (d * x1 * sumX d x2 y2 x3 y3 * y1 * sumY d x2 y2 x3 y3) ^ 2 ≠ 1) :
    sumX d (sumX d x1 y1 x2 y2) (sumY d x1 y1 x2 y2) x3 y3 = sumX d x1 y1 (sumX d x2 y2 x3 y3) (sumY d x2 y2 x3 y3) := by
  have ha := denom_add h12
  have hs := denom_sub h12
  have hb := denom_add h23
  have ht := denom_sub h23
  have hl := denom_add hl
  have hr := denom_add hr
  rw [sumX, div_eq_iff hl, sumX.eq_1 d x1 y1 (sumX d x2 y2 x3 y3), div_mul_eq_mul_div, eq_div_iff hr]
  unfold On at h1 h2 h3
  clear hl hr
  unfold sumX sumY
  generalize hA : 1 + d * x1 * x2 * y1 * y2 = A at *
  generalize hS : 1 - d * x1 * x2 * y1 * y2 = S at *
  generalize hB : 1 + d * x2 * x3 * y2 * y3 = B at *
  generalize hT : 1 - d * x2 * x3 * y2 * y3 = T at *
  field_simp
  subst hA hS hB hT
  linear_combination
    (-d * y1 * x2 * y2 ^ 4 * x3 ^ 2 * y3 - d * y1 * x2 ^ 2 * y2 ^ 3 * x3 - d * y1 * x2 ^ 2 * y2 ^ 3 * x3 ^ 3 - d * y1 * x2 ^ 3 * y2 ^ 2 * y3
      + d * y1 * x2 ^ 3 * y2 ^ 2 * y3 ^ 3 + d * y1 * x2 ^ 4 * y2 * x3 * y3 ^ 2 + d * x1 * x2 * y2 ^ 4 * x3 * y3 ^ 2 - d * x1 * x2 ^ 2 * y2 ^
      3 * y3 + d * x1 * x2 ^ 2 * y2 ^ 3 * y3 ^ 3 - d * x1 * x2 ^ 3 * y2 ^ 2 * x3 - d * x1 * x2 ^ 3 * y2 ^ 2 * x3 ^ 3 - d * x1 * x2 ^ 4 * y2
      * x3 ^ 2 * y3 + d ^ 2 * y1 * x2 ^ 3 * y2 ^ 4 * x3 ^ 2 * y3 + d ^ 2 * y1 * x2 ^ 4 * y2 ^ 3 * x3 * y3 ^ 2 - d ^ 2 * x1 * x2 ^ 3 * y2 ^ 4
      * x3 * y3 ^ 2 - d ^ 2 * x1 * x2 ^ 4 * y2 ^ 3 * x3 ^ 2 * y3) * h1 + (y1 * y2 * x3 - y1 * y2 * x3 * y3 ^ 2 + y1 * y2 * x3 ^ 3 + y1 * x2
      * y3 - y1 * x2 * y3 ^ 3 + y1 * x2 * x3 ^ 2 * y3 - y1 ^ 3 * y2 * x3 + y1 ^ 3 * y2 * x3 * y3 ^ 2 - y1 ^ 3 * y2 * x3 ^ 3 - y1 ^ 3 * x2 *
      y3 + y1 ^ 3 * x2 * y3 ^ 3 - y1 ^ 3 * x2 * x3 ^ 2 * y3 + x1 * y2 * y3 - x1 * y2 * y3 ^ 3 + x1 * y2 * x3 ^ 2 * y3 + x1 * x2 * x3 - x1 *
      x2 * x3 * y3 ^ 2 + x1 * x2 * x3 ^ 3 - x1 * y1 ^ 2 * y2 * y3 + x1 * y1 ^ 2 * y2 * y3 ^ 3 - x1 * y1 ^ 2 * y2 * x3 ^ 2 * y3 - x1 * y1 ^ 2
      * x2 * x3 + x1 * y1 ^ 2 * x2 * x3 * y3 ^ 2 - x1 * y1 ^ 2 * x2 * x3 ^ 3 + x1 ^ 2 * y1 * y2 * x3 - x1 ^ 2 * y1 * y2 * x3 * y3 ^ 2 + x1 ^
      2 * y1 * y2 * x3 ^ 3 + x1 ^ 2 * y1 * x2 * y3 - x1 ^ 2 * y1 * x2 * y3 ^ 3 + x1 ^ 2 * y1 * x2 * x3 ^ 2 * y3 + x1 ^ 3 * y2 * y3 - x1 ^ 3
      * y2 * y3 ^ 3 + x1 ^ 3 * y2 * x3 ^ 2 * y3 + x1 ^ 3 * x2 * x3 - x1 ^ 3 * x2 * x3 * y3 ^ 2 + x1 ^ 3 * x2 * x3 ^ 3 + d * y1 * y2 * x3 ^ 3
      * y3 ^ 2 + d * y1 * x2 * x3 ^ 2 * y3 ^ 3 - d * y1 * x2 * y2 ^ 2 * x3 ^ 2 * y3 - d * y1 * x2 ^ 2 * y2 * x3 * y3 ^ 2 - d * y1 ^ 3 * y2 *
      x3 ^ 3 * y3 ^ 2 - d * y1 ^ 3 * x2 * x3 ^ 2 * y3 ^ 3 + d * y1 ^ 3 * x2 * y2 ^ 2 * x3 ^ 2 * y3 + d * y1 ^ 3 * x2 ^ 2 * y2 * x3 * y3 ^ 2
      + d * x1 * y2 * x3 ^ 2 * y3 ^ 3 + d * x1 * x2 * x3 ^ 3 * y3 ^ 2 + d * x1 * x2 * y2 ^ 2 * x3 * y3 ^ 2 + d * x1 * x2 ^ 2 * y2 * x3 ^ 2 *
      y3 - d * x1 * y1 ^ 2 * y2 * x3 ^ 2 * y3 ^ 3 - d * x1 * y1 ^ 2 * x2 * x3 ^ 3 * y3 ^ 2 - d * x1 * y1 ^ 2 * x2 * y2 ^ 2 * x3 * y3 ^ 2 - d
      * x1 * y1 ^ 2 * x2 ^ 2 * y2 * x3 ^ 2 * y3 + d * x1 ^ 2 * y1 * y2 * x3 ^ 3 * y3 ^ 2 + d * x1 ^ 2 * y1 * x2 * x3 ^ 2 * y3 ^ 3 - d * x1 ^
      2 * y1 * x2 * y2 ^ 2 * x3 ^ 2 * y3 - d * x1 ^ 2 * y1 * x2 ^ 2 * y2 * x3 * y3 ^ 2 + d * x1 ^ 3 * y2 * x3 ^ 2 * y3 ^ 3 + d * x1 ^ 3 * x2
      * x3 ^ 3 * y3 ^ 2 + d * x1 ^ 3 * x2 * y2 ^ 2 * x3 * y3 ^ 2 + d * x1 ^ 3 * x2 ^ 2 * y2 * x3 ^ 2 * y3 + d ^ 2 * x1 * y1 ^ 2 * x2 * y2 ^
      2 * x3 ^ 3 * y3 ^ 2 - d ^ 2 * x1 * y1 ^ 2 * x2 ^ 2 * y2 * x3 ^ 2 * y3 ^ 3 - d ^ 2 * x1 ^ 2 * y1 * x2 * y2 ^ 2 * x3 ^ 2 * y3 ^ 3 + d ^
      2 * x1 ^ 2 * y1 * x2 ^ 2 * y2 * x3 ^ 3 * y3 ^ 2) * h2 + (-y1 * y2 * x3 + y1 * y2 ^ 3 * x3 - y1 * x2 * y3 + y1 * x2 * y2 ^ 2 * y3 - y1
      * x2 ^ 2 * y2 * x3 - y1 * x2 ^ 3 * y3 + y1 ^ 3 * y2 * x3 - y1 ^ 3 * y2 ^ 3 * x3 + y1 ^ 3 * x2 * y3 - y1 ^ 3 * x2 * y2 ^ 2 * y3 + y1 ^
      3 * x2 ^ 2 * y2 * x3 + y1 ^ 3 * x2 ^ 3 * y3 - x1 * y2 * y3 + x1 * y2 ^ 3 * y3 - x1 * x2 * x3 + x1 * x2 * y2 ^ 2 * x3 - x1 * x2 ^ 2 *
      y2 * y3 - x1 * x2 ^ 3 * x3 + x1 * y1 ^ 2 * y2 * y3 - x1 * y1 ^ 2 * y2 ^ 3 * y3 + x1 * y1 ^ 2 * x2 * x3 - x1 * y1 ^ 2 * x2 * y2 ^ 2 *
      x3 + x1 * y1 ^ 2 * x2 ^ 2 * y2 * y3 + x1 * y1 ^ 2 * x2 ^ 3 * x3 - x1 ^ 2 * y1 * y2 * x3 + x1 ^ 2 * y1 * y2 ^ 3 * x3 - x1 ^ 2 * y1 * x2
      * y3 + x1 ^ 2 * y1 * x2 * y2 ^ 2 * y3 - x1 ^ 2 * y1 * x2 ^ 2 * y2 * x3 - x1 ^ 2 * y1 * x2 ^ 3 * y3 - x1 ^ 3 * y2 * y3 + x1 ^ 3 * y2 ^
      3 * y3 - x1 ^ 3 * x2 * x3 + x1 ^ 3 * x2 * y2 ^ 2 * x3 - x1 ^ 3 * x2 ^ 2 * y2 * y3 - x1 ^ 3 * x2 ^ 3 * x3 - d * x1 * y1 ^ 2 * x2 * y2 ^
      2 * x3 + d * x1 * y1 ^ 2 * x2 ^ 2 * y2 * y3 + d * x1 ^ 2 * y1 * x2 * y2 ^ 2 * y3 - d * x1 ^ 2 * y1 * x2 ^ 2 * y2 * x3) * h3

theorem sumY_assoc {d x1 y1 x2 y2 x3 y3 : K} (h1 : On d x1 y1) (h2 : On d x2 y2) (h3 : On d x3 y3) (h12 : (d * x1 * x2 * y1 * y2) ^ 2 ≠ 1)
    (h23 : (d * x2 * x3 * y2 * y3) ^ 2 ≠ 1)
    (hl : (d * sumX d x1 y1 x2 y2 * x3 * sumY d x1 y1 x2 y2 * y3) ^ 2 ≠ 1) (hr : (d * x1 * sumX d x2 y2 x3 y3 * y1 * sumY d x2 y2 x3 y3) ^ 2 ≠ 1) :
    sumY d (sumX d x1 y1 x2 y2) (sumY d x1 y1 x2 y2) x3 y3 = sumY d x1 y1 (sumX d x2 y2 x3 y3) (sumY d x2 y2 x3 y3) := by
  have ha := denom_add h12
  have hs := denom_sub h12
  have hb := denom_add h23
  have ht := denom_sub h23
  have hl := denom_sub hl
  have hr := denom_sub hr
  rw [sumY, div_eq_iff hl, sumY.eq_1 d x1 y1 (sumX d x2 y2 x3 y3), div_mul_eq_mul_div, eq_div_iff hr]
  unfold On at h1 h2 h3
  clear hl hr
  unfold sumX sumY
  generalize hA : 1 + d * x1 * x2 * y1 * y2 = A at *
  generalize hS : 1 - d * x1 * x2 * y1 * y2 = S at *
  generalize hB : 1 + d * x2 * x3 * y2 * y3 = B at *
  generalize hT : 1 - d * x2 * x3 * y2 * y3 = T at *
  field_simp
  subst hA hS hB hT
  linear_combination
    (d * y1 * x2 * y2 ^ 4 * x3 * y3 ^ 2 - d * y1 * x2 ^ 2 * y2 ^ 3 * y3 + d * y1 * x2 ^ 2 * y2 ^ 3 * y3 ^ 3 - d * y1 * x2 ^ 3 * y2 ^ 2 * x3
      - d * y1 * x2 ^ 3 * y2 ^ 2 * x3 ^ 3 - d * y1 * x2 ^ 4 * y2 * x3 ^ 2 * y3 - d * x1 * x2 * y2 ^ 4 * x3 ^ 2 * y3 - d * x1 * x2 ^ 2 * y2 ^
      3 * x3 - d * x1 * x2 ^ 2 * y2 ^ 3 * x3 ^ 3 - d * x1 * x2 ^ 3 * y2 ^ 2 * y3 + d * x1 * x2 ^ 3 * y2 ^ 2 * y3 ^ 3 + d * x1 * x2 ^ 4 * y2
      * x3 * y3 ^ 2 - d ^ 2 * y1 * x2 ^ 3 * y2 ^ 4 * x3 * y3 ^ 2 - d ^ 2 * y1 * x2 ^ 4 * y2 ^ 3 * x3 ^ 2 * y3 + d ^ 2 * x1 * x2 ^ 3 * y2 ^ 4
      * x3 ^ 2 * y3 + d ^ 2 * x1 * x2 ^ 4 * y2 ^ 3 * x3 * y3 ^ 2) * h1 + (y1 * y2 * y3 - y1 * y2 * y3 ^ 3 + y1 * y2 * x3 ^ 2 * y3 + y1 * x2
      * x3 - y1 * x2 * x3 * y3 ^ 2 + y1 * x2 * x3 ^ 3 - y1 ^ 3 * y2 * y3 + y1 ^ 3 * y2 * y3 ^ 3 - y1 ^ 3 * y2 * x3 ^ 2 * y3 - y1 ^ 3 * x2 *
      x3 + y1 ^ 3 * x2 * x3 * y3 ^ 2 - y1 ^ 3 * x2 * x3 ^ 3 + x1 * y2 * x3 - x1 * y2 * x3 * y3 ^ 2 + x1 * y2 * x3 ^ 3 + x1 * x2 * y3 - x1 *
      x2 * y3 ^ 3 + x1 * x2 * x3 ^ 2 * y3 - x1 * y1 ^ 2 * y2 * x3 + x1 * y1 ^ 2 * y2 * x3 * y3 ^ 2 - x1 * y1 ^ 2 * y2 * x3 ^ 3 - x1 * y1 ^ 2
      * x2 * y3 + x1 * y1 ^ 2 * x2 * y3 ^ 3 - x1 * y1 ^ 2 * x2 * x3 ^ 2 * y3 + x1 ^ 2 * y1 * y2 * y3 - x1 ^ 2 * y1 * y2 * y3 ^ 3 + x1 ^ 2 *
      y1 * y2 * x3 ^ 2 * y3 + x1 ^ 2 * y1 * x2 * x3 - x1 ^ 2 * y1 * x2 * x3 * y3 ^ 2 + x1 ^ 2 * y1 * x2 * x3 ^ 3 + x1 ^ 3 * y2 * x3 - x1 ^ 3
      * y2 * x3 * y3 ^ 2 + x1 ^ 3 * y2 * x3 ^ 3 + x1 ^ 3 * x2 * y3 - x1 ^ 3 * x2 * y3 ^ 3 + x1 ^ 3 * x2 * x3 ^ 2 * y3 + d * y1 * y2 * x3 ^ 2
      * y3 ^ 3 + d * y1 * x2 * x3 ^ 3 * y3 ^ 2 + d * y1 * x2 * y2 ^ 2 * x3 * y3 ^ 2 + d * y1 * x2 ^ 2 * y2 * x3 ^ 2 * y3 - d * y1 ^ 3 * y2 *
      x3 ^ 2 * y3 ^ 3 - d * y1 ^ 3 * x2 * x3 ^ 3 * y3 ^ 2 - d * y1 ^ 3 * x2 * y2 ^ 2 * x3 * y3 ^ 2 - d * y1 ^ 3 * x2 ^ 2 * y2 * x3 ^ 2 * y3
      + d * x1 * y2 * x3 ^ 3 * y3 ^ 2 + d * x1 * x2 * x3 ^ 2 * y3 ^ 3 - d * x1 * x2 * y2 ^ 2 * x3 ^ 2 * y3 - d * x1 * x2 ^ 2 * y2 * x3 * y3
      ^ 2 - d * x1 * y1 ^ 2 * y2 * x3 ^ 3 * y3 ^ 2 - d * x1 * y1 ^ 2 * x2 * x3 ^ 2 * y3 ^ 3 + d * x1 * y1 ^ 2 * x2 * y2 ^ 2 * x3 ^ 2 * y3 +
      d * x1 * y1 ^ 2 * x2 ^ 2 * y2 * x3 * y3 ^ 2 + d * x1 ^ 2 * y1 * y2 * x3 ^ 2 * y3 ^ 3 + d * x1 ^ 2 * y1 * x2 * x3 ^ 3 * y3 ^ 2 + d * x1
      ^ 2 * y1 * x2 * y2 ^ 2 * x3 * y3 ^ 2 + d * x1 ^ 2 * y1 * x2 ^ 2 * y2 * x3 ^ 2 * y3 + d * x1 ^ 3 * y2 * x3 ^ 3 * y3 ^ 2 + d * x1 ^ 3 *
      x2 * x3 ^ 2 * y3 ^ 3 - d * x1 ^ 3 * x2 * y2 ^ 2 * x3 ^ 2 * y3 - d * x1 ^ 3 * x2 ^ 2 * y2 * x3 * y3 ^ 2 + d ^ 2 * x1 * y1 ^ 2 * x2 * y2
      ^ 2 * x3 ^ 2 * y3 ^ 3 - d ^ 2 * x1 * y1 ^ 2 * x2 ^ 2 * y2 * x3 ^ 3 * y3 ^ 2 - d ^ 2 * x1 ^ 2 * y1 * x2 * y2 ^ 2 * x3 ^ 3 * y3 ^ 2 + d
      ^ 2 * x1 ^ 2 * y1 * x2 ^ 2 * y2 * x3 ^ 2 * y3 ^ 3) * h2 + (-y1 * y2 * y3 + y1 * y2 ^ 3 * y3 - y1 * x2 * x3 + y1 * x2 * y2 ^ 2 * x3 -
      y1 * x2 ^ 2 * y2 * y3 - y1 * x2 ^ 3 * x3 + y1 ^ 3 * y2 * y3 - y1 ^ 3 * y2 ^ 3 * y3 + y1 ^ 3 * x2 * x3 - y1 ^ 3 * x2 * y2 ^ 2 * x3 + y1
      ^ 3 * x2 ^ 2 * y2 * y3 + y1 ^ 3 * x2 ^ 3 * x3 - x1 * y2 * x3 + x1 * y2 ^ 3 * x3 - x1 * x2 * y3 + x1 * x2 * y2 ^ 2 * y3 - x1 * x2 ^ 2 *
      y2 * x3 - x1 * x2 ^ 3 * y3 + x1 * y1 ^ 2 * y2 * x3 - x1 * y1 ^ 2 * y2 ^ 3 * x3 + x1 * y1 ^ 2 * x2 * y3 - x1 * y1 ^ 2 * x2 * y2 ^ 2 *
      y3 + x1 * y1 ^ 2 * x2 ^ 2 * y2 * x3 + x1 * y1 ^ 2 * x2 ^ 3 * y3 - x1 ^ 2 * y1 * y2 * y3 + x1 ^ 2 * y1 * y2 ^ 3 * y3 - x1 ^ 2 * y1 * x2
      * x3 + x1 ^ 2 * y1 * x2 * y2 ^ 2 * x3 - x1 ^ 2 * y1 * x2 ^ 2 * y2 * y3 - x1 ^ 2 * y1 * x2 ^ 3 * x3 - x1 ^ 3 * y2 * x3 + x1 ^ 3 * y2 ^
      3 * x3 - x1 ^ 3 * x2 * y3 + x1 ^ 3 * x2 * y2 ^ 2 * y3 - x1 ^ 3 * x2 ^ 2 * y2 * x3 - x1 ^ 3 * x2 ^ 3 * y3 - d * x1 * y1 ^ 2 * x2 * y2 ^
      2 * y3 + d * x1 * y1 ^ 2 * x2 ^ 2 * y2 * x3 + d * x1 ^ 2 * y1 * x2 * y2 ^ 2 * x3 - d * x1 ^ 2 * y1 * x2 ^ 2 * y2 * y3) * h3

end Verif.Edwards
