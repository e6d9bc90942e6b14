import Verif.Model.English
import Verif.Spec.Signing

/-!
# The English list is a list of words
-/

namespace Verif

/-- The letters of a word as a number, filled up to eight places. -/
def English.code (w : List Char) : Nat := (w ++ List.replicate (8 - w.length) '\x00').foldl (fun n c => n * 256 + c.toNat) 0

/-- Every number is below the next. -/
def English.rising : List Nat → Bool
  | [] => true
  | [_] => true
  | a :: b :: l => decide (a < b) && English.rising (b :: l)

theorem English.rising_head : ∀ (l : List Nat) (a : Nat), English.rising (a :: l) = true → ∀ x ∈ l, a < x
  | [], _, _, x, hx => absurd hx (by simp)
  | b :: l, a, h, x, hx => by
    simp only [English.rising, Bool.and_eq_true, decide_eq_true_eq] at h
    rcases List.mem_cons.mp hx with rfl | hx
    · exact h.1
    · exact Nat.lt_trans h.1 (English.rising_head l b h.2 x hx)

theorem English.rising_tail {a : Nat} {l : List Nat} (h : English.rising (a :: l) = true) : English.rising l = true := by
  cases l with
  | nil => rfl
  | cons b l =>
    simp only [English.rising, Bool.and_eq_true] at h
    exact h.2

theorem English.rising_lt : ∀ (l : List Nat), English.rising l = true → ∀ i j, i < j → j < l.length → l.getD i 0 < l.getD j 0
  | [], _, _, _, _, hj => absurd hj (by simp)
  | a :: l, h, i, j, hij, hj => by
    obtain ⟨j, rfl⟩ : ∃ k, j = k + 1 := ⟨j - 1, by omega⟩
    have hj' : j < l.length := by simpa using hj
    cases i with
    | zero =>
      have : l.getD j 0 ∈ l := by rw [List.getD_eq_getElem?_getD, List.getElem?_eq_getElem hj']; exact List.getElem_mem hj'
      simpa using English.rising_head l a h _ this
    | succ i => simpa using English.rising_lt l (English.rising_tail h) i j (by omega) hj'

theorem English.length : English.list.length = 2048 := by decide +kernel

theorem English.sorted : English.rising (English.list.map English.code) = true := by decide +kernel

theorem English.small : (English.list.all fun w => !w.isEmpty && w.all fun c => decide (97 ≤ c.toNat ∧ c.toNat ≤ 122)) = true := by decide +kernel

theorem English.code_lt {i j : Nat} (hij : i < j) (hj : j < 2048) : English.code (English.list.getD i []) < English.code (English.list.getD j []) := by
  have h := English.rising_lt _ English.sorted i j hij (by rw [List.length_map, English.length]; exact hj)
  have hi : i < English.list.length := by rw [English.length]; omega
  have hj : j < English.list.length := by rw [English.length]; omega
  simpa [List.getD_eq_getElem?_getD, List.getElem?_eq_getElem, hi, hj] using h

/-- The hypotheses of C49 hold for the English list and every normalisation that leaves ASCII alone. -/
theorem english_wordlist (norm : List Char → List Char) (hn : ∀ s, (∀ c ∈ s, c.toNat < 128) → norm s = s) : Spec.Wordlist (english norm) where
  distinct i j hi hj h := by
    have h : English.list.getD i [] = English.list.getD j [] := h
    rcases Nat.lt_trichotomy i j with hlt | heq | hgt
    · have := English.code_lt hlt hj
      rw [h] at this; omega
    · exact heq
    · have := English.code_lt hgt hi
      rw [h] at this; omega
  letters i hi := by
    have hi' : i < English.list.length := by rw [English.length]; exact hi
    have hm : English.list.getD i [] ∈ English.list := by
      rw [List.getD_eq_getElem?_getD, List.getElem?_eq_getElem hi']; exact List.getElem_mem hi'
    have := List.all_eq_true.mp English.small _ hm
    simp only [Bool.and_eq_true, List.all_eq_true, decide_eq_true_eq, Bool.not_eq_true', List.isEmpty_eq_false_iff] at this
    exact ⟨this.1, fun c hc => this.2 c hc⟩
  ascii := hn

end Verif
