import Verif.Spec.Bytes
import Verif.Lemmas.Prim

/-! # The specified byte layouts are those of the model -/

namespace Verif

theorem leBytes_eq (k n : Nat) : leBytes k n = (List.range k).map fun i => UInt8.ofNat (n / 256 ^ i) := by
  induction k generalizing n with
  | zero => rfl
  | succ k ih =>
    rw [leBytes, ih, List.range_succ_eq_map, List.map_cons, List.map_map]
    congr 1
    · rw [Nat.pow_zero, Nat.div_one]
      apply UInt8.toNat_inj.mp
      simp
    · apply List.map_congr_left
      intro i _
      simp only [Function.comp_apply]
      rw [Nat.div_div_eq_div_mul, Nat.pow_succ, Nat.mul_comm]

theorem le64_eq (n : Nat) : le64 n = leBytes 8 n := (leBytes_eq 8 n).symm
theorem le128_eq (n : Nat) : le128 n = leBytes 16 n := (leBytes_eq 16 n).symm

theorem leNat_eq (l : List UInt8) : leNat l = leVal l := by
  induction l with
  | nil => rfl
  | cons b l ih => simp only [leNat, List.foldr_cons, leVal] at *; rw [ih]

theorem beNat_eq (l : List UInt8) : beNat l = beVal l := by
  unfold beVal
  rw [← leNat_eq]
  unfold beNat leNat
  rw [List.foldr_reverse]
  congr 1
  funext n b
  omega

@[simp] theorem le64_length (n : Nat) : (le64 n).length = 8 := by simp [le64]

theorem le64_inj {a b : Nat} (ha : a < 2 ^ 64) (hb : b < 2 ^ 64) (h : le64 a = le64 b) : a = b := by
  rw [le64_eq, le64_eq] at h
  have := congrArg leVal h
  rwa [leVal_leBytes_of_lt (by omega), leVal_leBytes_of_lt (by omega)] at this

theorem beNat_cons (b : UInt8) (l : List UInt8) : beNat (b :: l) = b.toNat * 256 ^ l.length + beNat l := by
  have : ∀ (l : List UInt8) (n : Nat), l.foldl (fun n b => 256 * n + b.toNat) n = n * 256 ^ l.length + beNat l := by
    intro l
    induction l with
    | nil => intro n; simp [beNat]
    | cons c l ih =>
      intro n
      simp only [beNat, List.foldl_cons, List.length_cons]
      rw [ih, ih (256 * 0 + c.toNat), Nat.pow_succ]
      simp only [Nat.mul_zero, Nat.zero_add, Nat.add_mul]
      rw [Nat.mul_comm 256 n, Nat.mul_assoc, Nat.mul_comm 256 (256 ^ l.length), Nat.add_assoc]
  unfold beNat
  rw [List.foldl_cons, this]
  simp [beNat]

theorem beNat_zeros (k : Nat) (l : List UInt8) : beNat (List.replicate k 0 ++ l) = beNat l := by
  induction k with
  | zero => rfl
  | succ k ih => rw [List.replicate_succ, List.cons_append, beNat_cons, ih]; simp

end Verif
