import Verif.Spec.Blake2b
import Verif.Model.Blake2b
import Verif.Lemmas.Sha2

/-!
# The model of BLAKE2b computes what the RFC defines
-/

namespace Verif.Blake2b

open Spec.Blake2b
open Spec.Sha2 (AllRootBits primesBelow)

/-- The first `n` words as numbers. -/
def numbers (n : Nat) (v : Nat → Word) : List Nat := (List.range n).map fun i => (v i).toNat

theorem numbers_get {n : Nat} (v : Nat → Word) {i : Nat} (h : i < n) : (numbers n v).getD i 0 = (v i).toNat := by
  simp [numbers, List.getD, h]

theorem numbers_set {n : Nat} (v : Nat → Word) (i : Nat) (x : Word) : (numbers n v).set i x.toNat = numbers n (assign v i x) := by
  refine List.ext_getElem (by simp [numbers]) fun j h1 h2 => ?_
  simp only [numbers, List.getElem_set, List.getElem_map, List.getElem_range, assign]
  by_cases h : i = j
  · simp [h]
  · rw [if_neg h, if_neg (Ne.symm h)]

theorem rotr_eq (x : Word) {r : Nat} (h : r < 64) : rotr x.toNat r = (x.rotateRight r).toNat := by
  rw [BitVec.toNat_rotateRight, Nat.mod_eq_of_lt h]
  rfl

theorem mix_eq (v : Nat → Word) {i j k l : Nat} (hi : i < 16) (hj : j < 16) (hk : k < 16) (hl : l < 16) (h1 : i ≠ j) (h2 : i ≠ k) (h3 : i ≠ l) (h4 : j ≠ k)
    (h5 : j ≠ l) (h6 : k ≠ l) (x y : Word) : mix (numbers 16 v) i j k l x.toNat y.toNat = numbers 16 (G v i j k l x y) := by
  have add : ∀ a b : Word, (a.toNat + b.toNat) % 2 ^ 64 = (a + b).toNat := fun a b => (BitVec.toNat_add a b).symm
  have add3 : ∀ a b c : Word, (a.toNat + b.toNat + c.toNat) % 2 ^ 64 = (a + b + c).toNat := fun a b c => by
    rw [BitVec.toNat_add, BitVec.toNat_add, Nat.mod_add_mod]
  have xor : ∀ a b : Word, a.toNat ^^^ b.toNat = (a ^^^ b).toNat := fun a b => (BitVec.toNat_xor a b).symm
  have r1 : ∀ x : Word, rotr x.toNat 32 = (x.rotateRight 32).toNat := fun x => rotr_eq x (by decide)
  have r2 : ∀ x : Word, rotr x.toNat 24 = (x.rotateRight 24).toNat := fun x => rotr_eq x (by decide)
  have r3 : ∀ x : Word, rotr x.toNat 16 = (x.rotateRight 16).toNat := fun x => rotr_eq x (by decide)
  have r4 : ∀ x : Word, rotr x.toNat 63 = (x.rotateRight 63).toNat := fun x => rotr_eq x (by decide)
  simp only [mix, Sha2.force_eq, numbers_get v hi, numbers_get v hj, numbers_get v hk, numbers_get v hl, add3, xor, r1, add, r2, r3, r4, numbers_set]
  congr 1
  funext t
  simp only [G, assign, h1, h2, h3, h4, h5, h6, h1.symm, h2.symm, h3.symm, h4.symm, h5.symm, h6.symm, if_true, if_false]
  by_cases t1 : t = i
  · subst t1; simp [h1, h2, h3]
  by_cases t2 : t = j
  · subst t2; simp [h4, h5]
  by_cases t3 : t = k
  · subst t3; simp [h6, Ne.symm h4]
  by_cases t4 : t = l
  · subst t4; simp [Ne.symm h5, Ne.symm h6]
  · simp [t1, t2, t3, t4]

theorem round_eq (m v : Nat → Word) (i : Nat) (s : List Nat) (hs : SIGMA.getD (i % 10) [] = s) (h : ∀ j < 16, s.getD j 0 < 16) :
    round (numbers 16 m) (numbers 16 v) s = numbers 16 (oneRound m i v) := by
  have w : ∀ j < 16, (numbers 16 m).getD (s.getD j 0) 0 = (m (s.getD j 0)).toNat := fun j hj => numbers_get m (h j hj)
  subst hs
  simp only [round, oneRound]
  rw [w 0 (by decide), w 1 (by decide), w 2 (by decide), w 3 (by decide), w 4 (by decide), w 5 (by decide), w 6 (by decide), w 7 (by decide), w 8 (by decide),
    w 9 (by decide), w 10 (by decide), w 11 (by decide), w 12 (by decide), w 13 (by decide), w 14 (by decide), w 15 (by decide)]
  repeat rw [mix_eq _ (by decide) (by decide) (by decide) (by decide) (by decide) (by decide) (by decide) (by decide) (by decide) (by decide)]

theorem rounds_eq (m v : Nat → Word) : sigma.foldl (round (numbers 16 m)) (numbers 16 v) = numbers 16 (manyRounds m 12 v) := by
  have go : ∀ n ≤ 12, ((List.range n).map fun i => SIGMA.getD (i % 10) []).foldl (round (numbers 16 m)) (numbers 16 v) = numbers 16 (manyRounds m n v) := by
    intro n
    induction n with
    | zero => intro _; rfl
    | succ n ih =>
      intro h
      rw [List.range_succ, List.map_append, List.foldl_append, ih (by omega)]
      have all : ∀ i < 12, ∀ j < 16, (SIGMA.getD (i % 10) []).getD j 0 < 16 := by decide
      exact round_eq m _ n _ rfl (all n (by omega))
  rw [show sigma = (List.range 12).map fun i => SIGMA.getD (i % 10) [] by decide]
  exact go 12 (by omega)

theorem compress_eq (IV : Nat → Word) (hIV : iv = numbers 8 IV) (h m : Nat → Word) (t : Nat) (f : Bool) :
    compress (numbers 8 h) (numbers 16 m) t f = numbers 8 (F IV h m t f) := by
  have e : numbers 8 h ++ iv = numbers 16 (fun i => if i < 8 then h i else IV (i - 8)) := by
    rw [hIV]
    rfl
  have x1 : ∀ a : Word, a.toNat ^^^ (t % 2 ^ 64) = (a ^^^ BitVec.ofNat 64 t).toNat := fun a => by rw [BitVec.toNat_xor, BitVec.toNat_ofNat]
  have x2 : ∀ a : Word, a.toNat ^^^ (t / 2 ^ 64 % 2 ^ 64) = (a ^^^ BitVec.ofNat 64 (t / 2 ^ 64)).toNat := fun a => by
    rw [BitVec.toNat_xor, BitVec.toNat_ofNat]
  have x3 : ∀ a : Word, a.toNat ^^^ (2 ^ 64 - 1) = (~~~a).toNat := fun a => by
    rw [← BitVec.xor_allOnes, BitVec.toNat_xor, BitVec.toNat_allOnes]
  have last : ∀ v : Nat → Word, (List.range 8).map (fun i => (numbers 8 h).getD i 0 ^^^ (numbers 16 v).getD i 0 ^^^ (numbers 16 v).getD (i + 8) 0) =
      numbers 8 fun i => h i ^^^ v i ^^^ v (i + 8) := fun v => by
    refine List.map_congr_left fun i hi => ?_
    have hi : i < 8 := by simpa using hi
    rw [numbers_get h hi, numbers_get v (by omega), numbers_get v (by omega), BitVec.toNat_xor, BitVec.toNat_xor]
  unfold compress F
  cases f
  · simp only [Bool.false_eq_true, if_false, e]
    rw [numbers_get _ (by decide), x1, numbers_set, numbers_get _ (by decide), x2, numbers_set, rounds_eq, last]
  · simp only [if_true, e]
    rw [numbers_get _ (by decide), x1, numbers_set, numbers_get _ (by decide), x2, numbers_set, numbers_get _ (by decide), x3, numbers_set, rounds_eq, last]

/-! ## Blocks -/

theorem leVal_sum : ∀ (k : Nat) (l : List UInt8), leVal (l.take k) = ((List.range k).map fun b => (l.getD b 0).toNat * 256 ^ b).sum
  | 0, _ => rfl
  | k + 1, [] => by
    have : ∀ l : List Nat, (l.map fun b => ((([] : List UInt8).getD b 0).toNat * 256 ^ b)).sum = 0 := by
      intro l
      induction l with
      | nil => rfl
      | cons a l ih => rw [List.map_cons, List.sum_cons, ih]; simp
    rw [this]
    rfl
  | k + 1, x :: l => by
    have ih := leVal_sum k l
    rw [List.take_succ_cons, leVal, ih, List.range_succ_eq_map, List.map_cons, List.sum_cons, List.map_map]
    have : ∀ r : List Nat, 256 * (r.map fun b => (l.getD b 0).toNat * 256 ^ b).sum = (r.map ((fun b => ((x :: l).getD b 0).toNat * 256 ^ b) ∘ Nat.succ)).sum := by
      intro r
      induction r with
      | nil => rfl
      | cons a r ih =>
        simp only [List.map_cons, List.sum_cons, Nat.mul_add, ih, Function.comp, List.getD_cons_succ, Nat.pow_succ]
        congr 1
        ring
    rw [this]
    simp

theorem words_eq (bs : List UInt8) (i : Nat) : words ((bs.drop (128 * i)).take 128) = numbers 16 (word bs i) := by
  refine List.map_congr_left fun j hj => ?_
  have hj : j < 16 := by simpa using hj
  have e : (((bs.drop (128 * i)).take 128).drop (8 * j)).take 8 = (bs.drop (128 * i + 8 * j)).take 8 := by
    rw [List.drop_take, List.take_take, List.drop_drop, Nat.min_eq_left (by omega)]
  have hlt : leVal ((bs.drop (128 * i + 8 * j)).take 8) < 2 ^ 64 := by
    refine Nat.lt_of_lt_of_le (leVal_lt _) ?_
    calc 256 ^ _ ≤ 256 ^ 8 := Nat.pow_le_pow_right (by omega) (by simp)
      _ = 2 ^ 64 := by decide
  have s : leVal ((bs.drop (128 * i + 8 * j)).take 8) = ((List.range 8).map fun b => (bs.getD (128 * i + 8 * j + b) 0).toNat * 256 ^ b).sum := by
    rw [leVal_sum]
    congr 1
    refine List.map_congr_left fun b _ => ?_
    simp [List.getD, List.getElem?_drop]
  rw [e, word, ← s, BitVec.toNat_ofNat, Nat.mod_eq_of_lt hlt]

theorem chain_eq (IV : Nat → Word) (hIV : iv = numbers 8 IV) (bs : List UInt8) : ∀ (fuel i : Nat), bs.length < 128 * i + fuel → 128 * i ≤ bs.length →
    (i = 0 ∨ 128 * i < bs.length) →
    chain fuel (numbers 8 (value IV bs i)) (128 * i) (bs.drop (128 * i)) =
      numbers 8 (F IV (value IV bs (blocks bs - 1)) (word bs (blocks bs - 1)) bs.length true)
  | 0, i, h, h', _ => by omega
  | fuel + 1, i, h, h', hi => by
    rw [chain]
    simp only [List.length_drop]
    by_cases hl : bs.length - 128 * i ≤ 128
    · have : blocks bs - 1 = i := by unfold blocks; omega
      rw [if_pos hl, this, show 128 * i + (bs.length - 128 * i) = bs.length by omega]
      have w := words_eq bs i
      rw [List.take_of_length_le (by simpa using hl)] at w
      rw [w, compress_eq IV hIV]
    · rw [if_neg hl, words_eq, compress_eq IV hIV, List.drop_drop]
      exact chain_eq IV hIV bs fuel (i + 1) (by omega) (by omega) (by omega)

theorem start_eq (IV : Nat → Word) (hIV : iv = numbers 8 IV) (bs : List UInt8) : start = numbers 8 (value IV bs 0) := by
  rw [start, hIV, numbers_get IV (by decide), value, ← numbers_set, BitVec.xor_assoc, BitVec.toNat_xor]
  rfl

/-! ## The function -/

theorem leBytes_get : ∀ (n x i : Nat), i < n → ((leBytes n x).getD i 0).toNat = x / 256 ^ i % 256
  | n + 1, x, 0, _ => by simp [leBytes]
  | n + 1, x, i + 1, h => by
    rw [leBytes, List.getD_cons_succ, leBytes_get n _ i (by omega), Nat.div_div_eq_div_mul, Nat.pow_succ, Nat.mul_comm 256]

theorem digest_get (v : Nat → Word) (i : Nat) (hi : i < 32) : ((digest (numbers 8 v)).1.getD i 0).toNat = (v (i / 8)).toNat / 256 ^ (i % 8) % 256 := by
  have get : ∀ (a b : List UInt8) (i : Nat), (a ++ b).getD i 0 = if i < a.length then a.getD i 0 else b.getD (i - a.length) 0 := by
    intro a b i
    simp only [List.getD, List.getElem?_append]
    split <;> rfl
  simp only [digest, numbers_get v (show 0 < 8 by decide), numbers_get v (show 1 < 8 by decide), numbers_get v (show 2 < 8 by decide),
    numbers_get v (show 3 < 8 by decide), get, List.length_append, leBytes_length]
  by_cases h1 : i < 8
  · rw [if_pos (by omega), if_pos (by omega), if_pos h1, leBytes_get _ _ _ h1, show i / 8 = 0 by omega, show i % 8 = i by omega]
  by_cases h2 : i < 16
  · rw [if_pos (by omega), if_pos (by omega), if_neg h1, leBytes_get _ _ _ (by omega), show i / 8 = 1 by omega, show i % 8 = i - 8 by omega]
  by_cases h3 : i < 24
  · rw [if_pos (by omega), if_neg (by omega), leBytes_get _ _ _ (by omega), show i / 8 = 2 by omega, show i % 8 = i - (8 + 8) by omega]
  · rw [if_neg (by omega), leBytes_get _ _ _ (by omega), show i / 8 = 3 by omega, show i % 8 = i - (8 + 8 + 8) by omega]

theorem hashes_iff (bs out : List UInt8) (hv : AllRootBits 2 64 (primesBelow 20) iv) : Hashes bs out ↔ out = (hash bs).1 := by
  have key : ∀ IV : Nat → Word, iv = numbers 8 IV → ∀ i < 32, ((hash bs).1.getD i 0).toNat =
      (F IV (value IV bs (blocks bs - 1)) (word bs (blocks bs - 1)) bs.length true (i / 8)).toNat / 256 ^ (i % 8) % 256 := by
    intro IV e i hi
    have := chain_eq IV e bs (bs.length + 1) 0 (by omega) (by omega) (.inl rfl)
    rw [← start_eq IV e, Nat.mul_zero, List.drop_zero] at this
    rw [hash, this, digest_get _ i hi]
  constructor
  · rintro ⟨IV, h1, h2, h3⟩
    have e := Sha2.allRootBits_unique hv h1
    refine List.ext_getElem (by rw [h2, (hash bs).2]) fun i a b => ?_
    have := h3 i (by omega)
    rw [← key IV e i (by omega)] at this
    simpa [List.getD, a, b] using UInt8.toNat_inj.mp this
  · rintro rfl
    refine ⟨fun i => BitVec.ofNat 64 (iv.getD i 0), ?_, (hash bs).2, key _ (by decide +kernel)⟩
    rwa [show (List.range 8).map _ = iv by decide +kernel]

end Verif.Blake2b
