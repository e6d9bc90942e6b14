import Verif.Spec.Sha2
import Verif.Model.Sha2
import Verif.Lemmas.Prim
import Mathlib.Tactic.Ring

/-!
# The model of SHA-2 computes what the standard defines
-/

namespace Verif.Sha2

open Spec.Sha2

theorem force_eq {α : Type} (n : Nat) (k : Nat → α) : Blake2b.force n k = k n := by cases n <;> rfl

theorem beVal_eq (bs : List UInt8) : bigEndian bs = beVal bs := by
  have : ∀ (l : List UInt8), l.reverse.foldl (fun x b => 256 * x + b.toNat) 0 = leVal l := by
    intro l
    induction l with
    | nil => rfl
    | cons b l ih => simp [leVal, ih]; omega
  simpa [bigEndian, beVal] using this bs.reverse

/-! ## Words -/

variable {P : Params}

def Params.turns (P : Params) : Turns := ⟨P.big0, P.big1, P.small0, P.small1⟩

/-- The rotations are less than a word. -/
abbrev Small (P : Params) (r : Nat × Nat × Nat) : Prop := r.1 < P.bits ∧ r.2.1 < P.bits ∧ r.2.2 < P.bits

theorem rotr_eq (x : BitVec P.bits) {r : Nat} (h : r < P.bits) : rotr P x.toNat r = (x.rotateRight r).toNat := by
  rw [BitVec.toNat_rotateRight, Nat.mod_eq_of_lt h]
  rfl

theorem big_eq {r : Nat × Nat × Nat} (h : Small P r) (x : BitVec P.bits) : big P r x.toNat = (bigSigma r x).toNat := by
  simp only [big, bigSigma, BitVec.toNat_xor, rotr_eq x h.1, rotr_eq x h.2.1, rotr_eq x h.2.2]

theorem small_eq {r : Nat × Nat × Nat} (h : Small P r) (x : BitVec P.bits) : small P r x.toNat = (smallSigma r x).toNat := by
  simp only [small, smallSigma, BitVec.toNat_xor, BitVec.toNat_ushiftRight, rotr_eq x h.1, rotr_eq x h.2.1]

theorem choose_eq (x y z : BitVec P.bits) : choose P x.toNat y.toNat z.toNat = (ch x y z).toNat := by
  have : x.toNat ^^^ (2 ^ P.bits - 1) = (~~~x).toNat := by
    rw [← BitVec.xor_allOnes, BitVec.toNat_xor, BitVec.toNat_allOnes]
  simp only [choose, ch, BitVec.toNat_xor, BitVec.toNat_and, this]

theorem majority_eq (x y z : BitVec P.bits) : majority x.toNat y.toNat z.toNat = (maj x y z).toNat := by
  simp only [majority, maj, BitVec.toNat_xor, BitVec.toNat_and]

/-! ## The schedule -/

/-- The words of the schedule from `t` on. -/
def window {n : Nat} (W : Nat → BitVec n) (t : Nat) : List Nat := (List.range 16).map fun i => (W (t + i)).toNat

theorem window_get {n : Nat} (W : Nat → BitVec n) (t : Nat) {i : Nat} (h : i < 16) : (window W t).getD i 0 = (W (t + i)).toNat := by
  simp [window, List.getD, h]

theorem window_next {n : Nat} (W : Nat → BitVec n) (t : Nat) : (window W t).drop 1 ++ [(W (t + 16)).toNat] = window W (t + 1) := by
  simp [window, List.range, List.range.loop, Nat.add_assoc]

theorem next_eq (h0 : Small P P.small0) (h1 : Small P P.small1) (m : Nat → BitVec P.bits) (t : Nat) :
    next P (window (schedule P.turns m) t) = (schedule P.turns m (t + 16)).toNat := by
  rw [schedule.eq_1 P.turns m (t + 16), if_neg (by omega)]
  simp only [next, window_get _ _ (show 14 < 16 by omega), window_get _ _ (show 9 < 16 by omega), window_get _ _ (show 1 < 16 by omega),
    window_get _ _ (show 0 < 16 by omega), small_eq h0, small_eq h1, BitVec.toNat_add, Nat.add_zero, Nat.mod_add_mod]
  rfl

/-! ## Rounds -/

def list {n : Nat} (s : Vars n) : List Nat := [s.a, s.b, s.c, s.d, s.e, s.f, s.g, s.h].map BitVec.toNat

structure Good (P : Params) : Prop where
  big0 : Small P P.big0
  big1 : Small P P.big1
  small0 : Small P P.small0
  small1 : Small P P.small1
  size : P.bits = 8 * (P.bits / 8)
  pos : 0 < P.bits / 8
  k : ∀ x ∈ P.k, x < 2 ^ P.bits

theorem rounds_eq (G : Good P) (m : Nat → BitVec P.bits) : ∀ (ks : List Nat) (_ : ∀ x ∈ ks, x < 2 ^ P.bits) (t : Nat) (s : Vars P.bits),
    rounds P ks (window (schedule P.turns m) t) s.a.toNat s.b.toNat s.c.toNat s.d.toNat s.e.toNat s.f.toNat s.g.toNat s.h.toNat =
      list (run P.turns (schedule P.turns m) ks t s)
  | [], _, _, _ => rfl
  | k :: ks, hk, t, s => by
    have ih := rounds_eq G m ks (fun x hx => hk x (List.mem_cons_of_mem _ hx)) (t + 1) (step P.turns (BitVec.ofNat _ k) (schedule P.turns m t) s)
    have hk := Nat.mod_eq_of_lt (hk k List.mem_cons_self)
    rw [run, ← ih, rounds]
    simp only [force_eq, window_get _ _ (show 0 < 16 by omega), Nat.add_zero, big_eq G.big0, big_eq G.big1, choose_eq, majority_eq,
      next_eq G.small0 G.small1, window_next]
    congr 1
    · simp only [step, BitVec.toNat_add, BitVec.toNat_ofNat, hk, Nat.mod_add_mod, Nat.add_mod_mod]
      rfl
    · simp only [step, BitVec.toNat_add, BitVec.toNat_ofNat, hk, Nat.mod_add_mod, Nat.add_mod_mod]
      rfl

theorem compress_eq (G : Good P) (m : Nat → BitVec P.bits) (s : Vars P.bits) (w : List Nat) (hw : w = window m 0) :
    compress P (list s) w = list (s.add (run P.turns (schedule P.turns m) P.k 0 s)) := by
  have hw : w = window (schedule P.turns m) 0 := by
    rw [hw]
    refine List.map_congr_left fun i hi => ?_
    rw [schedule.eq_1, if_pos (by simpa using hi)]
  have := rounds_eq G m P.k G.k 0 s
  subst hw
  unfold compress
  simp only [show ∀ i, (list s).getD i 0 = ((list s)[i]?).getD 0 from fun _ => rfl]
  simp only [list, List.map_cons, List.map_nil, List.getElem?_cons_zero, List.getElem?_cons_succ, Option.getD_some]
  rw [this]
  simp [list, Vars.add, BitVec.toNat_add]

/-! ## Blocks -/

theorem words_eq (G : Good P) (out : List UInt8) (i : Nat) :
    words P ((out.drop (i * (16 * P.size))).take (16 * P.size)) = window (word P.bits out i) 0 := by
  refine List.map_congr_left fun j hj => ?_
  have hj : j < 16 := by simpa using hj
  have e : (((out.drop (i * (16 * P.size))).take (16 * P.size)).drop (P.size * j)).take P.size = (out.drop ((16 * i + j) * (P.bits / 8))).take (P.bits / 8) := by
    rw [List.drop_take, List.take_take, List.drop_drop]
    have h1 : P.size * j + P.size ≤ 16 * P.size := by
      calc P.size * j + P.size = P.size * (j + 1) := by rw [Nat.mul_add, Nat.mul_one]
        _ ≤ P.size * 16 := Nat.mul_le_mul_left _ (by omega)
        _ = 16 * P.size := Nat.mul_comm _ _
    rw [Nat.min_eq_left (by omega)]
    have h2 : i * (16 * P.size) + P.size * j = (16 * i + j) * (P.bits / 8) := by
      show i * (16 * (P.bits / 8)) + (P.bits / 8) * j = _
      ring
    rw [h2]
    rfl
  rw [e, Nat.zero_add, word, beVal_eq, BitVec.toNat_ofNat, Nat.mod_eq_of_lt]
  refine Nat.lt_of_lt_of_le (beVal_lt _) ?_
  have : ((out.drop ((16 * i + j) * (P.bits / 8))).take (P.bits / 8)).length ≤ P.bits / 8 := by simp
  calc 256 ^ _ ≤ 256 ^ (P.bits / 8) := Nat.pow_le_pow_right (by omega) this
    _ = 2 ^ (8 * (P.bits / 8)) := by rw [Nat.pow_mul]
    _ ≤ 2 ^ P.bits := by rw [← G.size]

theorem chain_eq (G : Good P) (iv : Vars P.bits) (out : List UInt8) : ∀ (N i : Nat),
    chain P N (list (value P.turns P.k iv out i)) (out.drop (i * (16 * P.size))) = list (value P.turns P.k iv out (i + N))
  | 0, _ => rfl
  | N + 1, i => by
    rw [chain, compress_eq G (word P.bits out i) _ _ (words_eq G out i), List.drop_drop]
    have := chain_eq G iv out N (i + 1)
    rw [show (i + 1) * (16 * P.size) = i * (16 * P.size) + 16 * P.size by ring] at this
    rw [show i + (N + 1) = i + 1 + N by omega, ← this]
    rfl

/-! ## Padding -/

theorem pad_padded (G : Good P) (bs : List UInt8) (h : 8 * bs.length < 2 ^ (2 * P.bits)) : Padded P.bits bs (pad P bs) := by
  have hp : 0 < P.size := G.pos
  refine ⟨_, _, rfl, Nat.mod_lt _ (by show 0 < 16 * P.size; omega), beBytes_length _ _, ?_, ?_⟩
  · rw [beVal_eq, beVal_beBytes_of_lt]
    · omega
    · show _ < 256 ^ (2 * (P.bits / 8))
      rw [show 256 = 2 ^ 8 from rfl, ← Nat.pow_mul, show 8 * (2 * (P.bits / 8)) = 2 * P.bits by have := G.size; omega]
      omega
  · show 16 * P.size ∣ _
    simp only [pad, List.length_append, List.length_cons, List.length_replicate, beBytes_length]
    generalize P.size = z at hp ⊢
    have h1 := Nat.mod_lt (bs.length + 1 + 2 * z) (show 16 * z > 0 by omega)
    have h2 := Nat.div_add_mod (bs.length + 1 + 2 * z) (16 * z)
    generalize (bs.length + 1 + 2 * z) % (16 * z) = r at h1 h2 ⊢
    generalize (bs.length + 1 + 2 * z) / (16 * z) = q at h2
    by_cases hr : r = 0
    · subst hr
      rw [Nat.sub_zero, Nat.mod_self]
      exact ⟨q, by omega⟩
    · rw [Nat.mod_eq_of_lt (by omega)]
      exact ⟨q + 1, by rw [Nat.mul_add]; omega⟩

theorem bigEndian_inj {a b : List UInt8} (hl : a.length = b.length) (h : bigEndian a = bigEndian b) : a = b := by
  rw [beVal_eq, beVal_eq] at h
  have : ∀ (a b : List UInt8), a.length = b.length → leVal a = leVal b → a = b := by
    intro a
    induction a with
    | nil => intro b hl _; cases b with | nil => rfl | cons => cases hl
    | cons x a ih =>
      intro b hl h
      cases b with
      | nil => cases hl
      | cons y b =>
        simp only [leVal] at h
        have hx := x.toNat_lt
        have hy := y.toNat_lt
        have e : x = y := UInt8.toNat_inj.mp (by omega)
        subst e
        rw [ih b (by simpa using hl) (by omega)]
  exact List.reverse_inj.mp (this _ _ (by simpa using hl) h)

theorem padded_unique {n : Nat} {bs o o' : List UInt8} (h : Padded n bs o) (h' : Padded n bs o') : o = o' := by
  obtain ⟨z, l, rfl, h1, h2, h3, h4⟩ := h
  obtain ⟨z', l', rfl, h1', h2', h3', h4'⟩ := h'
  have : l = l' := bigEndian_inj (by omega) (by omega)
  subst this
  have : z = z' := by
    simp only [List.length_append, List.length_cons, List.length_replicate] at h4 h4'
    obtain ⟨q, h4⟩ := h4
    obtain ⟨q', h4'⟩ := h4'
    generalize 16 * (n / 8) = m at *
    rcases Nat.lt_trichotomy q q' with h | h | h
    · have := Nat.mul_le_mul_left m (show q + 1 ≤ q' from h)
      rw [Nat.mul_add] at this
      omega
    · subst h; omega
    · have := Nat.mul_le_mul_left m (show q' + 1 ≤ q from h)
      rw [Nat.mul_add] at this
      omega
  rw [this]

/-! ## Constants -/

theorem rootBits_unique {r n p k k' : Nat} (h : RootBits r n p k) (h' : RootBits r n p k') : k = k' := by
  obtain ⟨h1, c, h2, h3⟩ := h
  obtain ⟨h1', c', h2', h3'⟩ := h'
  have lt : ∀ {x y : Nat}, x ^ r < y ^ r → x < y := fun h => Nat.lt_of_not_le fun hl => Nat.not_le_of_lt h (Nat.pow_le_pow_left hl r)
  have a := lt (Nat.lt_of_le_of_lt h2 h3')
  have b := lt (Nat.lt_of_le_of_lt h2' h3)
  have e : c * 2 ^ n + k = c' * 2 ^ n + k' := by omega
  have := congrArg (· % 2 ^ n) e
  simpa [Nat.mul_add_mod', Nat.mod_eq_of_lt h1, Nat.mod_eq_of_lt h1'] using this

theorem allRootBits_unique {r n : Nat} : ∀ {ps ks ks' : List Nat}, AllRootBits r n ps ks → AllRootBits r n ps ks' → ks = ks'
  | [], ks, ks', h, h' => by
    have := h.1
    have := h'.1
    simp_all
  | p :: ps, ks, ks', h, h' => by
    obtain ⟨h1, h2⟩ := h
    obtain ⟨h1', h2'⟩ := h'
    cases ks with
    | nil => cases h1
    | cons k ks =>
      cases ks' with
      | nil => cases h1'
      | cons k' ks' =>
        simp only [List.zip_cons_cons, List.mem_cons, forall_eq_or_imp] at h2 h2'
        rw [rootBits_unique h2.1 h2'.1, allRootBits_unique ⟨by simpa using h1, h2.2⟩ ⟨by simpa using h1', h2'.2⟩]

/-- A check that a machine can do. -/
theorem allRootBits_check {r n : Nat} {ps ks : List Nat} (hl : ks.length = ps.length)
    (h : ∀ pk ∈ ps.zip ks, pk.2 < 2 ^ n ∧ ∃ c < 21, (c * 2 ^ n + pk.2) ^ r ≤ pk.1 * 2 ^ (r * n) ∧ pk.1 * 2 ^ (r * n) < (c * 2 ^ n + pk.2 + 1) ^ r) :
    AllRootBits r n ps ks :=
  ⟨hl, fun pk hpk => by
    obtain ⟨h1, c, -, h2⟩ := h pk hpk
    exact ⟨h1, c, h2⟩⟩

/-! ## Digests -/

theorem digest_unique {n : Nat} {s : Vars n} {o o' : List UInt8} (h : Digest s o) (h' : Digest s o') : o = o' := by
  obtain ⟨h1, h2⟩ := h
  obtain ⟨h1', h2'⟩ := h'
  generalize n / 8 = z at *
  have hz : ∀ i < 8, (o.drop (i * z)).take z = (o'.drop (i * z)).take z := by
    intro i hi
    refine bigEndian_inj (by simp [h1, h1']) ?_
    obtain ⟨x, hx⟩ : ∃ x, [s.a, s.b, s.c, s.d, s.e, s.f, s.g, s.h][i]? = some x := ⟨_, List.getElem?_eq_getElem (by simpa using hi)⟩
    rw [h2 i x hx, h2' i x hx]
  have : ∀ k, k ≤ 8 → o.take (k * z) = o'.take (k * z) := by
    intro k
    induction k with
    | zero => simp
    | succ k ih =>
      intro hk
      rw [show (k + 1) * z = k * z + z by ring, List.take_add, List.take_add, ih (by omega), hz k (by omega)]
  have := this 8 (by omega)
  rwa [List.take_of_length_le (by omega), List.take_of_length_le (by omega)] at this

theorem flat_length {n : Nat} (z : Nat) (l : List (BitVec n)) : (l.flatMap fun x => beBytes z x.toNat).length = l.length * z := by
  induction l with
  | nil => simp
  | cons x l ih => simp only [List.flatMap_cons, List.length_append, beBytes_length, ih, List.length_cons]; ring

theorem flat_get {n : Nat} (z : Nat) : ∀ (l : List (BitVec n)) (i : Nat) (x : BitVec n), l[i]? = some x →
    ((l.flatMap fun x => beBytes z x.toNat).drop (i * z)).take z = beBytes z x.toNat
  | [], _, _, h => by simp at h
  | y :: l, 0, x, h => by
    cases h
    rw [List.flatMap_cons, Nat.zero_mul, List.drop_zero, List.take_append_of_le_length (by simp), List.take_of_length_le (by simp)]
  | y :: l, i + 1, x, h => by
    have := flat_get z l i x h
    rw [List.flatMap_cons, show (i + 1) * z = (beBytes z y.toNat).length + i * z by rw [beBytes_length]; ring, ← List.drop_drop, List.drop_left]
    exact this

theorem digest_concat {n : Nat} (hn : n = 8 * (n / 8)) (s : Vars n) : Digest s ([s.a, s.b, s.c, s.d, s.e, s.f, s.g, s.h].flatMap fun x => beBytes (n / 8) x.toNat) := by
  refine ⟨flat_length _ _, fun i x hx => ?_⟩
  rw [flat_get _ _ i x hx, beVal_eq, beVal_beBytes_of_lt]
  rw [show 256 = 2 ^ 8 from rfl, ← Nat.pow_mul, ← hn]
  exact x.isLt

/-! ## The functions -/

theorem final_list (G : Good P) (iv : Vars P.bits) (hi : P.iv = list iv) (bs : List UInt8) : ∃ s : Vars P.bits, final P bs = list s := by
  have := chain_eq G iv (pad P bs) ((pad P bs).length / (16 * P.size)) 0
  rw [Nat.zero_add, Nat.zero_mul, List.drop_zero] at this
  refine ⟨_, Eq.trans ?_ this⟩
  rw [final, hi]
  rfl

theorem hashes_iff (G : Good P) {primes : List Nat} (hk : AllRootBits 3 P.bits primes P.k) (iv : Vars P.bits) (hi : P.iv = list iv)
    (hv : AllRootBits 2 P.bits (primesBelow 20) P.iv) (bs : List UInt8) (h : 8 * bs.length < 2 ^ (2 * P.bits)) (out : List UInt8) :
    Hashes P.bits P.turns primes bs out ↔ ∃ s : Vars P.bits, final P bs = list s ∧ out = [s.a, s.b, s.c, s.d, s.e, s.f, s.g, s.h].flatMap fun x => beBytes P.size x.toNat := by
  have e : final P bs = list (value P.turns P.k iv (pad P bs) ((pad P bs).length / (16 * P.size))) := by
    have := chain_eq G iv (pad P bs) ((pad P bs).length / (16 * P.size)) 0
    rw [Nat.zero_add, Nat.zero_mul, List.drop_zero] at this
    rw [← this, final, hi]
    rfl
  have inj : ∀ s t : Vars P.bits, list s = list t → s = t := by
    intro s t h
    cases s
    cases t
    simpa [list, BitVec.toNat_inj] using h
  constructor
  · rintro ⟨ks, iv', padded, h1, h2, h3, h4⟩
    have e1 := allRootBits_unique h1 hk
    have e2 := inj _ _ ((allRootBits_unique h2 hv).trans hi)
    have e3 := padded_unique h3 (pad_padded G bs h)
    subst e1 e2 e3
    exact ⟨_, e, digest_unique h4 (digest_concat G.size _)⟩
  · rintro ⟨s, h1, rfl⟩
    rw [e] at h1
    rw [← inj _ _ h1]
    exact ⟨P.k, iv, pad P bs, hk, (by rw [hi] at hv; exact hv), pad_padded G bs h, digest_concat G.size _⟩

end Verif.Sha2
