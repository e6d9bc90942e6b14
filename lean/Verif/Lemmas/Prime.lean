import Mathlib.NumberTheory.LucasPrimality
import Mathlib.Tactic.NormNum.Prime
import Verif.Model.Ed25519

/-!
# The prime of the field and the order of the base point are prime

By Lucas's test: `n` is prime if some `a` has order `n - 1` modulo `n`.  The prime factors of `n - 1` are certified in the same way, down to numbers
below ten thousand.
-/

namespace Verif.Ed25519.Prime

open Blake2b (force)

theorem force_eq {α : Type} (n : Nat) (k : Nat → α) : force n k = k n := by cases n <;> rfl

/-- `b ^ e` modulo `n` for an exponent of at most `w` bits. -/
def powMod (n : Nat) : Nat → Nat → Nat → Nat
  | 0, _, _ => 1 % n
  | w + 1, b, e => force (powMod n w b (e / 2)) fun r => if e % 2 = 1 then r * r % n * b % n else r * r % n

theorem powMod_eq (n w b e : Nat) (h : e < 2 ^ w) : powMod n w b e = b ^ e % n := by
  induction w generalizing e with
  | zero =>
    have : e = 0 := by simpa using h
    subst this; rfl
  | succ w ih =>
    have h2 : e / 2 < 2 ^ w := by rw [pow_succ] at h; omega
    rw [powMod, force_eq, ih _ h2]
    rcases Nat.mod_two_eq_zero_or_one e with h0 | h1
    · rw [if_neg (by omega), ← Nat.mul_mod, ← pow_add, show e / 2 + e / 2 = e by omega]
    · rw [if_pos h1, ← Nat.mul_mod, ← pow_add, Nat.mod_mul_mod, ← pow_succ, show e / 2 + e / 2 + 1 = e by omega]

/-- The numerical part of a certificate: `n`, a generator, and the factors of `n - 1` with their exponents. -/
def cert (w n a : Nat) (fs : List (Nat × Nat)) : Bool :=
  decide (1 < n) && decide (n - 1 < 2 ^ w) && ((fs.foldr (fun f x => f.1 ^ f.2 * x) 1) == n - 1) && (powMod n w a (n - 1) == 1) &&
    fs.all fun f => powMod n w a ((n - 1) / f.1) != 1

theorem dvd_factor {q : Nat} (hq : q.Prime) : ∀ (fs : List (Nat × Nat)), (∀ f ∈ fs, f.1.Prime) →
    q ∣ fs.foldr (fun f x => f.1 ^ f.2 * x) 1 → ∃ f ∈ fs, q = f.1
  | [], _, h => absurd h (by simpa using hq.one_lt.ne')
  | f :: fs, hp, h => by
    rcases (Nat.Prime.dvd_mul hq).mp h with h | h
    · exact ⟨f, by simp, (Nat.prime_dvd_prime_iff_eq hq (hp f (by simp))).mp (hq.dvd_of_dvd_pow h)⟩
    · obtain ⟨g, hg, e⟩ := dvd_factor hq fs (fun g hg => hp g (by simp [hg])) h
      exact ⟨g, by simp [hg], e⟩

theorem prime_of_cert {w n a : Nat} {fs : List (Nat × Nat)} (h : cert w n a fs = true) (hp : ∀ f ∈ fs, f.1.Prime) : n.Prime := by
  simp only [cert, Bool.and_eq_true, decide_eq_true_eq, beq_iff_eq, List.all_eq_true, bne_iff_ne, ne_eq] at h
  obtain ⟨⟨⟨⟨h1, hw⟩, hf⟩, ha⟩, hne⟩ := h
  have cast : ∀ e, ((a : ZMod n) ^ e = 1) ↔ a ^ e % n = 1 := by
    intro e
    rw [← Nat.cast_pow, ← Nat.cast_one, ZMod.natCast_eq_natCast_iff', Nat.mod_eq_of_lt h1]
  refine lucas_primality n (a : ZMod n) ?_ ?_
  · rw [cast, ← powMod_eq n w a _ hw, ha]
  · intro q hq hd
    rw [← hf] at hd
    obtain ⟨f, hm, rfl⟩ := dvd_factor hq fs hp hd
    rw [ne_eq, cast, ← powMod_eq n w a _ (lt_of_le_of_lt (Nat.div_le_self _ _) hw)]
    exact hne f hm

theorem p1 : Nat.Prime 32573 :=
  prime_of_cert (w := 15) (a := 2) (fs := [(2, 2), (17, 1), (479, 1)]) (by decide +kernel)
    (by simp only [List.forall_mem_cons, List.not_mem_nil, false_imp_iff, implies_true, and_true]; exact ⟨(by norm_num), (by norm_num), (by norm_num)⟩)
theorem p2 : Nat.Prime 65147 :=
  prime_of_cert (w := 16) (a := 2) (fs := [(2, 1), (32573, 1)]) (by decide +kernel)
    (by simp only [List.forall_mem_cons, List.not_mem_nil, false_imp_iff, implies_true, and_true]; exact ⟨(by norm_num), p1⟩)
theorem p3 : Nat.Prime 57467 :=
  prime_of_cert (w := 16) (a := 2) (fs := [(2, 1), (59, 1), (487, 1)]) (by decide +kernel)
    (by simp only [List.forall_mem_cons, List.not_mem_nil, false_imp_iff, implies_true, and_true]; exact ⟨(by norm_num), (by norm_num), (by norm_num)⟩)
theorem p4 : Nat.Prime 132049 :=
  prime_of_cert (w := 18) (a := 26) (fs := [(2, 4), (3, 2), (7, 1), (131, 1)]) (by decide +kernel)
    (by simp only [List.forall_mem_cons, List.not_mem_nil, false_imp_iff, implies_true, and_true]; exact ⟨(by norm_num), (by norm_num), (by norm_num), (by norm_num)⟩)
theorem p5 : Nat.Prime 1923133 :=
  prime_of_cert (w := 21) (a := 2) (fs := [(2, 2), (3, 1), (43, 1), (3727, 1)]) (by decide +kernel)
    (by simp only [List.forall_mem_cons, List.not_mem_nil, false_imp_iff, implies_true, and_true]; exact ⟨(by norm_num), (by norm_num), (by norm_num), (by norm_num)⟩)
theorem p6 : Nat.Prime 430751 :=
  prime_of_cert (w := 19) (a := 17) (fs := [(2, 1), (5, 3), (1723, 1)]) (by decide +kernel)
    (by simp only [List.forall_mem_cons, List.not_mem_nil, false_imp_iff, implies_true, and_true]; exact ⟨(by norm_num), (by norm_num), (by norm_num)⟩)
theorem p7 : Nat.Prime 31757755568855353 :=
  prime_of_cert (w := 55) (a := 10) (fs := [(2, 3), (3, 1), (31, 1), (107, 1), (223, 1), (4153, 1), (430751, 1)]) (by decide +kernel)
    (by simp only [List.forall_mem_cons, List.not_mem_nil, false_imp_iff, implies_true, and_true]; exact ⟨(by norm_num), (by norm_num), (by norm_num), (by norm_num), (by norm_num), (by norm_num), p6⟩)
theorem p8 : Nat.Prime 37853 :=
  prime_of_cert (w := 16) (a := 2) (fs := [(2, 2), (9463, 1)]) (by decide +kernel)
    (by simp only [List.forall_mem_cons, List.not_mem_nil, false_imp_iff, implies_true, and_true]; exact ⟨(by norm_num), (by norm_num)⟩)
theorem p9 : Nat.Prime 75707 :=
  prime_of_cert (w := 17) (a := 2) (fs := [(2, 1), (37853, 1)]) (by decide +kernel)
    (by simp only [List.forall_mem_cons, List.not_mem_nil, false_imp_iff, implies_true, and_true]; exact ⟨(by norm_num), p8⟩)
theorem p10 : Nat.Prime 569003 :=
  prime_of_cert (w := 20) (a := 2) (fs := [(2, 1), (7, 1), (97, 1), (419, 1)]) (by decide +kernel)
    (by simp only [List.forall_mem_cons, List.not_mem_nil, false_imp_iff, implies_true, and_true]; exact ⟨(by norm_num), (by norm_num), (by norm_num), (by norm_num)⟩)
theorem p11 : Nat.Prime 2773320623 :=
  prime_of_cert (w := 32) (a := 5) (fs := [(2, 1), (2437, 1), (569003, 1)]) (by decide +kernel)
    (by simp only [List.forall_mem_cons, List.not_mem_nil, false_imp_iff, implies_true, and_true]; exact ⟨(by norm_num), (by norm_num), p10⟩)
theorem p12 : Nat.Prime 72106336199 :=
  prime_of_cert (w := 37) (a := 7) (fs := [(2, 1), (13, 1), (2773320623, 1)]) (by decide +kernel)
    (by simp only [List.forall_mem_cons, List.not_mem_nil, false_imp_iff, implies_true, and_true]; exact ⟨(by norm_num), (by norm_num), p11⟩)
theorem p13 : Nat.Prime 8574133 :=
  prime_of_cert (w := 24) (a := 2) (fs := [(2, 2), (3, 1), (7, 1), (103, 1), (991, 1)]) (by decide +kernel)
    (by simp only [List.forall_mem_cons, List.not_mem_nil, false_imp_iff, implies_true, and_true]; exact ⟨(by norm_num), (by norm_num), (by norm_num), (by norm_num), (by norm_num)⟩)
theorem p14 : Nat.Prime 1919519569386763 :=
  prime_of_cert (w := 51) (a := 2) (fs := [(2, 1), (3, 1), (7, 1), (19, 1), (47, 2), (127, 1), (8574133, 1)]) (by decide +kernel)
    (by simp only [List.forall_mem_cons, List.not_mem_nil, false_imp_iff, implies_true, and_true]; exact ⟨(by norm_num), (by norm_num), (by norm_num), (by norm_num), (by norm_num), (by norm_num), p13⟩)
theorem p15 : Nat.Prime 75445702479781427272750846543864801 :=
  prime_of_cert (w := 116) (a := 7) (fs := [(2, 5), (3, 2), (5, 2), (75707, 1), (72106336199, 1), (1919519569386763, 1)]) (by decide +kernel)
    (by simp only [List.forall_mem_cons, List.not_mem_nil, false_imp_iff, implies_true, and_true]; exact ⟨(by norm_num), (by norm_num), (by norm_num), p9, p12, p14⟩)
theorem p16 : Nat.Prime 74058212732561358302231226437062788676166966415465897661863160754340907 :=
  prime_of_cert (w := 236) (a := 2) (fs := [(2, 1), (3, 1), (353, 1), (57467, 1), (132049, 1), (1923133, 1), (31757755568855353, 1), (75445702479781427272750846543864801, 1)]) (by decide +kernel)
    (by simp only [List.forall_mem_cons, List.not_mem_nil, false_imp_iff, implies_true, and_true]; exact ⟨(by norm_num), (by norm_num), (by norm_num), p3, p4, p5, p7, p15⟩)

/-- The field is one. -/
theorem p_prime : p.Prime :=
  prime_of_cert (w := 255) (a := 2) (fs := [(2, 2), (3, 1), (65147, 1), (74058212732561358302231226437062788676166966415465897661863160754340907, 1)]) (by decide +kernel)
    (by simp only [List.forall_mem_cons, List.not_mem_nil, false_imp_iff, implies_true, and_true]; exact ⟨(by norm_num), (by norm_num), p2, p16⟩)
theorem p18 : Nat.Prime 34123 :=
  prime_of_cert (w := 16) (a := 2) (fs := [(2, 1), (3, 1), (11, 2), (47, 1)]) (by decide +kernel)
    (by simp only [List.forall_mem_cons, List.not_mem_nil, false_imp_iff, implies_true, and_true]; exact ⟨(by norm_num), (by norm_num), (by norm_num), (by norm_num)⟩)
theorem p19 : Nat.Prime 409477 :=
  prime_of_cert (w := 19) (a := 2) (fs := [(2, 2), (3, 1), (34123, 1)]) (by decide +kernel)
    (by simp only [List.forall_mem_cons, List.not_mem_nil, false_imp_iff, implies_true, and_true]; exact ⟨(by norm_num), (by norm_num), p18⟩)
theorem p20 : Nat.Prime 14741173 :=
  prime_of_cert (w := 24) (a := 2) (fs := [(2, 2), (3, 2), (409477, 1)]) (by decide +kernel)
    (by simp only [List.forall_mem_cons, List.not_mem_nil, false_imp_iff, implies_true, and_true]; exact ⟨(by norm_num), (by norm_num), p19⟩)
theorem p21 : Nat.Prime 58964693 :=
  prime_of_cert (w := 26) (a := 2) (fs := [(2, 2), (14741173, 1)]) (by decide +kernel)
    (by simp only [List.forall_mem_cons, List.not_mem_nil, false_imp_iff, implies_true, and_true]; exact ⟨(by norm_num), p20⟩)
theorem p22 : Nat.Prime 30703 :=
  prime_of_cert (w := 15) (a := 3) (fs := [(2, 1), (3, 1), (7, 1), (17, 1), (43, 1)]) (by decide +kernel)
    (by simp only [List.forall_mem_cons, List.not_mem_nil, false_imp_iff, implies_true, and_true]; exact ⟨(by norm_num), (by norm_num), (by norm_num), (by norm_num), (by norm_num)⟩)
theorem p23 : Nat.Prime 41081 :=
  prime_of_cert (w := 16) (a := 3) (fs := [(2, 3), (5, 1), (13, 1), (79, 1)]) (by decide +kernel)
    (by simp only [List.forall_mem_cons, List.not_mem_nil, false_imp_iff, implies_true, and_true]; exact ⟨(by norm_num), (by norm_num), (by norm_num), (by norm_num)⟩)
theorem p24 : Nat.Prime 82163 :=
  prime_of_cert (w := 17) (a := 2) (fs := [(2, 1), (41081, 1)]) (by decide +kernel)
    (by simp only [List.forall_mem_cons, List.not_mem_nil, false_imp_iff, implies_true, and_true]; exact ⟨(by norm_num), p23⟩)
theorem p25 : Nat.Prime 22111 :=
  prime_of_cert (w := 15) (a := 6) (fs := [(2, 1), (3, 1), (5, 1), (11, 1), (67, 1)]) (by decide +kernel)
    (by simp only [List.forall_mem_cons, List.not_mem_nil, false_imp_iff, implies_true, and_true]; exact ⟨(by norm_num), (by norm_num), (by norm_num), (by norm_num), (by norm_num)⟩)
theorem p26 : Nat.Prime 132667 :=
  prime_of_cert (w := 18) (a := 5) (fs := [(2, 1), (3, 1), (22111, 1)]) (by decide +kernel)
    (by simp only [List.forall_mem_cons, List.not_mem_nil, false_imp_iff, implies_true, and_true]; exact ⟨(by norm_num), (by norm_num), p25⟩)
theorem p27 : Nat.Prime 17231 :=
  prime_of_cert (w := 15) (a := 13) (fs := [(2, 1), (5, 1), (1723, 1)]) (by decide +kernel)
    (by simp only [List.forall_mem_cons, List.not_mem_nil, false_imp_iff, implies_true, and_true]; exact ⟨(by norm_num), (by norm_num), (by norm_num)⟩)
theorem p28 : Nat.Prime 137849 :=
  prime_of_cert (w := 18) (a := 3) (fs := [(2, 3), (17231, 1)]) (by decide +kernel)
    (by simp only [List.forall_mem_cons, List.not_mem_nil, false_imp_iff, implies_true, and_true]; exact ⟨(by norm_num), p27⟩)
theorem p29 : Nat.Prime 3044861653679985063343 :=
  prime_of_cert (w := 72) (a := 5) (fs := [(2, 1), (3, 1), (11, 1), (30703, 1), (82163, 1), (132667, 1), (137849, 1)]) (by decide +kernel)
    (by simp only [List.forall_mem_cons, List.not_mem_nil, false_imp_iff, implies_true, and_true]; exact ⟨(by norm_num), (by norm_num), (by norm_num), p22, p24, p26, p28⟩)
theorem p30 : Nat.Prime 198211423230930754013084525763697 :=
  prime_of_cert (w := 108) (a := 5) (fs := [(2, 4), (3, 1), (23, 1), (58964693, 1), (3044861653679985063343, 1)]) (by decide +kernel)
    (by simp only [List.forall_mem_cons, List.not_mem_nil, false_imp_iff, implies_true, and_true]; exact ⟨(by norm_num), (by norm_num), (by norm_num), p21, p29⟩)
theorem p31 : Nat.Prime 292386187 :=
  prime_of_cert (w := 29) (a := 2) (fs := [(2, 1), (3, 4), (307, 1), (5879, 1)]) (by decide +kernel)
    (by simp only [List.forall_mem_cons, List.not_mem_nil, false_imp_iff, implies_true, and_true]; exact ⟨(by norm_num), (by norm_num), (by norm_num), (by norm_num)⟩)
theorem p32 : Nat.Prime 213441916511 :=
  prime_of_cert (w := 38) (a := 13) (fs := [(2, 1), (5, 1), (73, 1), (292386187, 1)]) (by decide +kernel)
    (by simp only [List.forall_mem_cons, List.not_mem_nil, false_imp_iff, implies_true, and_true]; exact ⟨(by norm_num), (by norm_num), (by norm_num), p31⟩)
theorem p33 : Nat.Prime 531581 :=
  prime_of_cert (w := 20) (a := 2) (fs := [(2, 2), (5, 1), (7, 1), (3797, 1)]) (by decide +kernel)
    (by simp only [List.forall_mem_cons, List.not_mem_nil, false_imp_iff, implies_true, and_true]; exact ⟨(by norm_num), (by norm_num), (by norm_num), (by norm_num)⟩)
theorem p34 : Nat.Prime 1224481 :=
  prime_of_cert (w := 21) (a := 13) (fs := [(2, 5), (3, 1), (5, 1), (2551, 1)]) (by decide +kernel)
    (by simp only [List.forall_mem_cons, List.not_mem_nil, false_imp_iff, implies_true, and_true]; exact ⟨(by norm_num), (by norm_num), (by norm_num), (by norm_num)⟩)
theorem p35 : Nat.Prime 1257559732178653 :=
  prime_of_cert (w := 51) (a := 2) (fs := [(2, 2), (3, 1), (7, 1), (23, 1), (531581, 1), (1224481, 1)]) (by decide +kernel)
    (by simp only [List.forall_mem_cons, List.not_mem_nil, false_imp_iff, implies_true, and_true]; exact ⟨(by norm_num), (by norm_num), (by norm_num), (by norm_num), p33, p34⟩)
theorem p36 : Nat.Prime 4434155615661930479 :=
  prime_of_cert (w := 62) (a := 17) (fs := [(2, 1), (41, 1), (43, 1), (1257559732178653, 1)]) (by decide +kernel)
    (by simp only [List.forall_mem_cons, List.not_mem_nil, false_imp_iff, implies_true, and_true]; exact ⟨(by norm_num), (by norm_num), (by norm_num), p35⟩)
theorem p37 : Nat.Prime 172054593956031949258510691 :=
  prime_of_cert (w := 88) (a := 2) (fs := [(2, 1), (5, 1), (1361, 1), (2851, 1), (4434155615661930479, 1)]) (by decide +kernel)
    (by simp only [List.forall_mem_cons, List.not_mem_nil, false_imp_iff, implies_true, and_true]; exact ⟨(by norm_num), (by norm_num), (by norm_num), (by norm_num), p36⟩)
theorem p38 : Nat.Prime 19757330305831588566944191468367130476339 :=
  prime_of_cert (w := 134) (a := 2) (fs := [(2, 1), (269, 1), (213441916511, 1), (172054593956031949258510691, 1)]) (by decide +kernel)
    (by simp only [List.forall_mem_cons, List.not_mem_nil, false_imp_iff, implies_true, and_true]; exact ⟨(by norm_num), (by norm_num), p32, p37⟩)
theorem p39 : Nat.Prime 276602624281642239937218680557139826668747 :=
  prime_of_cert (w := 138) (a := 2) (fs := [(2, 1), (7, 1), (19757330305831588566944191468367130476339, 1)]) (by decide +kernel)
    (by simp only [List.forall_mem_cons, List.not_mem_nil, false_imp_iff, implies_true, and_true]; exact ⟨(by norm_num), (by norm_num), p38⟩)

/-- The base point has prime order. -/
theorem order_prime : order.Prime :=
  prime_of_cert (w := 253) (a := 2) (fs := [(2, 2), (3, 1), (11, 1), (198211423230930754013084525763697, 1), (276602624281642239937218680557139826668747, 1)]) (by decide +kernel)
    (by simp only [List.forall_mem_cons, List.not_mem_nil, false_imp_iff, implies_true, and_true]; exact ⟨(by norm_num), (by norm_num), (by norm_num), p30, p39⟩)

end Verif.Ed25519.Prime
