import Verif.Spec.Supply
import Verif.Props.Network
import Verif.Props.Currency

/-!
# The supply of siacoins (C79)
-/

namespace Verif

namespace ChainState

theorem div_step (a b : Nat) (hb : 0 < b) : (a + 1) / b = a / b + if (a + 1) % b = 0 then 1 else 0 := by
  have h1 := Nat.div_add_mod (a + 1) b
  have h2 := Nat.mod_lt (a + 1) hb
  generalize (a + 1) / b = q at *
  generalize (a + 1) % b = r at *
  split
  · rename_i h
    subst h
    cases q with
    | zero => simp at h1
    | succ q =>
      rw [Nat.mul_succ] at h1
      rw [show a = b * q + (b - 1) by omega, Nat.mul_add_div hb, Nat.div_eq_of_lt (by omega)]
  · rw [show a = b * q + (r - 1) by omega, Nat.mul_add_div hb, Nat.div_eq_of_lt (by omega)]; rfl

/-- A subsidy is due. -/
theorem due_iff (fork month h : Nat) : (∃ k, h = fork + k * month) ↔ fork ≤ h ∧ (h - fork) % month = 0 := by
  constructor
  · rintro ⟨k, rfl⟩
    exact ⟨by omega, by rw [Nat.add_sub_cancel_left, Nat.mul_mod_left]⟩
  · rintro ⟨h1, h2⟩
    have := Nat.div_add_mod (h - fork) month
    exact ⟨(h - fork) / month, by rw [Nat.mul_comm]; omega⟩

/-- One more block. -/
theorem subsidies_succ (fork month n : Nat) (hm : 0 < month) :
    subsidies fork month (n + 1) = subsidies fork month n +
      if fork ≤ n + 1 ∧ (n + 1 - fork) % month = 0 then (if n + 1 = fork then 360000 else 30000) else 0 := by
  unfold subsidies
  by_cases h1 : n + 1 < fork
  · rw [if_pos h1, if_pos (by omega), if_neg (by omega)]
  · rw [if_neg h1]
    by_cases h2 : n + 1 = fork
    · rw [if_pos (by omega), h2, Nat.sub_self, Nat.zero_div, if_pos ⟨Nat.le_refl _, Nat.zero_mod _⟩, if_pos rfl]
    · rw [if_neg (by omega), if_neg h2, show n + 1 - fork = (n - fork) + 1 by omega, div_step _ _ hm]
      by_cases h3 : (n - fork + 1) % month = 0
      · rw [if_pos h3, if_pos ⟨by omega, h3⟩]; omega
      · rw [if_neg h3, if_neg (fun h => h3 h.2)]; omega

theorem toNat_max {r a x b : Nat} (h : (r : Int) = max ((a : Int) - x) b) : r = max (a - x) b := by omega

end ChainState

/-- C79.  On every network with a block interval of at least a nanosecond and at most a month, the blocks up to height `n` create the rewards of C36
and the subsidies, one at the fork and one every month. -/
theorem C79_created (m : Mode) (cs : ChainState) (interval n : Nat) (hn : n ≤ 340282366920938) (hi : cs.network.blockInterval.ns = interval)
    (h0 : 0 < interval) (h1 : interval ≤ 2628000000000000) (hf : 0 < cs.network.hardforkFoundation.height.toNat) :
    ∃ l, cs.created m n = .ok l ∧ (l.map Currency.hastings).sum =
      ((List.range n).map fun i => max (cs.network.initialCoinbase.hastings - (i + 1) * 10 ^ 24) cs.network.minimumCoinbase.hastings).sum +
        ChainState.subsidies cs.network.hardforkFoundation.height.toNat (2628000000000000 / interval) n * 10 ^ 24 := by
  induction n with
  | zero => exact ⟨[], rfl, by simp [ChainState.subsidies, hf]⟩
  | succ n ih =>
    obtain ⟨l, e1, e2⟩ := ih (by omega)
    have hh : (cs.atHeight (BitVec.ofNat 64 n)).tipHeight = n := by
      show (BitVec.ofNat 64 n).toNat = n
      rw [BitVec.toNat_ofNat]
      omega
    obtain ⟨r, r1, r2⟩ := C36_block_reward m (cs.atHeight (BitVec.ofNat 64 n)) (by omega)
    obtain ⟨o, o1, o2, o3⟩ := C38_foundation_subsidy m (cs.atHeight (BitVec.ofNat 64 n)) interval (by omega) hi h0 h1
    have hw : (cs.atHeight (BitVec.ofNat 64 n)).network = cs.network := rfl
    rw [hh, hw] at r2 o2 o3
    rw [ChainState.due_iff] at o2
    refine ⟨_, by rw [ChainState.created, e1, Res.ok_bind, r1, Res.ok_bind, o1]; rfl, ?_⟩
    have hr : r.hastings = max (cs.network.initialCoinbase.hastings - (n + 1) * 10 ^ 24) cs.network.minimumCoinbase.hastings := by
      have e : (((n + 1) * 10 ^ 24 : Nat) : Int) = ((n + 1 : Nat) : Int) * 10 ^ 24 := by
        rw [Int.natCast_mul, Int.natCast_pow]
        simp only [Int.cast_ofNat_Int]
      exact ChainState.toNat_max (e ▸ r2)
    have ho : ((o.toList.map (·.value)).map Currency.hastings).sum =
        (if cs.network.hardforkFoundation.height.toNat ≤ n + 1 ∧
            (n + 1 - cs.network.hardforkFoundation.height.toNat) % (2628000000000000 / interval) = 0
          then (if n + 1 = cs.network.hardforkFoundation.height.toNat then 360000 else 30000) else 0) * 10 ^ 24 := by
      cases o with
      | none =>
        rw [if_neg fun hk => (by cases o2.2 hk), Nat.zero_mul]
        rfl
      | some out =>
        rw [if_pos (o2.1 rfl)]
        rw [← (o3 out rfl).2]
        exact Nat.add_zero _
    have key : ∀ a b c d k : Nat, a + b * k + (c + d * k) = a + (c + 0) + (b + d) * k := by
      intro a b c d k
      rw [Nat.add_mul]
      omega
    rw [ChainState.subsidies_succ _ _ _ (Nat.div_pos h1 h0), List.map_append, List.sum_append, List.map_cons, List.sum_cons, e2, ho, hr,
      List.range_succ, List.map_append, List.sum_append, List.map_cons, List.map_nil, List.sum_cons, List.sum_nil, key]

theorem mined_sum (n : Nat) :
    ((List.range n).map fun i => max (300000 * 10 ^ 24 - (i + 1) * 10 ^ 24) (30000 * 10 ^ 24)).sum = ChainState.mainnetMined n * 10 ^ 24 := by
  induction n with
  | zero => rfl
  | succ n ih =>
    have key : ∀ a k : Nat, max (300000 * k - a * k) (30000 * k) + 0 = max (300000 - a) 30000 * k := by
      intro a k
      rw [← Nat.sub_mul, Nat.add_zero, Nat.mul_max_mul_right]
    rw [List.range_succ, List.map_append, List.sum_append, ih, List.map_cons, List.map_nil, List.sum_cons, List.sum_nil, key,
      ChainState.mainnetMined, ChainState.mainnetReward, Nat.add_mul (ChainState.mainnetMined n)]

/-- C79.  On the main network that is a closed formula. -/
theorem C79_mainnet (m m' : Mode) (cs : ChainState) (hn : Network.mainnet m' = .ok cs.network) (n : Nat) (hb : n ≤ 340282366920938) :
    ∃ l, cs.created m n = .ok l ∧ (l.map Currency.hastings).sum = ChainState.mainnetSupply n * 10 ^ 24 := by
  have hf := facts_mainnet hn
  simp only [Network.facts, Prod.mk.injEq] at hf
  obtain ⟨l, h1, h2⟩ := C79_created m cs 600000000000 n hb hf.2.2.1 (by decide) (by decide) (by rw [hf.2.2.2.2.2.1]; decide)
  refine ⟨l, h1, ?_⟩
  rw [h2, hf.1, hf.2.1, hf.2.2.2.2.2.1, mined_sum, ChainState.mainnetSupply, Nat.add_mul]

/-- C79.  The formula. -/
theorem C79_formula (n : Nat) :
    (n ≤ 270000 → ChainState.mainnetSupply n = 300000 * n - n * (n + 1) / 2) ∧
    (270000 ≤ n → n < 298000 → ChainState.mainnetSupply n = 44549865000 + 30000 * (n - 270000)) ∧
    (298000 ≤ n → ChainState.mainnetSupply n = 44549865000 + 30000 * (n - 270000) + 360000 + 30000 * ((n - 298000) / 4380)) := by
  obtain ⟨h1, h2⟩ := C58_mainnet_issuance n
  unfold ChainState.mainnetSupply ChainState.subsidies
  refine ⟨fun h => ?_, fun h h' => ?_, fun h => ?_⟩
  · rw [h1 h, if_pos (by omega), Nat.add_zero]
  · rw [h2 h, if_pos h', Nat.add_zero]
  · rw [h2 (by omega), if_neg (by omega), ← Nat.add_assoc]

/-- C79.  Until height 11338941825, more than 215000 years, all siacoins of the main network fit in a `Currency`, and adding them up with `sum` gives their number;
from then on it panics in an overflow-checked build. -/
theorem C79_fits (m m' : Mode) (cs : ChainState) (hn : Network.mainnet m' = .ok cs.network) (n : Nat) (hb : n ≤ 340282366920938) :
    ∃ l, cs.created m n = .ok l ∧
      (n ≤ 11338941825 → ∃ c, Currency.sum m l = .ok c ∧ c.hastings = ChainState.mainnetSupply n * 10 ^ 24) ∧
      (11338941825 < n → m = .checked → Currency.sum m l = .panic) := by
  obtain ⟨l, h1, h2⟩ := C79_mainnet m m' cs hn n hb
  refine ⟨l, h1, ?_, ?_⟩
  · intro h
    have hs : ChainState.mainnetSupply n ≤ 340282366905000 := by
      obtain ⟨f1, f2, f3⟩ := C79_formula n
      by_cases ha : n ≤ 270000
      · rw [f1 ha]; omega
      · by_cases hb : n < 298000
        · rw [f2 (by omega) hb]; omega
        · rw [f3 (by omega)]; omega
    obtain ⟨c, e1, e2⟩ := (C13_sum m l).inRange (by omega)
    exact ⟨c, e1, by omega⟩
  · intro h hm
    have hs : 340282366935000 ≤ ChainState.mainnetSupply n := by
      rw [(C79_formula n).2.2 (by omega)]; omega
    exact (C13_sum m l).panics (by omega) hm

/-- C79.  What was created never becomes less, and no block creates more than 390000 siacoins. -/
theorem C79_per_block (n : Nat) : ChainState.mainnetSupply n + 30000 ≤ ChainState.mainnetSupply (n + 1) ∧
    ChainState.mainnetSupply (n + 1) ≤ ChainState.mainnetSupply n + 390000 := by
  unfold ChainState.mainnetSupply
  rw [ChainState.subsidies_succ _ _ _ (by decide), ChainState.mainnetMined, ChainState.mainnetReward]
  split
  · split <;> omega
  · omega

/-- The hypotheses are met: the main network exists in every build, with a chain state on it. -/
example (m : Mode) : ∃ cs : ChainState, Network.mainnet m = .ok cs.network := by
  have hc : (Network.mainnet m).check (fun _ => true) = true := by cases m <;> decide +kernel
  cases h : Network.mainnet m with
  | ok n => exact ⟨⟨n, Sample.state⟩, rfl⟩
  | err e => rw [h] at hc; cases hc
  | panic => rw [h] at hc; cases hc

/-- At height 298000 the foundation's first subsidy has been paid. -/
example : ChainState.mainnetSupply 298000 = 45390225000 := by rw [(C79_formula 298000).2.2 (by decide)]

end Verif
