import Verif.Props.Samples
import Verif.Spec.Consensus
import Verif.Lemmas.Arith

/-!
# C36-C40: consensus parameters and taxes
-/

namespace Verif

/-! ## Sample network -/

namespace Sample

/-- Parameters of the main network (sia/src/consensus.rs 107-152), with zero addresses. -/
def network : Network :=
  { name := "mainnet"
    initialCoinbase := ⟨300000000000000000000000000000⟩
    minimumCoinbase := ⟨30000000000000000000000000000⟩
    initialTarget := h 0
    blockInterval := ⟨600000000000⟩
    maturityDelay := 144
    hardforkDevAddr := ⟨10000, h 0, h 0⟩
    hardforkTax := 21000
    hardforkStorageProof := 100000
    hardforkOak := ⟨135000, 139000, ⟨1433600000, 0⟩⟩
    hardforkASIC := ⟨179000, ⟨120000000000000⟩, h 0⟩
    hardforkFoundation := ⟨298000, h 5, h 6⟩
    hardforkV2 := ⟨1000000, 1025000⟩ }

def cs : ChainState := ⟨network, state⟩

end Sample

/-! ## C36 block reward -/

theorem childHeight_ok {m : Mode} {cs : ChainState} (h : cs.tipHeight + 1 < 2 ^ 64) :
    ∃ c, cs.childHeight m = .ok c ∧ c.toNat = cs.tipHeight + 1 := by
  refine ⟨cs.state.index.height + 1, ?_, ?_⟩
  · unfold ChainState.childHeight ChainIndex.childHeight addU
    cases m
    · exact if_pos h
    · rfl
  · simp only [ChainState.tipHeight] at *
    rw [BitVec.toNat_add]
    exact Nat.mod_eq_of_lt h

/-- C36: the reward of the block after the tip is the initial coinbase less one siacoin per height, but at least the
minimum. -/
theorem C36_block_reward (m : Mode) (cs : ChainState) (h : cs.tipHeight + 1 ≤ 340282366920938) :
    ∃ r, cs.blockReward m = .ok r ∧ (r.hastings : Int) =
      max (cs.network.initialCoinbase.hastings - (cs.tipHeight + 1 : Nat) * 10 ^ 24 : Int)
        cs.network.minimumCoinbase.hastings := by
  obtain ⟨c, h1, h2⟩ := childHeight_ok (m := m) (cs := cs) (by omega)
  obtain ⟨s, h3, h4⟩ := (exactly_siacoins m c).inRange (by omega)
  unfold ChainState.blockReward
  rw [h1, Res.ok_bind, h3, Res.ok_bind]
  unfold Currency.checkedSub
  simp only [Currency.hastings, ChainState.tipHeight] at *
  have hi := cs.network.initialCoinbase.val.isLt
  by_cases hle : s.val.toNat ≤ cs.network.initialCoinbase.val.toNat
  · rw [if_pos hle]
    have hs : (cs.network.initialCoinbase.val - s.val).toNat = cs.network.initialCoinbase.val.toNat - s.val.toNat := by
      rw [BitVec.toNat_sub]; omega
    by_cases hm : cs.network.minimumCoinbase.val.toNat ≤ (cs.network.initialCoinbase.val - s.val).toNat
    · refine ⟨⟨cs.network.initialCoinbase.val - s.val⟩, by simp only; rw [if_pos hm]; rfl, ?_⟩
      simp only
      omega
    · refine ⟨cs.network.minimumCoinbase, by simp only; rw [if_neg hm]; rfl, ?_⟩
      omega
  · rw [if_neg hle]
    exact ⟨cs.network.minimumCoinbase, rfl, by omega⟩

/-- C36: in an overflow-checked build the reward panics exactly above that height; so the restriction is needed. -/
theorem C36_block_reward_panics (cs : ChainState) :
    cs.blockReward .checked = .panic ↔ 340282366920938 < cs.tipHeight + 1 := by
  constructor
  · intro hp
    rcases Nat.lt_or_ge 340282366920938 (cs.tipHeight + 1) with h | h
    · exact h
    · obtain ⟨r, h1, _⟩ := C36_block_reward .checked cs h
      rw [h1] at hp
      simp at hp
  · intro h
    unfold ChainState.blockReward
    by_cases hm : cs.tipHeight + 1 < 2 ^ 64
    · obtain ⟨c, h1, h2⟩ := childHeight_ok (m := .checked) (cs := cs) hm
      rw [h1, Res.ok_bind, (exactly_siacoins .checked c).panics (by omega) rfl]
      rfl
    · have : cs.childHeight .checked = .panic := by
        unfold ChainState.childHeight ChainIndex.childHeight addU
        exact if_neg hm
      rw [this]
      rfl

/-- C36: without overflow checks the height and the product wrap, so above that height the reward is the initial coinbase less the wrapped amount. -/
theorem C36_block_reward_wraps (cs : ChainState) :
    ∃ r, cs.blockReward .unchecked = .ok r ∧ (r.hastings : Int) =
      max (cs.network.initialCoinbase.hastings - ((cs.tipHeight + 1) % 2 ^ 64 * 10 ^ 24 % 2 ^ 128 : Nat) : Int)
        cs.network.minimumCoinbase.hastings := by
  obtain ⟨c, h1, h2⟩ : ∃ c : U64, cs.childHeight .unchecked = .ok c ∧ c.toNat = (cs.tipHeight + 1) % 2 ^ 64 := by
    by_cases hm : cs.tipHeight + 1 < 2 ^ 64
    · obtain ⟨c, h1, h2⟩ := childHeight_ok (m := .unchecked) (cs := cs) hm
      exact ⟨c, h1, by omega⟩
    · unfold ChainState.childHeight ChainIndex.childHeight addU
      rw [if_neg (by simpa [ChainState.tipHeight] using hm)]
      refine ⟨_, rfl, ?_⟩
      rw [BitVec.toNat_add]
      rfl
  obtain ⟨s, h3, h4⟩ : ∃ s, Currency.siacoins .unchecked c = .ok s ∧ s.hastings = c.toNat * 10 ^ 24 % 2 ^ 128 := by
    by_cases hr : c.toNat * 10 ^ 24 < 2 ^ 128
    · obtain ⟨s, h3, h4⟩ := (exactly_siacoins .unchecked c).inRange (by omega)
      exact ⟨s, h3, by omega⟩
    · obtain ⟨s, h3, h4⟩ := (exactly_siacoins .unchecked c).wraps (by omega) rfl
      exact ⟨s, h3, by omega⟩
  rw [h2] at h4
  generalize (cs.tipHeight + 1) % 2 ^ 64 * 10 ^ 24 % 2 ^ 128 = x at *
  unfold ChainState.blockReward
  rw [h1, Res.ok_bind, h3, Res.ok_bind]
  unfold Currency.checkedSub
  simp only [Currency.hastings] at *
  have hi := cs.network.initialCoinbase.val.isLt
  by_cases hle : s.val.toNat ≤ cs.network.initialCoinbase.val.toNat
  · rw [if_pos hle]
    have hs : (cs.network.initialCoinbase.val - s.val).toNat = cs.network.initialCoinbase.val.toNat - s.val.toNat := by
      rw [BitVec.toNat_sub]; omega
    by_cases hm : cs.network.minimumCoinbase.val.toNat ≤ (cs.network.initialCoinbase.val - s.val).toNat
    · exact ⟨⟨cs.network.initialCoinbase.val - s.val⟩, by simp only; rw [if_pos hm]; rfl,
        by show ((cs.network.initialCoinbase.val - s.val).toNat : Int) = _; omega⟩
    · exact ⟨cs.network.minimumCoinbase, by simp only; rw [if_neg hm]; rfl, by omega⟩
  · rw [if_neg hle]
    exact ⟨cs.network.minimumCoinbase, rfl, by omega⟩

/-- C36: so without overflow checks the reward of the main network rises again at that height, from the minimum to more than 299999 siacoins. -/
theorem C36_not_non_increasing_unchecked (cs : ChainState) (hn : cs.network = Sample.network) :
    (cs.atHeight 340282366920937).blockReward .unchecked = .ok ⟨30000 * 10 ^ 24⟩ ∧
      (cs.atHeight 340282366920938).blockReward .unchecked = .ok ⟨299999463463374607431768211456⟩ := by
  obtain ⟨a, h1, h2⟩ := C36_block_reward_wraps (cs.atHeight 340282366920937)
  obtain ⟨b, h3, h4⟩ := C36_block_reward_wraps (cs.atHeight 340282366920938)
  have e1 : Sample.network.initialCoinbase.hastings = 300000 * 10 ^ 24 := by decide +kernel
  have e2 : Sample.network.minimumCoinbase.hastings = 30000 * 10 ^ 24 := by decide +kernel
  simp only [ChainState.atHeight, ChainState.tipHeight] at h2 h4
  rw [hn, e1, e2] at h2 h4
  rw [h1, h3]
  constructor
  · exact congrArg _ (Currency.ext' (Int.ofNat.inj (h2.trans (by decide +kernel))))
  · exact congrArg _ (Currency.ext' (Int.ofNat.inj (h4.trans (by decide +kernel))))

/-- C36: rewards never increase with height. -/
theorem C36_non_increasing (m : Mode) (cs : ChainState) (h h' : U64) (r r' : Currency) (hle : h.toNat ≤ h'.toNat)
    (hb : h'.toNat + 1 ≤ 340282366920938) (hr : (cs.atHeight h).blockReward m = .ok r)
    (hr' : (cs.atHeight h').blockReward m = .ok r') : r'.hastings ≤ r.hastings := by
  obtain ⟨x, e1, e2⟩ := C36_block_reward m (cs.atHeight h) (by show h.toNat + 1 ≤ _; omega)
  obtain ⟨x', e3, e4⟩ := C36_block_reward m (cs.atHeight h') hb
  rw [hr] at e1
  rw [hr'] at e3
  simp only [Res.ok.injEq] at e1 e3
  subst e1 e3
  simp only [ChainState.atHeight, ChainState.tipHeight] at e2 e4
  omega

/-- C36: once at the minimum, always at the minimum. -/
theorem C36_stays_minimal (m : Mode) (cs : ChainState) (h h' : U64) (hle : h.toNat ≤ h'.toNat)
    (hb : h'.toNat + 1 ≤ 340282366920938) (hr : (cs.atHeight h).blockReward m = .ok cs.network.minimumCoinbase) :
    (cs.atHeight h').blockReward m = .ok cs.network.minimumCoinbase := by
  obtain ⟨x, e1, e2⟩ := C36_block_reward m (cs.atHeight h) (by show h.toNat + 1 ≤ _; omega)
  obtain ⟨x', e3, e4⟩ := C36_block_reward m (cs.atHeight h') hb
  rw [hr] at e1
  simp only [Res.ok.injEq] at e1
  subst e1
  rw [e3]
  congr 1
  apply Currency.ext'
  simp only [ChainState.atHeight, ChainState.tipHeight] at e2 e4
  omega

/-- C36: on the main network the reward falls from 299999 SC at height 1 to 30000 SC at height 270000. -/
theorem C36_mainnet (m : Mode) (cs : ChainState) (hn : cs.network = Sample.network) (h : cs.tipHeight + 1 ≤ 340282366920938) :
    ∃ r, cs.blockReward m = .ok r ∧ r.hastings = (max (300000 - (cs.tipHeight + 1)) 30000) * 10 ^ 24 := by
  obtain ⟨r, h1, h2⟩ := C36_block_reward m cs h
  refine ⟨r, h1, ?_⟩
  rw [hn] at h2
  have e1 : Sample.network.initialCoinbase.hastings = 300000 * 10 ^ 24 := by decide +kernel
  have e2 : Sample.network.minimumCoinbase.hastings = 30000 * 10 ^ 24 := by decide +kernel
  rw [e1, e2] at h2
  omega

example : Sample.cs.tipHeight + 1 ≤ 340282366920938 := by decide +kernel
example : Sample.cs.blockReward .checked = .ok ⟨299997 * 10 ^ 24⟩ := by decide +kernel
example : (Sample.cs.atHeight 270000).blockReward .checked = .ok Sample.cs.network.minimumCoinbase := by decide +kernel

/-! ## C37 replay prefix -/

/-- C37: with the forks in order, the prefix is empty before the ASIC fork and afterwards one byte that counts the forks
active at the tip, from zero. -/
theorem C37_replay_prefix (cs : ChainState) (h : cs.OrderedForks) :
    (cs.activeForks = 0 → cs.replayPrefix = []) ∧
    (cs.activeForks ≠ 0 → cs.replayPrefix = [UInt8.ofNat (cs.activeForks - 1)]) := by
  obtain ⟨h1, h2⟩ := h
  unfold ChainState.activeForks ChainState.replayPrefix
  simp only [ChainState.tipHeight]
  by_cases a : cs.network.hardforkASIC.height.toNat ≤ cs.state.index.height.toNat <;>
  by_cases b : cs.network.hardforkFoundation.height.toNat ≤ cs.state.index.height.toNat <;>
  by_cases c : cs.network.hardforkV2.allowHeight.toNat ≤ cs.state.index.height.toNat <;>
  first
  | (exfalso; omega)
  | simp [a, b, c]

/-- C37: in any order of forks the latest in the order v2, Foundation, ASIC decides. -/
theorem C37_replay_prefix_latest (cs : ChainState) :
    (cs.replayPrefix = [2] ↔ cs.network.hardforkV2.allowHeight.toNat ≤ cs.tipHeight) ∧
    (cs.replayPrefix = [1] ↔ cs.tipHeight < cs.network.hardforkV2.allowHeight.toNat ∧
      cs.network.hardforkFoundation.height.toNat ≤ cs.tipHeight) ∧
    (cs.replayPrefix = [0] ↔ cs.tipHeight < cs.network.hardforkV2.allowHeight.toNat ∧
      cs.tipHeight < cs.network.hardforkFoundation.height.toNat ∧ cs.network.hardforkASIC.height.toNat ≤ cs.tipHeight) ∧
    (cs.replayPrefix = [] ↔ cs.tipHeight < cs.network.hardforkV2.allowHeight.toNat ∧
      cs.tipHeight < cs.network.hardforkFoundation.height.toNat ∧ cs.tipHeight < cs.network.hardforkASIC.height.toNat) := by
  unfold ChainState.replayPrefix
  simp only [ChainState.tipHeight]
  split
  · simp; omega
  · split
    · simp; omega
    · split
      · simp; omega
      · simp; omega

/-- C37: two states in different eras have different prefixes, neither a prefix of the other unless one is empty. -/
theorem C37_eras_differ (cs cs' : ChainState) (h : cs.OrderedForks) (h' : cs'.OrderedForks)
    (hne : cs.activeForks ≠ cs'.activeForks) : cs.replayPrefix ≠ cs'.replayPrefix := by
  have b : ∀ c : ChainState, c.activeForks ≤ 3 := fun c => List.length_filter_le _ _
  have b1 := b cs
  have b2 := b cs'
  obtain ⟨e1, e2⟩ := C37_replay_prefix cs h
  obtain ⟨e3, e4⟩ := C37_replay_prefix cs' h'
  generalize cs.activeForks = x at *
  generalize cs'.activeForks = y at *
  intro he
  by_cases hx : x = 0
  · rw [e1 hx, e4 (by omega)] at he
    simp at he
  · by_cases hy : y = 0
    · rw [e2 hx, e3 hy] at he
      simp at he
    · rw [e2 hx, e4 hy] at he
      simp only [List.cons.injEq, and_true] at he
      have := congrArg UInt8.toNat he
      simp only [UInt8.toNat_ofNat'] at this
      omega

example : Sample.cs.OrderedForks ∧ (Sample.cs.atHeight 179000).activeForks = 1 ∧ (Sample.cs.atHeight 298000).activeForks = 2 ∧
    (Sample.cs.atHeight 1000000).activeForks = 3 := by
  refine ⟨⟨by decide +kernel, by decide +kernel⟩, by decide +kernel, by decide +kernel, by decide +kernel⟩

/-! ## C38 foundation subsidy -/

/-- C38: with a block interval of at least a nanosecond and at most a twelfth of 365 days, a subsidy is due at the foundation
hardfork height and every month's worth of blocks after it and at no other height; the first is 360000 SC and the
others 30000 SC, to the network's primary address. -/
theorem C38_foundation_subsidy (m : Mode) (cs : ChainState) (n : Nat) (h : cs.tipHeight + 1 < 2 ^ 64)
    (hn : cs.network.blockInterval.ns = n) (h0 : 0 < n) (h1 : n ≤ 2628000000000000) :
    ∃ o, cs.foundationSubsidy m = .ok o ∧
      (o.isSome ↔ ∃ k, cs.tipHeight + 1 = cs.network.hardforkFoundation.height.toNat + k * (2628000000000000 / n)) ∧
      (∀ out, o = some out → out.address = cs.network.hardforkFoundation.primaryAddress ∧
        out.value.hastings =
          (if cs.tipHeight + 1 = cs.network.hardforkFoundation.height.toNat then 360000 else 30000) * 10 ^ 24) := by
  obtain ⟨c, hc1, hc2⟩ := childHeight_ok (m := m) (cs := cs) h
  unfold ChainState.foundationSubsidy
  rw [hc1, Res.ok_bind]
  by_cases hlt : c.toNat < cs.network.hardforkFoundation.height.toNat
  · rw [if_pos hlt]
    refine ⟨none, rfl, ?_, by simp⟩
    simp only [Option.isSome_none, Bool.false_eq_true, false_iff, not_exists]
    intro k hk
    have := Nat.zero_le (k * (2628000000000000 / n))
    omega
  · rw [if_neg hlt]
    -- blocks per month
    have hq : 1 ≤ 2628000000000000 / n := (Nat.le_div_iff_mul_le h0).mpr (by omega)
    have hq' : 2628000000000000 / n ≤ 2628000000000000 := Nat.div_le_self _ _
    obtain ⟨b, hb1, hb2⟩ : ∃ b : U64, cs.blocksPerMonth = .ok b ∧ b.toNat = 2628000000000000 / n := by
      refine ⟨_, if_neg (by omega), ?_⟩
      rw [hn]
      have : Int.tdiv (Int.tdiv 31536000000000000 12) (n : Int) = ((2628000000000000 / n : Nat) : Int) := by
        have e : Int.tdiv 31536000000000000 12 = ((2628000000000000 : Nat) : Int) := by decide +kernel
        rw [e, Int.ofNat_tdiv]
      rw [this, BitVec.ofInt_natCast, BitVec.toNat_ofNat]
      exact Nat.mod_eq_of_lt (by omega)
    rw [hb1, Res.ok_bind]
    -- difference
    obtain ⟨d, hd1, hd2⟩ : ∃ d : U64, subU m c cs.network.hardforkFoundation.height = .ok d ∧
        d.toNat = c.toNat - cs.network.hardforkFoundation.height.toNat := by
      refine ⟨c - cs.network.hardforkFoundation.height, ?_, ?_⟩
      · unfold subU
        cases m
        · exact if_pos (by omega)
        · rfl
      · rw [BitVec.toNat_sub]; omega
    rw [hd1, Res.ok_bind]
    have hb0 : b ≠ 0 := by
      intro hz
      rw [hz] at hb2
      simp at hb2
      omega
    have hr : remU d b = .ok (d % b) := if_neg hb0
    rw [hr, Res.ok_bind]
    have hdvd : d % b = 0 ↔ ∃ k, cs.tipHeight + 1 = cs.network.hardforkFoundation.height.toNat + k * (2628000000000000 / n) := by
      rw [← BitVec.toNat_inj, BitVec.toNat_umod, hd2, hb2]
      constructor
      · intro hz
        obtain ⟨k, hk⟩ := Nat.dvd_of_mod_eq_zero (show (c.toNat - cs.network.hardforkFoundation.height.toNat) %
          (2628000000000000 / n) = 0 from hz)
        refine ⟨k, ?_⟩
        rw [Nat.mul_comm] at hk
        omega
      · rintro ⟨k, hk⟩
        rw [show c.toNat - cs.network.hardforkFoundation.height.toNat = k * (2628000000000000 / n) by omega]
        exact Nat.mul_mod_left _ _
    by_cases hz : d % b = 0
    · rw [if_neg (by simpa using hz)]
      obtain ⟨s, hs1, hs2⟩ := (exactly_siacoins m 30000).inRange (by decide +kernel)
      rw [hs1, Res.ok_bind]
      have hs3 : s.hastings = 30000 * 10 ^ 24 := by
        have : (30000 : U64).toNat = 30000 := rfl
        rw [this] at hs2
        omega
      by_cases he : c = cs.network.hardforkFoundation.height
      · rw [if_pos he]
        have h12 : (⟨12⟩ : Currency).hastings = 12 := rfl
        obtain ⟨v, hv1, hv2⟩ := (exactly_mul m s ⟨12⟩).inRange (by rw [hs3, h12]; omega)
        rw [hv1, Res.ok_bind]
        refine ⟨_, rfl, by simp [← hdvd, hz], ?_⟩
        intro out ho
        simp only [Option.some.injEq] at ho
        subst ho
        refine ⟨rfl, ?_⟩
        rw [if_pos (by rw [← hc2, he])]
        rw [hs3, h12] at hv2
        simp only
        omega
      · rw [if_neg he]
        refine ⟨_, rfl, by simp [← hdvd, hz], ?_⟩
        intro out ho
        simp only [Option.some.injEq] at ho
        subst ho
        refine ⟨rfl, ?_⟩
        rw [if_neg (by rw [← hc2, BitVec.toNat_inj]; exact he)]
        exact hs3
    · rw [if_pos (by simpa using hz)]
      refine ⟨none, rfl, ?_, by simp⟩
      rw [← hdvd]
      simp only [Option.isSome_none, Bool.false_eq_true, false_iff]
      exact hz

/-- C38: outside that range of intervals the division panics from the fork on: for an interval of zero or longer than a
month. -/
theorem C38_degenerate_interval (m : Mode) (cs : ChainState) (h : cs.tipHeight + 1 < 2 ^ 64)
    (hf : cs.network.hardforkFoundation.height.toNat ≤ cs.tipHeight + 1)
    (hi : cs.network.blockInterval.ns = 0 ∨ 2628000000000000 < cs.network.blockInterval.ns) :
    cs.foundationSubsidy m = .panic := by
  obtain ⟨c, hc1, hc2⟩ := childHeight_ok (m := m) (cs := cs) h
  unfold ChainState.foundationSubsidy
  rw [hc1, Res.ok_bind, if_neg (by omega)]
  unfold ChainState.blocksPerMonth
  rcases hi with hi | hi
  · rw [if_pos hi]; rfl
  · rw [if_neg (by omega)]
    have e : Int.tdiv (Int.tdiv 31536000000000000 12) cs.network.blockInterval.ns = 0 := by
      rw [show Int.tdiv 31536000000000000 12 = 2628000000000000 by decide +kernel]
      exact Int.tdiv_eq_zero_of_lt (by omega) hi
    rw [e, Res.ok_bind]
    obtain ⟨d, hd1⟩ : ∃ d : U64, subU m c cs.network.hardforkFoundation.height = .ok d := by
      unfold subU
      cases m
      · exact ⟨_, if_pos (by omega)⟩
      · exact ⟨_, rfl⟩
    rw [hd1, Res.ok_bind]
    rfl

example : Sample.cs.network.blockInterval.ns = (600000000000 : Nat) ∧ 2628000000000000 / 600000000000 = 4380 := by
  decide +kernel
example : ((Sample.cs.atHeight 297999).foundationSubsidy .checked) = .ok (some ⟨⟨360000 * 10 ^ 24⟩, Sample.h 5⟩) := by
  decide +kernel
example : ((Sample.cs.atHeight 302379).foundationSubsidy .checked) = .ok (some ⟨⟨30000 * 10 ^ 24⟩, Sample.h 5⟩) := by
  decide +kernel

/-- A network whose blocks take longer than a month, after its fork. -/
example : (⟨{ Sample.network with blockInterval := ⟨2628000000000001⟩ }, (Sample.cs.atHeight 297999).state⟩ : ChainState).foundationSubsidy .unchecked = .panic :=
  C38_degenerate_interval _ _ (by decide +kernel) (by decide +kernel) (.inr (by decide +kernel))

end Verif
