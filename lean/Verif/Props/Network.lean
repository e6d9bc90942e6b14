import Verif.Spec.Network
import Verif.Props.Consensus
import Verif.Props.Document

/-!
# C57, C58: chain heights and the built-in networks
-/

namespace Verif

/-! ## C57 heights and factors -/

/-- C57: outputs created in the next block mature the network's maturity delay after it. -/
theorem C57_maturity_height (m : Mode) (cs : ChainState) (h : cs.tipHeight + 1 + cs.network.maturityDelay.toNat < 2 ^ 64) :
    ∃ c, cs.maturityHeight m = .ok c ∧ c.toNat = cs.tipHeight + 1 + cs.network.maturityDelay.toNat := by
  obtain ⟨c, h1, h2⟩ := childHeight_ok (m := m) (cs := cs) (by omega)
  refine ⟨c + cs.network.maturityDelay, ?_, ?_⟩
  · unfold ChainState.maturityHeight addU
    rw [h1, Res.ok_bind]
    cases m
    · exact if_pos (by omega)
    · rfl
  · rw [BitVec.toNat_add]
    omega

/-- C57: beyond the largest height an overflow-checked build panics. -/
theorem C57_maturity_height_panics (cs : ChainState) :
    cs.maturityHeight .checked = .panic ↔ 2 ^ 64 ≤ cs.tipHeight + 1 + cs.network.maturityDelay.toNat := by
  constructor
  · intro hp
    rcases Nat.lt_or_ge (cs.tipHeight + 1 + cs.network.maturityDelay.toNat) (2 ^ 64) with h | h
    · obtain ⟨c, h1, _⟩ := C57_maturity_height .checked cs h
      rw [h1] at hp
      cases hp
    · exact h
  · intro h
    unfold ChainState.maturityHeight
    by_cases hm : cs.tipHeight + 1 < 2 ^ 64
    · obtain ⟨c, h1, h2⟩ := childHeight_ok (m := .checked) (cs := cs) hm
      rw [h1, Res.ok_bind]
      exact if_neg (by omega)
    · have : cs.childHeight .checked = .panic := if_neg hm
      rw [this]
      rfl

/-- C57: a build without overflow checks wraps around. -/
theorem C57_maturity_height_wraps (cs : ChainState) :
    ∃ c, cs.maturityHeight .unchecked = .ok c ∧ c.toNat = (cs.tipHeight + 1 + cs.network.maturityDelay.toNat) % 2 ^ 64 := by
  refine ⟨cs.state.index.height + 1 + cs.network.maturityDelay, rfl, ?_⟩
  rw [BitVec.toNat_add, BitVec.toNat_add, Nat.mod_add_mod]
  rfl

/-- C57: nonces are free before the ASIC fork and multiples of 1009 from the block at the fork height on. -/
theorem C57_nonce_factor (m : Mode) (cs : ChainState) (h : cs.tipHeight + 1 < 2 ^ 64) :
    ∃ f, cs.nonceFactor m = .ok f ∧ f.toNat = if cs.tipHeight + 1 < cs.network.hardforkASIC.height.toNat then 1 else 1009 := by
  obtain ⟨c, h1, h2⟩ := childHeight_ok (m := m) (cs := cs) h
  unfold ChainState.nonceFactor
  rw [h1, Res.ok_bind, h2]
  by_cases hlt : cs.tipHeight + 1 < cs.network.hardforkASIC.height.toNat
  · rw [if_pos hlt, if_pos hlt]
    exact ⟨_, rfl, rfl⟩
  · rw [if_neg hlt, if_neg hlt]
    exact ⟨_, rfl, rfl⟩

/-- C57: at the last height an overflow-checked build panics; without the checks the next height is 0, where nonces are free unless the
ASIC fork is there already. -/
theorem C57_nonce_factor_last (cs : ChainState) (h : cs.tipHeight + 1 = 2 ^ 64) :
    cs.nonceFactor .checked = .panic ∧
    ∃ f, cs.nonceFactor .unchecked = .ok f ∧ f.toNat = if 0 < cs.network.hardforkASIC.height.toNat then 1 else 1009 := by
  constructor
  · have : cs.childHeight .checked = .panic := if_neg (by show ¬ cs.tipHeight + 1 < 2 ^ 64; omega)
    unfold ChainState.nonceFactor
    rw [this]
    rfl
  · have h1 : cs.childHeight .unchecked = .ok (cs.state.index.height + 1) := rfl
    have h2 : (cs.state.index.height + 1).toNat = 0 := by
      rw [BitVec.toNat_add]
      show (cs.tipHeight + 1) % 2 ^ 64 = 0
      omega
    unfold ChainState.nonceFactor
    rw [h1, Res.ok_bind, h2]
    by_cases hlt : 0 < cs.network.hardforkASIC.height.toNat
    · rw [if_pos hlt, if_pos hlt]
      exact ⟨_, rfl, rfl⟩
    · rw [if_neg hlt, if_neg hlt]
      exact ⟨_, rfl, rfl⟩

/-- C57: a month has as many blocks as whole intervals fit in a twelfth of 365 days. -/
theorem C57_blocks_per_month (cs : ChainState) (n : Nat) (hn : cs.network.blockInterval.ns = n) (h0 : 0 < n) :
    ∃ b, cs.blocksPerMonth = .ok b ∧ b.toNat * n ≤ 365 * 24 * 3600 * 10 ^ 9 / 12 ∧ 365 * 24 * 3600 * 10 ^ 9 / 12 < (b.toNat + 1) * n := by
  have hq' : 2628000000000000 / n ≤ 2628000000000000 := Nat.div_le_self _ _
  refine ⟨_, if_neg (by omega), ?_⟩
  have hb : (BitVec.ofInt 64 (Int.tdiv (Int.tdiv 31536000000000000 12) cs.network.blockInterval.ns)).toNat = 2628000000000000 / n := by
    rw [hn]
    have : Int.tdiv (Int.tdiv 31536000000000000 12) (n : Int) = ((2628000000000000 / n : Nat) : Int) := by
      have e : Int.tdiv 31536000000000000 12 = ((2628000000000000 : Nat) : Int) := by decide +kernel
      rw [e, Int.ofNat_tdiv]
    rw [this, BitVec.ofInt_natCast, BitVec.toNat_ofNat]
    exact Nat.mod_eq_of_lt (by omega)
  rw [hb]
  have e : 365 * 24 * 3600 * 10 ^ 9 / 12 = 2628000000000000 := by decide
  rw [e]
  exact ⟨Nat.div_mul_le_self _ _, Nat.lt_mul_of_div_lt (Nat.lt_succ_self _) h0⟩

/-- C57: no interval, no month. -/
theorem C57_blocks_per_month_panics (cs : ChainState) : cs.blocksPerMonth = .panic ↔ cs.network.blockInterval.ns = 0 := by
  unfold ChainState.blocksPerMonth
  constructor
  · intro h
    by_cases h0 : cs.network.blockInterval.ns = 0
    · exact h0
    · rw [if_neg h0] at h
      cases h
  · intro h
    rw [if_pos h]

/-- C57: the ancestor depth and the weight of a block are the same for every chain state. -/
theorem C57_constants (cs : ChainState) : cs.ancestorDepth.toNat = 1000 ∧ cs.maxBlockWeight.toNat = 2000000 := ⟨rfl, rfl⟩

example : Sample.cs.tipHeight + 1 + Sample.cs.network.maturityDelay.toNat < 2 ^ 64 ∧ Sample.cs.maturityHeight .checked = .ok 147 := by decide +kernel
example : (Sample.cs.atHeight (2 ^ 64 - 100)).maturityHeight .checked = .panic ∧ (Sample.cs.atHeight (2 ^ 64 - 100)).maturityHeight .unchecked = .ok 45 := by
  decide +kernel
example : (Sample.cs.atHeight 178998).nonceFactor .checked = .ok 1 ∧ (Sample.cs.atHeight 178999).nonceFactor .checked = .ok 1009 := by decide +kernel
example : (Sample.cs.atHeight (2 ^ 64 - 1)).nonceFactor .checked = .panic := (C57_nonce_factor_last _ (by decide +kernel)).1
example : Sample.cs.blocksPerMonth = .ok 4380 := by decide +kernel
example : ({ Sample.cs with network := { Sample.network with blockInterval := ⟨0⟩ } } : ChainState).blocksPerMonth = .panic := by decide +kernel

/-! ## C58 built-in networks -/

theorem Document.hex_append (a b : List UInt8) : Document.hex (a ++ b) = Document.hex a ++ Document.hex b := by
  simp [Document.hex, List.flatMap_append]

/-- Evaluate a test on the outcome. -/
def Res.check {α : Type} (p : α → Bool) : Res α → Bool
  | .ok a => p a
  | _ => false

theorem Res.of_check {α : Type} {p : α → Bool} {r : Res α} (h : r.check p = true) : ∃ a, r = .ok a ∧ p a = true := by
  cases r with
  | ok a => exact ⟨a, rfl, h⟩
  | err e => cases h
  | panic => cases h

theorem address_document (E : Env) (a : Address) (t c : String) (hc : E.Checks t c) (h : Document.hex a.1 = t) :
    Document.address E a = some (.str (t ++ c)) := by
  rw [Document.address, Document.hex_append, h, hc a h]
  rfl

theorem addressOf_document (E : Env) (text t c : String) (hc : E.Checks t c) (h : (addressOf text).check (fun a => Document.hex a.1 = t) = true) :
    ∃ a, addressOf text = .ok a ∧ Document.address E a = some (.str (t ++ c)) := by
  obtain ⟨a, h1, h2⟩ := Res.of_check h
  exact ⟨a, h1, address_document E a t c hc (of_decide_eq_true h2)⟩

theorem hash_document (h : Arr n) (t : String) (ht : Document.hex h.1 = t) : Document.hash h = some (.str t) := by
  rw [Document.hash, ht]
  rfl

theorem duration_document (d : Duration) (n : U64) (h : BitVec.ofNat 64 (d.ns % 2 ^ 64).toNat = n) : Document.duration d = some (.nat n) := by
  rw [Document.duration, h]

theorem time_document (E : Env) (t : DateTime) (s : String) (h : E.timeText t = some s) : Document.time E t = some (.str s) := by
  rw [Document.time, h]
  rfl

theorem siacoins_amount (m : Mode) (n : U64) (s : String) (h : n.toNat ≤ 340282366920938)
    (hs : String.ofList (Nat.toDigits 10 (n.toNat * 10 ^ 24)) = s) :
    ∃ c : Currency, Currency.siacoins m n = .ok c ∧ Document.amount c.val.toNat = some (.str s) := by
  obtain ⟨c, h1, h2⟩ := (exactly_siacoins m n).inRange (by omega)
  have h3 : c.val.toNat = n.toNat * 10 ^ 24 := by have : c.hastings = c.val.toNat := rfl; omega
  exact ⟨c, h1, by rw [h3, Document.amount, hs]; rfl⟩

set_option maxRecDepth 4000 in
/-- C58: mainnet exists, in every build, and its JSON document is the published one; the hypotheses are the checksums of its addresses and the text
of its genesis time. -/
theorem C58_mainnet_document (m : Mode) (E : Env) (ht : E.timeText ⟨1433600000, 0⟩ = some "2015-06-06T14:13:20Z")
    (h1 : E.Checks "7d0c44f7664e2d34e53efde0661a6f628ec9264785ae8e3cd7c973e8d190c3c9" "7b5e3ecbc567")
    (h2 : E.Checks "f371c70bce9eb8979cd5099f599ec4e4fcb14e0afcf31f9791e03e6496a4c0b3" "58c98279730b")
    (h3 : E.Checks "053b2def3cbdd078c19d62ce2b4f0b1a3c5e0ffbeeff01280efb1f8969b2f5bb" "4fdc680f0807")
    (h4 : E.Checks "27c22a6c6e6645802a3b8fa0e5374657438ef12716d2205d3e866272de1b644d" "babd53d6d560") :
    ∃ n, Network.mainnet m = .ok n ∧ Document.network E n = some Document.mainnet := by
  obtain ⟨c1, e1, d1⟩ := siacoins_amount m 300000 "300000000000000000000000000000" (by decide) (by decide +kernel)
  obtain ⟨c2, e2, d2⟩ := siacoins_amount m 30000 "30000000000000000000000000000" (by decide) (by decide +kernel)
  obtain ⟨a0, f0, g0⟩ := addressOf_document E "7d0c44f7664e2d34e53efde0661a6f628ec9264785ae8e3cd7c973e8d190c3c97b5e3ecbc567" _ _ h1 (by decide +kernel)
  obtain ⟨a1, f1, g1⟩ := addressOf_document E "f371c70bce9eb8979cd5099f599ec4e4fcb14e0afcf31f9791e03e6496a4c0b358c98279730b" _ _ h2 (by decide +kernel)
  obtain ⟨a2, f2, g2⟩ := addressOf_document E "053b2def3cbdd078c19d62ce2b4f0b1a3c5e0ffbeeff01280efb1f8969b2f5bb4fdc680f0807" _ _ h3 (by decide +kernel)
  obtain ⟨a3, f3, g3⟩ := addressOf_document E "27c22a6c6e6645802a3b8fa0e5374657438ef12716d2205d3e866272de1b644dbabd53d6d560" _ _ h4 (by decide +kernel)
  have et : unixTimestamp 1433600000 = .ok ⟨1433600000, 0⟩ := by decide +kernel
  unfold Network.mainnet
  rw [e1, e2, f0, f1, f2, f3, et]
  refine ⟨_, rfl, ?_⟩
  have t0 := hash_document (target [0, 0, 0, 0, 32]) "0000000020000000000000000000000000000000000000000000000000000000" (by decide +kernel)
  have t1 := hash_document (target [0, 0, 0, 0, 0, 0, 0, 0, 32]) "0000000000000000200000000000000000000000000000000000000000000000" (by decide +kernel)
  have u0 := duration_document (Duration.seconds (60 * 10)) 600000000000 (by decide +kernel)
  have u1 := duration_document (Duration.seconds (120000)) 120000000000000 (by decide +kernel)
  have tt := time_document E _ _ ht
  simp only [Document.network, d1, d2, g0, g1, g2, g3, t0, t1, u0, u1, tt, Document.object, Document.members, Document.string, Document.number,
    Option.bind_some, Option.map_some]
  rfl

set_option maxRecDepth 4000 in
/-- C58: zen exists, in every build, and its JSON document is the published one; the hypotheses are the checksums of its addresses and the text
of its genesis time. -/
theorem C58_zen_document (m : Mode) (E : Env) (ht : E.timeText ⟨1673600000, 0⟩ = some "2023-01-13T08:53:20Z")
    (h1 : E.Checks "053b2def3cbdd078c19d62ce2b4f0b1a3c5e0ffbeeff01280efb1f8969b2f5bb" "4fdc680f0807")
    (h2 : E.Checks "0000000000000000000000000000000000000000000000000000000000000000" "89eb0d6a8a69") :
    ∃ n, Network.zen m = .ok n ∧ Document.network E n = some Document.zen := by
  obtain ⟨c1, e1, d1⟩ := siacoins_amount m 300000 "300000000000000000000000000000" (by decide) (by decide +kernel)
  obtain ⟨a0, f0, g0⟩ := addressOf_document E "053b2def3cbdd078c19d62ce2b4f0b1a3c5e0ffbeeff01280efb1f8969b2f5bb4fdc680f0807" _ _ h1 (by decide +kernel)
  have gz := address_document E (Arr.zero 32) _ _ h2 (by decide +kernel)
  have et : unixTimestamp 1673600000 = .ok ⟨1673600000, 0⟩ := by decide +kernel
  unfold Network.zen
  rw [e1, f0, et]
  refine ⟨_, rfl, ?_⟩
  have t0 := hash_document (target [0, 0, 0, 1]) "0000000100000000000000000000000000000000000000000000000000000000" (by decide +kernel)
  have u0 := duration_document (Duration.seconds (60 * 10)) 600000000000 (by decide +kernel)
  have u1 := duration_document (Duration.seconds (10000)) 10000000000000 (by decide +kernel)
  have tt := time_document E _ _ ht
  simp only [Document.network, d1, g0, gz, t0, u0, u1, tt, Document.object, Document.members, Document.string, Document.number,
    Option.bind_some, Option.map_some]
  rfl

set_option maxRecDepth 4000 in
/-- C58: anagami exists, in every build, and its JSON document is the published one; the hypotheses are the checksums of its addresses and the text
of its genesis time. -/
theorem C58_anagami_document (m : Mode) (E : Env) (ht : E.timeText ⟨1724284800, 0⟩ = some "2024-08-22T00:00:00Z")
    (h1 : E.Checks "241352c83da002e61f57e96b14f3a5f8b5de22156ce83b753ea495e64f1affeb" "ae88736b2347")
    (h2 : E.Checks "0000000000000000000000000000000000000000000000000000000000000000" "89eb0d6a8a69") :
    ∃ n, Network.anagami m = .ok n ∧ Document.network E n = some Document.anagami := by
  obtain ⟨c1, e1, d1⟩ := siacoins_amount m 300000 "300000000000000000000000000000" (by decide) (by decide +kernel)
  obtain ⟨a0, f0, g0⟩ := addressOf_document E "241352c83da002e61f57e96b14f3a5f8b5de22156ce83b753ea495e64f1affebae88736b2347" _ _ h1 (by decide +kernel)
  have gz := address_document E (Arr.zero 32) _ _ h2 (by decide +kernel)
  have et : unixTimestamp 1724284800 = .ok ⟨1724284800, 0⟩ := by decide +kernel
  have er : addU m (2016 : U64) 288 = .ok 2304 := by cases m <;> decide +kernel
  unfold Network.anagami
  rw [e1, f0, et, er]
  refine ⟨_, rfl, ?_⟩
  have t0 := hash_document (target [0, 0, 0, 1]) "0000000100000000000000000000000000000000000000000000000000000000" (by decide +kernel)
  have u0 := duration_document (Duration.seconds (60 * 10)) 600000000000 (by decide +kernel)
  have u1 := duration_document (Duration.seconds (10000)) 10000000000000 (by decide +kernel)
  have tt := time_document E _ _ ht
  simp only [Document.network, d1, g0, gz, t0, u0, u1, tt, Document.object, Document.members, Document.string, Document.number,
    Option.bind_some, Option.map_some]
  rfl

/-- C58: on all three networks the forks happen in their order, each strictly after the one before. -/
theorem C58_forks_in_order (m : Mode) (n : Network) (h : Network.mainnet m = .ok n ∨ Network.zen m = .ok n ∨ Network.anagami m = .ok n) :
    [0, n.hardforkDevAddr.height.toNat, n.hardforkTax.toNat, n.hardforkStorageProof.toNat, n.hardforkOak.height.toNat, n.hardforkOak.fixHeight.toNat,
      n.hardforkASIC.height.toNat, n.hardforkFoundation.height.toNat, n.hardforkV2.allowHeight.toNat,
      n.hardforkV2.requireHeight.toNat].Pairwise (· < ·) := by
  have key : ∀ r : Res Network, r = .ok n →
      r.check (fun n => decide ([0, n.hardforkDevAddr.height.toNat, n.hardforkTax.toNat, n.hardforkStorageProof.toNat, n.hardforkOak.height.toNat,
        n.hardforkOak.fixHeight.toNat, n.hardforkASIC.height.toNat, n.hardforkFoundation.height.toNat, n.hardforkV2.allowHeight.toNat,
        n.hardforkV2.requireHeight.toNat].Pairwise (· < ·))) = true → _ := fun r e c => by
    rw [e] at c
    exact of_decide_eq_true c
  rcases h with h | h | h
  · exact key _ h (by cases m <;> decide +kernel)
  · exact key _ h (by cases m <;> decide +kernel)
  · exact key _ h (by cases m <;> decide +kernel)

/-- What the rules below need of a network. -/
def Network.facts (n : Network) : Nat × Nat × Int × Nat × Nat × Nat × Nat :=
  (n.initialCoinbase.hastings, n.minimumCoinbase.hastings, n.blockInterval.ns, n.maturityDelay.toNat, n.hardforkASIC.height.toNat,
    n.hardforkFoundation.height.toNat, n.hardforkV2.allowHeight.toNat)

theorem facts_of {r : Res Network} {n : Network} {x : Nat × Nat × Int × Nat × Nat × Nat × Nat} (h : r = .ok n)
    (hc : r.check (fun n => decide (n.facts = x)) = true) : n.facts = x := by
  rw [h] at hc
  exact of_decide_eq_true hc

theorem facts_mainnet {m : Mode} {n : Network} (h : Network.mainnet m = .ok n) :
    n.facts = (300000 * 10 ^ 24, 30000 * 10 ^ 24, 600000000000, 144, 179000, 298000, 1000000) := facts_of h (by cases m <;> decide +kernel)

theorem facts_zen {m : Mode} {n : Network} (h : Network.zen m = .ok n) :
    n.facts = (300000 * 10 ^ 24, 300000 * 10 ^ 24, 600000000000, 144, 20, 30, 100000) := facts_of h (by cases m <;> decide +kernel)

theorem facts_anagami {m : Mode} {n : Network} (h : Network.anagami m = .ok n) :
    n.facts = (300000 * 10 ^ 24, 300000 * 10 ^ 24, 600000000000, 144, 20, 30, 2016) := facts_of h (by cases m <;> decide +kernel)

/-- C58: the rewards on the main network. -/
theorem C58_mainnet_rewards (m m' : Mode) (cs : ChainState) (hn : Network.mainnet m' = .ok cs.network) (h : cs.tipHeight + 1 ≤ 340282366920938) :
    ∃ r, cs.blockReward m = .ok r ∧ r.hastings = ChainState.mainnetReward (cs.tipHeight + 1) * 10 ^ 24 := by
  obtain ⟨r, h1, h2⟩ := C36_block_reward m cs h
  refine ⟨r, h1, ?_⟩
  have hf := facts_mainnet hn
  simp only [Network.facts, Prod.mk.injEq] at hf
  rw [hf.1, hf.2.1] at h2
  unfold ChainState.mainnetReward
  omega

/-- C58: the rewards on the test networks never change. -/
theorem C58_test_rewards (m m' : Mode) (cs : ChainState) (hn : Network.zen m' = .ok cs.network ∨ Network.anagami m' = .ok cs.network)
    (h : cs.tipHeight + 1 ≤ 340282366920938) : ∃ r, cs.blockReward m = .ok r ∧ r.hastings = 300000 * 10 ^ 24 := by
  obtain ⟨r, h1, h2⟩ := C36_block_reward m cs h
  refine ⟨r, h1, ?_⟩
  have hf : cs.network.initialCoinbase.hastings = 300000 * 10 ^ 24 ∧ cs.network.minimumCoinbase.hastings = 300000 * 10 ^ 24 := by
    rcases hn with hn | hn
    · have hf := facts_zen hn
      simp only [Network.facts, Prod.mk.injEq] at hf
      exact ⟨hf.1, hf.2.1⟩
    · have hf := facts_anagami hn
      simp only [Network.facts, Prod.mk.injEq] at hf
      exact ⟨hf.1, hf.2.1⟩
  rw [hf.1, hf.2] at h2
  omega

theorem mainnetMined_early (n : Nat) (h : n ≤ 270000) : 2 * ChainState.mainnetMined n + n * (n + 1) = 600000 * n := by
  induction n with
  | zero => rfl
  | succ n ih =>
    have := ih (by omega)
    simp only [ChainState.mainnetMined, ChainState.mainnetReward]
    have e : (n + 1) * (n + 1 + 1) = n * (n + 1) + 2 * (n + 1) := by grind
    omega

/-- C58: the siacoins mined on the main network by height `n`: 300000 a block less one more for every block, and 30000 a block from height 270000
on, 44549865000 before them. -/
theorem C58_mainnet_issuance (n : Nat) :
    (n ≤ 270000 → ChainState.mainnetMined n = 300000 * n - n * (n + 1) / 2) ∧
    (270000 ≤ n → ChainState.mainnetMined n = 44549865000 + 30000 * (n - 270000)) := by
  constructor
  · intro h
    have := mainnetMined_early n h
    omega
  · intro h
    obtain ⟨k, rfl⟩ : ∃ k, n = 270000 + k := ⟨n - 270000, by omega⟩
    clear h
    induction k with
    | zero =>
      have := mainnetMined_early 270000 (Nat.le_refl _)
      show ChainState.mainnetMined 270000 = 44549865000
      generalize ChainState.mainnetMined 270000 = x at *
      omega
    | succ k ih =>
      rw [← Nat.add_assoc]
      generalize hg : 270000 + k = x at *
      simp only [ChainState.mainnetMined, ChainState.mainnetReward]
      omega

/-- C58: the rewards of the first `n` blocks after the genesis block of the main network add up to that. -/
theorem C58_mainnet_total (m m' : Mode) (cs : ChainState) (hn : Network.mainnet m' = .ok cs.network) (rs : List Currency)
    (hb : rs.length ≤ 340282366920938) (hr : ∀ i (h : i < rs.length), (cs.atHeight (BitVec.ofNat 64 i)).blockReward m = .ok rs[i]) :
    (rs.map Currency.hastings).sum = ChainState.mainnetMined rs.length * 10 ^ 24 := by
  have key : ∀ n (hle : n ≤ rs.length), ((rs.take n).map Currency.hastings).sum = ChainState.mainnetMined n * 10 ^ 24 := by
    intro n
    induction n with
    | zero => intro _; simp [ChainState.mainnetMined]
    | succ n ih =>
      intro hle
      have hh : (cs.atHeight (BitVec.ofNat 64 n)).tipHeight = n := by
        show (BitVec.ofNat 64 n).toNat = n
        rw [BitVec.toNat_ofNat]
        omega
      obtain ⟨r, h1, h2⟩ := C58_mainnet_rewards m m' (cs.atHeight (BitVec.ofNat 64 n)) hn (by omega)
      rw [hr n (by omega), Res.ok.injEq] at h1
      rw [← h1] at h2
      rw [List.take_succ_eq_append_getElem (by omega), List.map_append, List.sum_append, ih (by omega)]
      simp only [List.map_cons, List.map_nil, List.sum_cons, List.sum_nil, ChainState.mainnetMined, h2, hh]
      omega
  have := key rs.length (Nat.le_refl _)
  rwa [List.take_length] at this

/-- C58: the foundation's subsidies on the three networks: every 4380 blocks from the fork on. -/
theorem C58_subsidies (m m' : Mode) (cs : ChainState) (fork : Nat)
    (hn : (Network.mainnet m' = .ok cs.network ∧ fork = 298000) ∨
      ((Network.zen m' = .ok cs.network ∨ Network.anagami m' = .ok cs.network) ∧ fork = 30)) (h : cs.tipHeight + 1 < 2 ^ 64) :
    ∃ o, cs.foundationSubsidy m = .ok o ∧ (o.isSome ↔ ∃ k, cs.tipHeight + 1 = fork + 4380 * k) ∧
      (∀ out, o = some out → out.address = cs.network.hardforkFoundation.primaryAddress ∧
        out.value.hastings = (if cs.tipHeight + 1 = fork then 360000 else 30000) * 10 ^ 24) := by
  have hf : cs.network.blockInterval.ns = (600000000000 : Nat) ∧ cs.network.hardforkFoundation.height.toNat = fork := by
    rcases hn with ⟨hn, rfl⟩ | ⟨hn | hn, rfl⟩
    · have hf := facts_mainnet hn
      simp only [Network.facts, Prod.mk.injEq] at hf
      exact ⟨hf.2.2.1, hf.2.2.2.2.2.1⟩
    · have hf := facts_zen hn
      simp only [Network.facts, Prod.mk.injEq] at hf
      exact ⟨hf.2.2.1, hf.2.2.2.2.2.1⟩
    · have hf := facts_anagami hn
      simp only [Network.facts, Prod.mk.injEq] at hf
      exact ⟨hf.2.2.1, hf.2.2.2.2.2.1⟩
  obtain ⟨o, h1, h2, h3⟩ := C38_foundation_subsidy m cs _ h hf.1 (by omega) (by omega)
  rw [hf.2] at h2 h3
  refine ⟨o, h1, ?_, h3⟩
  rw [h2]
  constructor
  · rintro ⟨k, hk⟩
    exact ⟨k, by omega⟩
  · rintro ⟨k, hk⟩
    exact ⟨k, by omega⟩

/-- C58: the replay prefixes on the three networks. -/
theorem C58_replay_prefix (m : Mode) (cs : ChainState) (asic foundation v2 : Nat)
    (hn : (Network.mainnet m = .ok cs.network ∧ (asic, foundation, v2) = (179000, 298000, 1000000)) ∨
      (Network.zen m = .ok cs.network ∧ (asic, foundation, v2) = (20, 30, 100000)) ∨
      (Network.anagami m = .ok cs.network ∧ (asic, foundation, v2) = (20, 30, 2016))) :
    (cs.replayPrefix = [] ↔ cs.tipHeight < asic) ∧ (cs.replayPrefix = [0] ↔ asic ≤ cs.tipHeight ∧ cs.tipHeight < foundation) ∧
    (cs.replayPrefix = [1] ↔ foundation ≤ cs.tipHeight ∧ cs.tipHeight < v2) ∧ (cs.replayPrefix = [2] ↔ v2 ≤ cs.tipHeight) := by
  have hf : cs.network.hardforkASIC.height.toNat = asic ∧ cs.network.hardforkFoundation.height.toNat = foundation ∧
      cs.network.hardforkV2.allowHeight.toNat = v2 ∧ asic < foundation ∧ foundation < v2 := by
    rcases hn with ⟨hn, e⟩ | ⟨hn, e⟩ | ⟨hn, e⟩ <;> cases e
    · have hf := facts_mainnet hn
      simp only [Network.facts, Prod.mk.injEq] at hf
      exact ⟨hf.2.2.2.2.1, hf.2.2.2.2.2.1, hf.2.2.2.2.2.2, by omega, by omega⟩
    · have hf := facts_zen hn
      simp only [Network.facts, Prod.mk.injEq] at hf
      exact ⟨hf.2.2.2.2.1, hf.2.2.2.2.2.1, hf.2.2.2.2.2.2, by omega, by omega⟩
    · have hf := facts_anagami hn
      simp only [Network.facts, Prod.mk.injEq] at hf
      exact ⟨hf.2.2.2.2.1, hf.2.2.2.2.2.1, hf.2.2.2.2.2.2, by omega, by omega⟩
  obtain ⟨p2, p1, p0, p⟩ := C37_replay_prefix_latest cs
  obtain ⟨e1, e2, e3, o1, o2⟩ := hf
  subst e1 e2 e3
  refine ⟨p.trans ?_, p0.trans ?_, p1.trans ?_, p2⟩ <;> omega

/-- C58: the three networks are read back from their documents wherever their genesis times are. -/
theorem C58_read_back (m : Mode) (E : Env) (n : Network)
    (h : (Network.mainnet m = .ok n ∧ E.Keeps ⟨1433600000, 0⟩) ∨ (Network.zen m = .ok n ∧ E.Keeps ⟨1673600000, 0⟩) ∨
      (Network.anagami m = .ok n ∧ E.Keeps ⟨1724284800, 0⟩)) :
    ∃ d, Document.network E n = some d ∧ ∀ d', d.Reordered d' → (Serde.network E).de d' = .ok n := by
  apply (C55_read_others E).2.2
  have key : ∀ (r : Res Network) (t : DateTime), r = .ok n → E.Keeps t →
      r.check (fun n => decide (n.blockInterval.ns = 600000000000 ∧ n.hardforkOak.genesisTimestamp = t ∧
        0 ≤ n.hardforkASIC.oakTime.ns ∧ n.hardforkASIC.oakTime.ns ≤ 120000000000000)) = true → n.JsonFits E := fun r t e k c => by
    rw [e] at c
    obtain ⟨c1, c2, c3, c4⟩ := of_decide_eq_true c
    refine ⟨?_, c2 ▸ k, ?_⟩
    · simp only [Duration.JsonFits, c1]; omega
    · simp only [Duration.JsonFits]; omega
  rcases h with ⟨h, k⟩ | ⟨h, k⟩ | ⟨h, k⟩
  · exact key _ _ h k (by cases m <;> decide +kernel)
  · exact key _ _ h k (by cases m <;> decide +kernel)
  · exact key _ _ h k (by cases m <;> decide +kernel)

/-! ## Concrete cases -/

namespace Sample

/-- A hash that gives the addresses of the built-in networks their real checksums. -/
def networkHash : Hasher := fun bs =>
  let check : List UInt8 := match bs.headD 0 with
    | 0x7d => [0x7b, 0x5e, 0x3e, 0xcb, 0xc5, 0x67]
    | 0xf3 => [0x58, 0xc9, 0x82, 0x79, 0x73, 0x0b]
    | 0x05 => [0x4f, 0xdc, 0x68, 0x0f, 0x08, 0x07]
    | 0x27 => [0xba, 0xbd, 0x53, 0xd6, 0xd5, 0x60]
    | 0x24 => [0xae, 0x88, 0x73, 0x6b, 0x23, 0x47]
    | _ => [0x89, 0xeb, 0x0d, 0x6a, 0x8a, 0x69]
  toArr 32 (check ++ List.replicate 26 0)

/-- Real texts of the three genesis times. -/
def networkEnv : Env := { env with
  hash := networkHash
  timeText := fun t => if t = ⟨1433600000, 0⟩ then some "2015-06-06T14:13:20Z" else if t = ⟨1673600000, 0⟩ then some "2023-01-13T08:53:20Z"
    else if t = ⟨1724284800, 0⟩ then some "2024-08-22T00:00:00Z" else none
  timeRead := fun s => if s = "2015-06-06T14:13:20Z" then some ⟨1433600000, 0⟩ else if s = "2023-01-13T08:53:20Z" then some ⟨1673600000, 0⟩
    else if s = "2024-08-22T00:00:00Z" then some ⟨1724284800, 0⟩ else none }

theorem checks_of (d e : Char) (t c : String) (x : UInt8) (ht : t.toList.take 2 = [d, e])
    (hx : ∀ b : Fin 256, Nat.digitChar (b.val / 16) = d → Nat.digitChar (b.val % 16) = e → b.val = x.toNat)
    (hc : Document.hex ((networkHash [x]).1.take 6) = c) : networkEnv.Checks t c := by
  rintro ⟨bs, hl⟩ h
  cases bs with
  | nil => simp at hl
  | cons b l =>
    have h0 := congrArg String.toList h
    simp only [Document.hex, List.flatMap_cons] at h0
    rw [String.toList_ofList] at h0
    rw [← h0] at ht
    simp only [List.cons_append, List.nil_append, List.take_succ_cons, List.take_zero, List.cons.injEq, and_true] at ht
    have hb := hx ⟨b.toNat, b.toNat_lt⟩ ht.1 ht.2
    have : b = x := UInt8.toNat_inj.mp hb
    subst this
    exact hc

end Sample

example : ∃ n, Network.mainnet .checked = .ok n ∧ Document.network Sample.networkEnv n = some Document.mainnet :=
  C58_mainnet_document _ _ rfl (Sample.checks_of '7' 'd' _ _ 0x7d (by decide +kernel) (by decide +kernel) (by decide +kernel))
    (Sample.checks_of 'f' '3' _ _ 0xf3 (by decide +kernel) (by decide +kernel) (by decide +kernel))
    (Sample.checks_of '0' '5' _ _ 0x05 (by decide +kernel) (by decide +kernel) (by decide +kernel))
    (Sample.checks_of '2' '7' _ _ 0x27 (by decide +kernel) (by decide +kernel) (by decide +kernel))

example : ∃ n, Network.zen .checked = .ok n ∧ Document.network Sample.networkEnv n = some Document.zen :=
  C58_zen_document _ _ rfl (Sample.checks_of '0' '5' _ _ 0x05 (by decide +kernel) (by decide +kernel) (by decide +kernel))
    (Sample.checks_of '0' '0' _ _ 0x00 (by decide +kernel) (by decide +kernel) (by decide +kernel))

example : ∃ n, Network.anagami .checked = .ok n ∧ Document.network Sample.networkEnv n = some Document.anagami :=
  C58_anagami_document _ _ rfl (Sample.checks_of '2' '4' _ _ 0x24 (by decide +kernel) (by decide +kernel) (by decide +kernel))
    (Sample.checks_of '0' '0' _ _ 0x00 (by decide +kernel) (by decide +kernel) (by decide +kernel))

example : Sample.networkEnv.Keeps ⟨1433600000, 0⟩ ∧ Sample.networkEnv.Keeps ⟨1673600000, 0⟩ ∧ Sample.networkEnv.Keeps ⟨1724284800, 0⟩ :=
  ⟨⟨_, rfl, rfl⟩, ⟨_, rfl, rfl⟩, ⟨_, rfl, rfl⟩⟩

example : ∃ n, Network.mainnet .checked = .ok n ∧
    ((⟨n, Sample.state⟩ : ChainState).atHeight 0).blockReward .checked = .ok ⟨299999 * 10 ^ 24⟩ ∧
    ((⟨n, Sample.state⟩ : ChainState).atHeight 1).blockReward .checked = .ok ⟨299998 * 10 ^ 24⟩ ∧ ChainState.mainnetMined 2 = 599997 := by
  obtain ⟨n, h, c⟩ := Res.of_check (show (Network.mainnet .checked).check (fun n =>
    decide (((⟨n, Sample.state⟩ : ChainState).atHeight 0).blockReward .checked = .ok ⟨299999 * 10 ^ 24⟩ ∧
    ((⟨n, Sample.state⟩ : ChainState).atHeight 1).blockReward .checked = .ok ⟨299998 * 10 ^ 24⟩)) = true by decide +kernel)
  have c := of_decide_eq_true c
  exact ⟨n, h, c.1, c.2, by decide⟩

end Verif
