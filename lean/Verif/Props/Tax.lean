import Verif.Props.Consensus

/-!
# C39-C40: contract taxes
-/

namespace Verif

/-! ## C39 v1 contract tax -/

/-- The rational number that the era's rate literal denotes: exactly 39/1000 from the tax hardfork on, the binary fraction
nearest to it before. -/
theorem taxRate_below : taxFloatNum * 1000 < 39 * taxFloatDen := by decide

theorem taxFloat_le (p : Nat) : p * taxFloatNum / taxFloatDen ≤ p := by
  apply Nat.div_le_of_le_mul
  rw [Nat.mul_comm taxFloatDen]
  exact Nat.mul_le_mul_left _ (by decide)

theorem taxFloat_le' (p : Nat) : p * taxFloatNum / taxFloatDen ≤ p * 39 / 1000 := by
  have h3 : p * taxFloatNum / taxFloatDen * taxFloatDen ≤ p * taxFloatNum := Nat.div_mul_le_self _ _
  generalize hx : p * taxFloatNum / taxFloatDen = x at *
  unfold taxFloatNum taxFloatDen at h3
  omega

/-- The tax before rounding to a multiple of the siafund count. -/
def grossTax (early : Prop) [Decidable early] (p : Nat) : Nat :=
  if early then p * taxFloatNum / taxFloatDen else p * 39 / 1000

theorem grossTax_le (early : Prop) [Decidable early] (p : Nat) : grossTax early p ≤ p := by
  unfold grossTax
  split
  · exact taxFloat_le p
  · omega

theorem tax_eq' (m : Mode) (cs : ChainState) (fc : V1.FileContract) (c : U64) (hc : cs.childHeight m = .ok c) :
    ∃ t, fc.tax m cs = .ok t ∧ t.hastings =
      grossTax (c.toNat < cs.network.hardforkTax.toNat) fc.payout.hastings / 10000 * 10000 := by
  unfold V1.FileContract.tax
  simp only [hc, Res.ok_bind]
  have hg : ∀ p, p * taxFloatNum / Nat.gcd (p * taxFloatNum) taxFloatDen /
      (taxFloatDen / Nat.gcd (p * taxFloatNum) taxFloatDen) = p * taxFloatNum / taxFloatDen := by
    intro p
    rw [Nat.div_div_eq_div_mul, Nat.mul_div_cancel' (Nat.gcd_dvd_right _ _)]
  rw [hg]
  have hx : (if c.toNat < cs.network.hardforkTax.toNat then fc.payout.val.toNat * taxFloatNum / taxFloatDen
      else fc.payout.val.toNat * 39 / 1000) = grossTax (c.toNat < cs.network.hardforkTax.toNat) fc.payout.hastings := rfl
  simp only [hx]
  have hle := grossTax_le (c.toNat < cs.network.hardforkTax.toNat) fc.payout.hastings
  have hp := fc.payout.hastings_lt
  have hsc : cs.siafundCount.toNat = 10000 := rfl
  rw [hsc]
  generalize grossTax (c.toNat < cs.network.hardforkTax.toNat) fc.payout.hastings = x at *
  generalize fc.payout.hastings = p at *
  rw [if_pos (by omega)]
  refine ⟨_, rfl, ?_⟩
  rw [Currency.hastings, BitVec.toNat_ofNat, Nat.mod_eq_of_lt (by omega)]
  omega

/-- The tax is computed by rounding down to hastings and then to a multiple of 10000. -/
theorem tax_eq (m : Mode) (cs : ChainState) (fc : V1.FileContract) (h : cs.tipHeight + 1 < 2 ^ 64) :
    ∃ t, fc.tax m cs = .ok t ∧ t.hastings =
      grossTax (cs.tipHeight + 1 < cs.network.hardforkTax.toNat) fc.payout.hastings / 10000 * 10000 := by
  obtain ⟨c, hc1, hc2⟩ := childHeight_ok (m := m) (cs := cs) h
  rw [← hc2]
  exact tax_eq' m cs fc c hc1

/-- C39: the tax never exceeds 3.9% of the payout, in either era. -/
theorem C39_at_most (m : Mode) (cs : ChainState) (fc : V1.FileContract) (h : cs.tipHeight + 1 < 2 ^ 64) :
    ∃ t, fc.tax m cs = .ok t ∧ 1000 * t.hastings ≤ 39 * fc.payout.hastings := by
  obtain ⟨t, h1, h2⟩ := tax_eq m cs fc h
  refine ⟨t, h1, ?_⟩
  have h3 : grossTax (cs.tipHeight + 1 < cs.network.hardforkTax.toNat) fc.payout.hastings ≤
      fc.payout.hastings * 39 / 1000 := by
    unfold grossTax
    split
    · exact taxFloat_le' _
    · omega
  omega

/-- C39: the tax is a multiple of the siafund count. -/
theorem C39_multiple (m : Mode) (cs : ChainState) (fc : V1.FileContract) (t : Currency) (h : cs.tipHeight + 1 < 2 ^ 64)
    (ht : fc.tax m cs = .ok t) : ∃ k, t.hastings = cs.siafundCount.toNat * k := by
  obtain ⟨t', h1, h2⟩ := tax_eq m cs fc h
  rw [ht] at h1
  simp only [Res.ok.injEq] at h1
  subst h1
  exact ⟨_, h2.trans (Nat.mul_comm _ _)⟩

/-- C39: from the hardfork on, the tax is the largest multiple of 10000 not above 3.9% of the payout. -/
theorem C39_tight (m : Mode) (cs : ChainState) (fc : V1.FileContract) (t : Currency) (h : cs.tipHeight + 1 < 2 ^ 64)
    (hf : cs.network.hardforkTax.toNat ≤ cs.tipHeight + 1) (ht : fc.tax m cs = .ok t) :
    39 * fc.payout.hastings < 1000 * (t.hastings + 10000) := by
  obtain ⟨t', h1, h2⟩ := tax_eq m cs fc h
  rw [ht] at h1
  simp only [Res.ok.injEq] at h1
  subst h1
  rw [grossTax, if_neg (by omega)] at h2
  omega

/-- C39: before the hardfork the same holds with the binary fraction `0.039`, which is below 39/1000 by less than one part
in 2^57. -/
theorem C39_tight_before (m : Mode) (cs : ChainState) (fc : V1.FileContract) (t : Currency) (h : cs.tipHeight + 1 < 2 ^ 64)
    (hf : cs.tipHeight + 1 < cs.network.hardforkTax.toNat) (ht : fc.tax m cs = .ok t) :
    5620492334958379 * fc.payout.hastings < 2 ^ 57 * (t.hastings + 10000) ∧
    2 ^ 57 * t.hastings ≤ 5620492334958379 * fc.payout.hastings ∧
    5620492334958379 * 1000 < 39 * 2 ^ 57 ∧ 39 * 2 ^ 57 < 5620492334958380 * 1000 := by
  obtain ⟨t', h1, h2⟩ := tax_eq m cs fc h
  rw [ht] at h1
  simp only [Res.ok.injEq] at h1
  subst h1
  rw [grossTax, if_pos hf] at h2
  have h3 := Nat.div_add_mod (fc.payout.hastings * taxFloatNum) taxFloatDen
  have h4 := Nat.mod_lt (fc.payout.hastings * taxFloatNum) (show 0 < taxFloatDen by decide)
  generalize fc.payout.hastings * taxFloatNum / taxFloatDen = x at *
  generalize fc.payout.hastings * taxFloatNum % taxFloatDen = y at *
  unfold taxFloatNum taxFloatDen at h3
  unfold taxFloatDen at h4
  omega

/-- C39: within an era the tax is monotone in the payout. -/
theorem C39_monotone (m : Mode) (cs : ChainState) (fc fc' : V1.FileContract) (t t' : Currency)
    (h : cs.tipHeight + 1 < 2 ^ 64) (hle : fc.payout.hastings ≤ fc'.payout.hastings)
    (ht : fc.tax m cs = .ok t) (ht' : fc'.tax m cs = .ok t') : t.hastings ≤ t'.hastings := by
  obtain ⟨x, h1, h2⟩ := tax_eq m cs fc h
  obtain ⟨x', h3, h4⟩ := tax_eq m cs fc' h
  rw [ht] at h1
  rw [ht'] at h3
  simp only [Res.ok.injEq] at h1 h3
  subst h1 h3
  rw [h2, h4]
  apply Nat.mul_le_mul_right
  apply Nat.div_le_div_right
  unfold grossTax
  split
  · exact Nat.div_le_div_right (Nat.mul_le_mul_right _ hle)
  · exact Nat.div_le_div_right (Nat.mul_le_mul_right _ hle)

/-- C39: the hardfork never lowers the tax of a contract. -/
theorem C39_fork_raises (m : Mode) (cs : ChainState) (fc : V1.FileContract) (h h' : U64) (t t' : Currency)
    (hh : h.toNat ≤ h'.toNat) (hb : h'.toNat + 1 < 2 ^ 64) (ht : fc.tax m (cs.atHeight h) = .ok t)
    (ht' : fc.tax m (cs.atHeight h') = .ok t') : t.hastings ≤ t'.hastings := by
  obtain ⟨x, h1, h2⟩ := tax_eq m (cs.atHeight h) fc (by show h.toNat + 1 < _; omega)
  obtain ⟨x', h3, h4⟩ := tax_eq m (cs.atHeight h') fc hb
  rw [ht] at h1
  rw [ht'] at h3
  simp only [Res.ok.injEq] at h1 h3
  subst h1 h3
  rw [h2, h4]
  apply Nat.mul_le_mul_right
  apply Nat.div_le_div_right
  change grossTax (h.toNat + 1 < cs.network.hardforkTax.toNat) _ ≤ grossTax (h'.toNat + 1 < cs.network.hardforkTax.toNat) _
  unfold grossTax
  by_cases c1 : h.toNat + 1 < cs.network.hardforkTax.toNat <;>
  by_cases c2 : h'.toNat + 1 < cs.network.hardforkTax.toNat
  · rw [if_pos c1, if_pos c2]; exact Nat.le_refl _
  · rw [if_pos c1, if_neg c2]; exact taxFloat_le' _
  · omega
  · rw [if_neg c1, if_neg c2]; exact Nat.le_refl _

/-- C39: the only panic is the overflow of the height in an overflow-checked build. -/
theorem C39_panics_iff (m : Mode) (cs : ChainState) (fc : V1.FileContract) :
    fc.tax m cs = .panic ↔ m = .checked ∧ cs.tipHeight + 1 = 2 ^ 64 := by
  have hlt : cs.tipHeight < 2 ^ 64 := cs.state.index.height.isLt
  by_cases h : cs.tipHeight + 1 < 2 ^ 64
  · obtain ⟨t, h1, _⟩ := tax_eq m cs fc h
    rw [h1]
    simp only [reduceCtorEq, false_iff, not_and]
    omega
  · have hz : cs.tipHeight + 1 = 2 ^ 64 := by omega
    cases m with
    | checked =>
      have : cs.childHeight .checked = .panic := by
        unfold ChainState.childHeight ChainIndex.childHeight addU
        exact if_neg h
      simp only [V1.FileContract.tax, this, Res.panic_bind, hz, and_self]
    | unchecked =>
      simp only [reduceCtorEq, false_and, iff_false]
      have hc : cs.childHeight .unchecked = .ok 0 := by
        unfold ChainState.childHeight ChainIndex.childHeight addU
        have : cs.state.index.height + 1 = 0 := by
          apply BitVec.eq_of_toNat_eq
          rw [BitVec.toNat_add]
          have e1 : (1 : U64).toNat = 1 := rfl
          have e2 : (0 : U64).toNat = 0 := rfl
          rw [e1, e2]
          simp only [ChainState.tipHeight] at hz
          omega
        rw [this]
      obtain ⟨t, h1, _⟩ := tax_eq' .unchecked cs fc 0 hc
      rw [h1]
      simp

example : Sample.v1fc.tax .checked Sample.cs = .ok ⟨0⟩ := by decide +kernel
example : ({ Sample.v1fc with payout := ⟨1000000000000000000000000⟩ } : V1.FileContract).tax .checked (Sample.cs.atHeight 20999) =
    .ok ⟨39000000000000000000000⟩ := by decide +kernel
example : ({ Sample.v1fc with payout := ⟨1000000000000000000000000⟩ } : V1.FileContract).tax .checked Sample.cs =
    .ok ⟨38999999999999999940000⟩ := by decide +kernel

/-- One contract before and after the fork. -/
example : (38999999999999999940000 : Nat) ≤ 39000000000000000000000 :=
  C39_fork_raises .checked Sample.cs { Sample.v1fc with payout := ⟨1000000000000000000000000⟩ } 20998 20999 ⟨38999999999999999940000⟩ ⟨39000000000000000000000⟩
    (by decide) (by decide) (by decide +kernel) (by decide +kernel)

/-! ## C40 v2 contract tax -/

theorem roundDown {a b s t : Nat} (h2 : (s : Int) = a + b) (h4 : (t : Int) = (s / 25 : Nat) - (s / 25 % 10000 : Nat)) :
    t = 10000 * (s / 25 / 10000) ∧ 25 * t ≤ a + b ∧ a + b < 25 * (t + 10000) := by
  omega

theorem div25 (s : Currency) : s.div ⟨25⟩ = .ok ⟨s.val / 25⟩ := by
  have : (25 : U128) ≠ 0 := by decide
  unfold Currency.div divU
  rw [if_neg this]
  rfl

theorem remCount (s : Currency) (cs : ChainState) : s.rem ⟨cs.siafundCount.setWidth 128⟩ = .ok ⟨s.val % 10000⟩ := by
  have h : cs.siafundCount.setWidth 128 = (10000 : U128) := rfl
  have : (10000 : U128) ≠ 0 := by decide
  rw [h]
  unfold Currency.rem remU
  rw [if_neg this]
  rfl

/-- C40: the tax is the largest multiple of 10000 not above 4% of the outputs. -/
theorem C40_v2_tax (m : Mode) (cs : ChainState) (fc : V2.FileContract)
    (h : fc.renterOutput.value.hastings + fc.hostOutput.value.hastings < 2 ^ 128) :
    ∃ t, fc.tax m cs = .ok t ∧ (∃ k, t.hastings = 10000 * k) ∧
      25 * t.hastings ≤ fc.renterOutput.value.hastings + fc.hostOutput.value.hastings ∧
      fc.renterOutput.value.hastings + fc.hostOutput.value.hastings < 25 * (t.hastings + 10000) := by
  unfold V2.FileContract.tax
  obtain ⟨s, h1, h2⟩ := (exactly_add m fc.renterOutput.value fc.hostOutput.value).inRange (by omega)
  rw [h1, Res.ok_bind]
  rw [div25, Res.ok_bind, remCount, Res.ok_bind]
  have e1 : (⟨s.val / 25⟩ : Currency).hastings = s.hastings / 25 := by
    rw [Currency.hastings, BitVec.toNat_udiv, show (25 : U128).toNat = 25 from rfl]
  have e2 : (⟨s.val / 25 % 10000⟩ : Currency).hastings = s.hastings / 25 % 10000 := by
    rw [Currency.hastings, BitVec.toNat_umod, BitVec.toNat_udiv, show (25 : U128).toNat = 25 from rfl,
      show (10000 : U128).toNat = 10000 from rfl]
  have hs := s.hastings_lt
  obtain ⟨t, h3, h4⟩ := (exactly_sub m ⟨s.val / 25⟩ ⟨s.val / 25 % 10000⟩).inRange (by rw [e1, e2]; omega)
  rw [e1, e2] at h4
  exact ⟨t, h3, ⟨_, (roundDown h2 h4).1⟩, (roundDown h2 h4).2⟩

/-- C40: without overflow checks a sum of 2^128 or more loses 2^128 first: the tax is that of the rest. -/
theorem C40_v2_tax_wraps (cs : ChainState) (fc : V2.FileContract)
    (h : 2 ^ 128 ≤ fc.renterOutput.value.hastings + fc.hostOutput.value.hastings) :
    ∃ t, fc.tax .unchecked cs = .ok t ∧ (∃ k, t.hastings = 10000 * k) ∧
      25 * t.hastings + 2 ^ 128 ≤ fc.renterOutput.value.hastings + fc.hostOutput.value.hastings ∧
      fc.renterOutput.value.hastings + fc.hostOutput.value.hastings < 25 * (t.hastings + 10000) + 2 ^ 128 := by
  unfold V2.FileContract.tax
  have hr := fc.renterOutput.value.hastings_lt
  have hh := fc.hostOutput.value.hastings_lt
  obtain ⟨s, h1, h2⟩ := (exactly_add .unchecked fc.renterOutput.value fc.hostOutput.value).wraps (by omega) rfl
  rw [h1, Res.ok_bind]
  rw [div25, Res.ok_bind, remCount, Res.ok_bind]
  have e1 : (⟨s.val / 25⟩ : Currency).hastings = s.hastings / 25 := by
    rw [Currency.hastings, BitVec.toNat_udiv, show (25 : U128).toNat = 25 from rfl]
  have e2 : (⟨s.val / 25 % 10000⟩ : Currency).hastings = s.hastings / 25 % 10000 := by
    rw [Currency.hastings, BitVec.toNat_umod, BitVec.toNat_udiv, show (25 : U128).toNat = 25 from rfl,
      show (10000 : U128).toNat = 10000 from rfl]
  have hs := s.hastings_lt
  obtain ⟨t, h3, h4⟩ := (exactly_sub .unchecked ⟨s.val / 25⟩ ⟨s.val / 25 % 10000⟩).inRange (by rw [e1, e2]; omega)
  rw [e1, e2] at h4
  exact ⟨t, h3, ⟨s.hastings / 25 / 10000, by omega⟩, by omega, by omega⟩

/-- C40: the only panic is an overflow of the sum, in an overflow-checked build. -/
theorem C40_v2_tax_panics_iff (m : Mode) (cs : ChainState) (fc : V2.FileContract) :
    fc.tax m cs = .panic ↔ m = .checked ∧ 2 ^ 128 ≤ fc.renterOutput.value.hastings + fc.hostOutput.value.hastings := by
  by_cases h : fc.renterOutput.value.hastings + fc.hostOutput.value.hastings < 2 ^ 128
  · obtain ⟨t, h1, _⟩ := C40_v2_tax m cs fc h
    rw [h1]
    simp only [reduceCtorEq, false_iff, not_and]
    omega
  · have hx := exactly_add m fc.renterOutput.value fc.hostOutput.value
    cases m with
    | checked =>
      simp only [V2.FileContract.tax, hx.panics (by omega) rfl, Res.panic_bind, true_and, true_iff]
      omega
    | unchecked =>
      obtain ⟨s, h1, _⟩ := hx.wraps (by omega) rfl
      simp only [V2.FileContract.tax, h1, Res.ok_bind, reduceCtorEq, false_and, iff_false]
      rw [div25, Res.ok_bind, remCount, Res.ok_bind]
      simp only [Currency.sub, subU, Res.ok_bind]
      exact fun h => nomatch h

example : Sample.v2fc.renterOutput.value.hastings + Sample.v2fc.hostOutput.value.hastings < 2 ^ 128 := by decide +kernel
example : Sample.v2fc.tax .checked Sample.cs = .ok ⟨80000000000000000000000⟩ := by decide +kernel

/-- Outputs that do not fit in a currency together, which meet `C40_v2_tax_wraps`. -/
example : ∃ fc : V2.FileContract, 2 ^ 128 ≤ fc.renterOutput.value.hastings + fc.hostOutput.value.hastings ∧ fc.tax .checked Sample.cs = .panic :=
  ⟨{ Sample.v2fc with hostOutput := ⟨⟨2 ^ 128 - 1⟩, Sample.h 1⟩ }, by decide +kernel, by decide +kernel⟩

end Verif
