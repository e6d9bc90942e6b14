import Verif.Spec.Arith

/-! # Arithmetic lemmas -/

namespace Verif

theorem Currency.ext' {a b : Currency} (h : a.hastings = b.hastings) : a = b := by
  cases a; cases b
  simp only [Currency.mk.injEq]
  exact BitVec.eq_of_toNat_eq h

theorem Currency.hastings_lt (a : Currency) : a.hastings < 2 ^ 128 := a.val.isLt

theorem exactly_add (m : Mode) (a b : Currency) : Exactly m (a.hastings + b.hastings) (a.add m b) := by
  refine ⟨fun h => ⟨⟨a.val + b.val⟩, ?_, ?_⟩, fun h hm => ?_, fun h hm => ⟨⟨a.val + b.val⟩, ?_, ?_⟩⟩
  · have : a.val.toNat + b.val.toNat < 2 ^ 128 := by simp only [Currency.hastings] at h; omega
    cases m
    · simp only [Currency.add, addU, if_pos this]; rfl
    · rfl
  · simp only [Currency.hastings, BitVec.toNat_add] at *
    omega
  · have : ¬ a.val.toNat + b.val.toNat < 2 ^ 128 := by simp only [Currency.hastings] at h; omega
    subst hm
    simp only [Currency.add, addU, if_neg this]; rfl
  · subst hm; rfl
  · simp only [Currency.hastings, BitVec.toNat_add]
    omega

theorem exactly_sub (m : Mode) (a b : Currency) : Exactly m ((a.hastings : Int) - b.hastings) (a.sub m b) := by
  have ha := a.hastings_lt
  have hb := b.hastings_lt
  refine ⟨fun h => ⟨⟨a.val - b.val⟩, ?_, ?_⟩, fun h hm => ?_, fun h hm => ⟨⟨a.val - b.val⟩, ?_, ?_⟩⟩
  · have : b.val.toNat ≤ a.val.toNat := by simp only [Currency.hastings] at h; omega
    cases m
    · simp only [Currency.sub, subU, if_pos this]; rfl
    · rfl
  · simp only [Currency.hastings, BitVec.toNat_sub] at *
    omega
  · have : ¬ b.val.toNat ≤ a.val.toNat := by simp only [Currency.hastings] at h ha hb; omega
    subst hm
    simp only [Currency.sub, subU, if_neg this]; rfl
  · subst hm; rfl
  · simp only [Currency.hastings, BitVec.toNat_sub] at *
    omega

theorem exactly_mulU (m : Mode) (a b : U128) : Exactly m ((a.toNat : Int) * b.toNat) (do
    let v ← mulU m a b
    pure ⟨v⟩) := by
  have hc : (a.toNat : Int) * b.toNat = (a.toNat * b.toNat : Nat) := by simp
  rw [hc]
  refine ⟨fun h => ⟨⟨a * b⟩, ?_, ?_⟩, fun h hm => ?_, fun h hm => ⟨⟨a * b⟩, ?_, ?_⟩⟩
  · have : a.toNat * b.toNat < 2 ^ 128 := by omega
    cases m
    · simp only [mulU, if_pos this]; rfl
    · rfl
  · simp only [Currency.hastings, BitVec.toNat_mul] at *
    omega
  · have : ¬ a.toNat * b.toNat < 2 ^ 128 := by omega
    subst hm
    simp only [mulU, if_neg this]; rfl
  · subst hm; rfl
  · simp only [Currency.hastings, BitVec.toNat_mul]
    omega

theorem exactly_mul (m : Mode) (a b : Currency) : Exactly m ((a.hastings : Int) * b.hastings) (a.mul m b) :=
  exactly_mulU m a.val b.val

/-! ## Powers -/

theorem powLoop_checked (fuel : Nat) : ∀ (base acc : U128) (e : Nat), 1 ≤ base.toNat → 1 ≤ acc.toNat → e < 2 ^ fuel →
    powLoop .checked fuel base e acc =
      if acc.toNat * base.toNat ^ e < 2 ^ 128 then .ok (BitVec.ofNat 128 (acc.toNat * base.toNat ^ e)) else .panic := by
  induction fuel with
  | zero =>
    intro base acc e hb ha he
    have : e = 0 := by simpa using he
    subst this
    simp [powLoop, acc.isLt]
  | succ k ih =>
    intro base acc e hb ha he
    unfold powLoop
    by_cases he0 : e = 0
    · subst he0; simp [acc.isLt]
    · rw [if_neg he0]
      have hsplit : base.toNat ^ e = base.toNat ^ (e % 2) * (base.toNat * base.toNat) ^ (e / 2) := by
        rw [show base.toNat * base.toNat = base.toNat ^ 2 by rw [Nat.pow_two], ← Nat.pow_mul, ← Nat.pow_add]
        congr 1
        omega
      have hpos : ∀ n x : Nat, 1 ≤ n → 1 ≤ n ^ x := fun n x h => Nat.one_le_pow _ _ h
      -- the multiplication of the accumulator
      have step : ∀ acc' : U128, acc'.toNat = acc.toNat * base.toNat ^ (e % 2) →
          (if e / 2 = 0 then Res.ok acc' else do
            let base ← mulU .checked base base
            powLoop .checked k base (e / 2) acc') =
          if acc.toNat * base.toNat ^ e < 2 ^ 128 then .ok (BitVec.ofNat 128 (acc.toNat * base.toNat ^ e)) else .panic := by
        intro acc' hacc
        by_cases h2 : e / 2 = 0
        · rw [if_pos h2, hsplit, h2, Nat.pow_zero, Nat.mul_one, ← hacc]
          simp [acc'.isLt]
        · rw [if_neg h2]
          have hacc1 : 1 ≤ acc'.toNat := by
            rw [hacc]; exact Nat.mul_pos ha (hpos _ _ hb)
          unfold mulU
          by_cases hbb : base.toNat * base.toNat < 2 ^ 128
          · have hbn : (base * base).toNat = base.toNat * base.toNat := by
              rw [BitVec.toNat_mul, Nat.mod_eq_of_lt hbb]
            simp only [hbb, if_true, Res.ok_bind]
            rw [ih _ _ _ (by rw [hbn]; exact Nat.mul_pos hb hb) hacc1 (by omega), hbn, hacc, hsplit, Nat.mul_assoc]
          · simp only [hbb, if_false, Res.panic_bind]
            rw [if_neg]
            intro hlt
            apply hbb
            refine Nat.lt_of_le_of_lt ?_ hlt
            rw [hsplit, ← Nat.mul_assoc]
            have h3 : base.toNat * base.toNat ≤ (base.toNat * base.toNat) ^ (e / 2) :=
              Nat.le_self_pow h2 _
            exact Nat.le_trans h3 (Nat.le_mul_of_pos_left _ (Nat.mul_pos ha (hpos _ _ hb)))
      by_cases ho : e % 2 = 1
      · simp only [ho, if_true]
        unfold mulU
        by_cases hab : acc.toNat * base.toNat < 2 ^ 128
        · simp only [hab, if_true, Res.ok_bind]
          exact step _ (by rw [BitVec.toNat_mul, Nat.mod_eq_of_lt hab, ho, Nat.pow_one])
        · simp only [hab, if_false, Res.panic_bind]
          rw [if_neg]
          intro hlt
          apply hab
          refine Nat.lt_of_le_of_lt ?_ hlt
          rw [hsplit, ho, Nat.pow_one, ← Nat.mul_assoc]
          exact Nat.le_mul_of_pos_right _ (hpos _ _ (Nat.mul_pos hb hb))
      · simp only [ho, if_false, Res.ok_bind]
        exact step _ (by rw [show e % 2 = 0 by omega, Nat.pow_zero, Nat.mul_one])

theorem powLoop_unchecked (fuel : Nat) : ∀ (base acc : U128) (e : Nat), e < 2 ^ fuel →
    powLoop .unchecked fuel base e acc = .ok (BitVec.ofNat 128 (acc.toNat * base.toNat ^ e)) := by
  induction fuel with
  | zero =>
    intro base acc e he
    have : e = 0 := by simpa using he
    subst this
    simp [powLoop]
  | succ k ih =>
    intro base acc e he
    unfold powLoop
    by_cases he0 : e = 0
    · subst he0; simp
    · rw [if_neg he0]
      have hsplit : base.toNat ^ e = base.toNat ^ (e % 2) * (base.toNat * base.toNat) ^ (e / 2) := by
        rw [show base.toNat * base.toNat = base.toNat ^ 2 by rw [Nat.pow_two], ← Nat.pow_mul, ← Nat.pow_add]
        congr 1
        omega
      have step : ∀ acc' : U128, acc'.toNat = (acc.toNat * base.toNat ^ (e % 2)) % 2 ^ 128 →
          (if e / 2 = 0 then Res.ok acc' else do
            let base ← mulU .unchecked base base
            powLoop .unchecked k base (e / 2) acc') = .ok (BitVec.ofNat 128 (acc.toNat * base.toNat ^ e)) := by
        intro acc' hacc
        by_cases h2 : e / 2 = 0
        · rw [if_pos h2, hsplit, h2, Nat.pow_zero, Nat.mul_one]
          congr 1
          apply BitVec.eq_of_toNat_eq
          simp [hacc]
        · rw [if_neg h2]
          unfold mulU
          simp only [Res.ok_bind]
          rw [ih _ _ _ (by omega)]
          congr 1
          apply BitVec.eq_of_toNat_eq
          simp only [BitVec.toNat_ofNat, BitVec.toNat_mul, hacc]
          rw [hsplit, ← Nat.mul_assoc, Nat.mul_mod, Nat.mod_mod, ← Nat.pow_mod, ← Nat.mul_mod]
      by_cases ho : e % 2 = 1
      · simp only [ho, if_true]
        unfold mulU
        simp only [Res.ok_bind]
        exact step _ (by rw [BitVec.toNat_mul, ho, Nat.pow_one])
      · simp only [ho, if_false, Res.ok_bind]
        exact step _ (by rw [show e % 2 = 0 by omega, Nat.pow_zero, Nat.mul_one, Nat.mod_eq_of_lt acc.isLt])

theorem pow10_checked (e : U32) : pow10 .checked e =
    if 10 ^ e.toNat < 2 ^ 128 then .ok (BitVec.ofNat 128 (10 ^ e.toNat)) else .panic := by
  unfold pow10
  rw [powLoop_checked 33 _ _ _ (by decide) (by decide) (by have := e.isLt; omega)]
  simp

theorem pow10_unchecked (e : U32) : pow10 .unchecked e = .ok (BitVec.ofNat 128 (10 ^ e.toNat)) := by
  unfold pow10
  rw [powLoop_unchecked 33 _ _ _ (by have := e.isLt; omega)]
  simp

theorem pow10_ok (m : Mode) (e : U32) (h : e.toNat ≤ 38) : pow10 m e = .ok (BitVec.ofNat 128 (10 ^ e.toNat)) := by
  cases m with
  | checked =>
    rw [pow10_checked, if_pos]
    exact Nat.lt_of_le_of_lt (Nat.pow_le_pow_right (by decide) h) (by decide)
  | unchecked => exact pow10_unchecked e

theorem exactly_siacoins (m : Mode) (n : U64) : Exactly m (n.toNat * 10 ^ 24) (Currency.siacoins m n) := by
  have h := exactly_mulU m (n.setWidth 128) (BitVec.ofNat 128 (10 ^ 24))
  have e1 : (n.setWidth 128).toNat = n.toNat := by
    rw [BitVec.toNat_setWidth]; exact Nat.mod_eq_of_lt (Nat.lt_trans n.isLt (by decide))
  have e2 : (BitVec.ofNat 128 (10 ^ 24)).toNat = 10 ^ 24 := by decide +kernel
  rw [e1, e2] at h
  unfold Currency.siacoins
  rw [pow10_ok m 24 (by decide)]
  exact h

theorem exactly_sumFrom (m : Mode) (l : List Currency) : ∀ acc : Currency,
    Exactly m (acc.hastings + (l.map Currency.hastings).sum : Nat) (Currency.sumFrom m acc l) := by
  induction l with
  | nil =>
    intro acc
    have := acc.hastings_lt
    exact ⟨fun _ => ⟨acc, rfl, by simp⟩, fun h => absurd (by simp; omega) h, fun h => absurd (by simp; omega) h⟩
  | cons c cs ih =>
    intro acc
    simp only [Currency.sumFrom, List.map_cons, List.sum_cons]
    have h := exactly_add m acc c
    by_cases hc : ((acc.hastings : Int) + c.hastings) < 2 ^ 128
    · obtain ⟨c', h1, h2⟩ := h.inRange ⟨by omega, hc⟩
      rw [h1, Res.ok_bind]
      rw [show acc.hastings + (c.hastings + (cs.map Currency.hastings).sum) =
        c'.hastings + (cs.map Currency.hastings).sum by omega]
      exact ih c'
    · have hbig : ¬ (0 ≤ ((acc.hastings + (c.hastings + (cs.map Currency.hastings).sum) : Nat) : Int) ∧
          ((acc.hastings + (c.hastings + (cs.map Currency.hastings).sum) : Nat) : Int) < 2 ^ 128) := by omega
      refine ⟨fun h => absurd h hbig, fun _ hm => ?_, fun _ hm => ?_⟩
      · rw [h.panics (by omega) hm]; rfl
      · obtain ⟨c', h1, h2⟩ := h.wraps (by omega) hm
        rw [h1, Res.ok_bind]
        have key : ((acc.hastings + (c.hastings + (cs.map Currency.hastings).sum) : Nat) : Int) % 2 ^ 128 =
            ((c'.hastings + (cs.map Currency.hastings).sum : Nat) : Int) % 2 ^ 128 := by omega
        rw [key]
        by_cases hs : (0 ≤ ((c'.hastings + (cs.map Currency.hastings).sum : Nat) : Int) ∧
            ((c'.hastings + (cs.map Currency.hastings).sum : Nat) : Int) < 2 ^ 128)
        · obtain ⟨d, h3, h4⟩ := (ih c').inRange hs
          exact ⟨d, h3, by omega⟩
        · exact (ih c').wraps hs hm

end Verif
