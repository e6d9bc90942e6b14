import Verif.Model.Prim

/-! # Lemmas on byte strings and decoders -/

namespace Verif

@[simp] theorem leBytes_length (n x : Nat) : (leBytes n x).length = n := by
  induction n generalizing x with
  | zero => rfl
  | succ n ih => simp [leBytes, ih]

@[simp] theorem beBytes_length (n x : Nat) : (beBytes n x).length = n := by
  simp [beBytes]

theorem leVal_leBytes (n x : Nat) : leVal (leBytes n x) = x % 256 ^ n := by
  induction n generalizing x with
  | zero => simp [leBytes, leVal, Nat.mod_one]
  | succ n ih =>
    simp only [leBytes, leVal, ih]
    have h1 : (UInt8.ofNat (x % 256)).toNat = x % 256 := by
      simp [UInt8.toNat_ofNat']
    rw [h1, Nat.pow_succ, Nat.mul_comm (256 ^ n) 256, Nat.mod_mul]

theorem leVal_lt (l : List UInt8) : leVal l < 256 ^ l.length := by
  induction l with
  | nil => simp [leVal]
  | cons b l ih =>
    simp only [leVal, List.length_cons, Nat.pow_succ]
    have := b.toNat_lt
    omega

theorem leBytes_leVal (l : List UInt8) : leBytes l.length (leVal l) = l := by
  induction l with
  | nil => rfl
  | cons b l ih =>
    have hb := b.toNat_lt
    simp only [leVal, List.length_cons, leBytes]
    have h1 : (b.toNat + 256 * leVal l) % 256 = b.toNat := by omega
    have h2 : (b.toNat + 256 * leVal l) / 256 = leVal l := by omega
    rw [h1, h2, ih]
    simp

theorem leVal_leBytes_of_lt {n x : Nat} (h : x < 256 ^ n) : leVal (leBytes n x) = x := by
  rw [leVal_leBytes, Nat.mod_eq_of_lt h]

theorem beVal_beBytes_of_lt {n x : Nat} (h : x < 256 ^ n) : beVal (beBytes n x) = x := by
  simp [beVal, beBytes, leVal_leBytes_of_lt h]

theorem beVal_lt (l : List UInt8) : beVal l < 256 ^ l.length := by
  have := leVal_lt l.reverse
  simpa [beVal] using this

theorem beBytes_beVal (l : List UInt8) : beBytes l.length (beVal l) = l := by
  have := leBytes_leVal l.reverse
  simp only [List.length_reverse] at this
  simp [beVal, beBytes, this]

namespace Dec

variable {α β : Type}

@[simp] theorem pure_apply (a : α) (lim : Lim) (bs : List UInt8) :
    (Pure.pure a : Dec α) lim bs = .ok (a, bs) := rfl

theorem bind_apply (d : Dec α) (f : α → Dec β) (lim : Lim) (bs : List UInt8) :
    (d >>= f) lim bs = match d lim bs with
      | .ok (a, r) => f a lim r
      | .err e => .err e
      | .panic => .panic := rfl

theorem bind_ok {d : Dec α} {f : α → Dec β} {lim : Lim} {bs r : List UInt8} {a : α}
    (h : d lim bs = .ok (a, r)) : (d >>= f) lim bs = f a lim r := by
  rw [bind_apply, h]

theorem bind_err {d : Dec α} {f : α → Dec β} {lim : Lim} {bs : List UInt8} {e : Err}
    (h : d lim bs = .err e) : (d >>= f) lim bs = .err e := by
  rw [bind_apply, h]

theorem bind_eq_ok {d : Dec α} {f : α → Dec β} {lim : Lim} {bs r : List UInt8} {b : β} :
    (d >>= f) lim bs = .ok (b, r) ↔
      ∃ a r', d lim bs = .ok (a, r') ∧ f a lim r' = .ok (b, r) := by
  rw [bind_apply]
  cases h : d lim bs with
  | ok x => obtain ⟨a, r'⟩ := x; simp [and_assoc]
  | err e => simp
  | panic => simp

theorem bind_eq_panic {d : Dec α} {f : α → Dec β} {lim : Lim} {bs : List UInt8} :
    (d >>= f) lim bs = .panic ↔
      d lim bs = .panic ∨ ∃ a r', d lim bs = .ok (a, r') ∧ f a lim r' = .panic := by
  rw [bind_apply]
  cases h : d lim bs with
  | ok x => obtain ⟨a, r'⟩ := x; simp [and_assoc]
  | err e => simp
  | panic => simp

/-- `d` reads exactly the bytes `e`, returning `a`, whatever follows; and fails with an error on every
proper prefix of `e`. -/
structure Reads (lim : Lim) (d : Dec α) (e : List UInt8) (a : α) : Prop where
  rt : ∀ rest, d lim (e ++ rest) = .ok (a, rest)
  trunc : ∀ p s, p ++ s = e → s ≠ [] → ∃ x, d lim p = .err x

/-- A successful run depends only on the bytes it consumed. -/
def Local (d : Dec α) : Prop :=
  ∀ lim bs a r, d lim bs = .ok (a, r) → ∃ p, bs = p ++ r ∧ ∀ x, d lim (p ++ x) = .ok (a, x)

/-- Never panics when allocation never fails and the stack is deeper than the input is long. -/
def PanicFree (d : Dec α) : Prop :=
  ∀ lim bs, 2 ^ 64 ≤ lim.cap → bs.length < lim.stack →
    d lim bs ≠ .panic ∧ ∀ a r, d lim bs = .ok (a, r) → r.length ≤ bs.length

/-- Never panics, whatever the allocation limit. -/
def NoPanic (d : Dec α) : Prop := ∀ lim bs, d lim bs ≠ .panic

/-- Accepts only the encodings of what it returns. -/
def Canon (d : Dec α) (enc : α → List UInt8) : Prop :=
  ∀ lim bs a r, d lim bs = .ok (a, r) → bs = enc a ++ r

theorem Reads.pure {lim : Lim} (a : α) : Reads lim (Pure.pure a : Dec α) [] a where
  rt _ := rfl
  trunc p s h hs := by simp_all

theorem Reads.bind {lim : Lim} {d : Dec α} {f : α → Dec β} {e₁ e₂ : List UInt8} {a : α} {b : β}
    (h₁ : Reads lim d e₁ a) (h₂ : Reads lim (f a) e₂ b) : Reads lim (d >>= f) (e₁ ++ e₂) b where
  rt rest := by
    rw [List.append_assoc, bind_ok (h₁.rt _), h₂.rt]
  trunc p s h hs := by
    rcases List.append_eq_append_iff.mp h with ⟨as, h3, h4⟩ | ⟨bs, h3, h4⟩
    · by_cases has : as = []
      · subst has
        simp only [List.append_nil] at h3
        subst h3
        simp only [List.nil_append] at h4
        obtain ⟨x, hx⟩ := h₂.trunc [] s (by simp [h4]) hs
        refine ⟨x, ?_⟩
        have := h₁.rt []
        simp only [List.append_nil] at this
        rw [bind_ok this, hx]
      · obtain ⟨x, hx⟩ := h₁.trunc p as h3.symm has
        exact ⟨x, bind_err hx⟩
    · obtain ⟨x, hx⟩ := h₂.trunc bs s h4.symm hs
      refine ⟨x, ?_⟩
      rw [h3, bind_ok (h₁.rt _), hx]

/-- Like `Reads.bind` when the rest of the computation reads nothing. -/
theorem Reads.map {lim : Lim} {d : Dec α} {f : α → Dec β} {e : List UInt8} {a : α} {b : β}
    (h₁ : Reads lim d e a) (h₂ : ∀ bs, f a lim bs = .ok (b, bs)) : Reads lim (d >>= f) e b := by
  have : Reads lim (f a) [] b := ⟨fun rest => by simp [h₂], fun p s h hs => by simp_all⟩
  simpa using h₁.bind this

theorem Reads.of_unit_left {lim : Lim} {d : Dec α} {f : α → Dec β} {e : List UInt8} {a : α} {b : β}
    (h₁ : ∀ bs, d lim bs = .ok (a, bs)) (h₂ : Reads lim (f a) e b) : Reads lim (d >>= f) e b := by
  have : Reads lim d [] a := ⟨fun rest => by simp [h₁], fun p s h hs => by simp_all⟩
  simpa using this.bind h₂

theorem Local.pure (a : α) : Local (Pure.pure a : Dec α) := by
  intro lim bs b r h
  simp at h
  exact ⟨[], by simp [h]⟩

theorem Local.fail (e : Err) : Local (Dec.fail e : Dec α) := by
  intro lim bs b r h
  simp [Dec.fail] at h

theorem Local.crash : Local (Dec.crash : Dec α) := by
  intro lim bs b r h
  simp [Dec.crash] at h

theorem Local.reserve (n : Nat) : Local (Dec.reserve n) := by
  intro lim bs b r h
  unfold Dec.reserve at h
  split at h
  · rename_i hn
    simp at h
    refine ⟨[], by simp [h], fun x => ?_⟩
    simp [Dec.reserve, hn]
  · simp at h

theorem Local.lift (x : Res α) : Local (Dec.lift x) := by
  intro lim bs b r h
  cases x with
  | ok a =>
    simp [Dec.lift] at h
    exact ⟨[], by simp [h], by simp [Dec.lift, h]⟩
  | err e => simp [Dec.lift] at h
  | panic => simp [Dec.lift] at h

theorem Local.bind {d : Dec α} {f : α → Dec β} (h₁ : Local d) (h₂ : ∀ a, Local (f a)) :
    Local (d >>= f) := by
  intro lim bs b r h
  obtain ⟨a, r', ha, hb⟩ := bind_eq_ok.mp h
  obtain ⟨p₁, hp₁, hx₁⟩ := h₁ _ _ _ _ ha
  obtain ⟨p₂, hp₂, hx₂⟩ := h₂ a _ _ _ _ hb
  refine ⟨p₁ ++ p₂, by simp [hp₁, hp₂], fun x => ?_⟩
  rw [List.append_assoc, bind_ok (hx₁ _), hx₂]

theorem Local.mapErr {d : Dec α} (h : Local d) (e : Err) : Local (d.mapErr e) := by
  intro lim bs b r hb
  unfold Dec.mapErr at hb
  split at hb
  · rename_i x hx
    simp only [Res.ok.injEq] at hb
    subst hb
    obtain ⟨p, hp, hq⟩ := h _ _ _ _ hx
    refine ⟨p, hp, fun x => ?_⟩
    simp [Dec.mapErr, hq]
  · simp at hb
  · simp at hb

theorem Local.readExact (n : Nat) : Local (Verif.readExact n) := by
  intro lim bs a r h
  unfold Verif.readExact at h
  split at h
  · rename_i hn
    simp only [Res.ok.injEq, Prod.mk.injEq] at h
    obtain ⟨ha, hr⟩ := h
    refine ⟨bs.take n, by simp [← hr], fun x => ?_⟩
    unfold Verif.readExact
    have hl : (bs.take n).length = n := by simp [hn]
    have hn' : n ≤ (bs.take n ++ x).length := by simp [hn]
    rw [dif_pos hn']
    simp only [Res.ok.injEq, Prod.mk.injEq]
    constructor
    · rw [← ha]
      apply Subtype.ext
      simp only
      rw [List.take_append_of_le_length (by omega), List.take_of_length_le (by omega)]
    · rw [List.drop_append_of_le_length (by omega), List.drop_of_length_le (by omega)]
      rfl
  · simp at h

theorem Reads.readExact {lim : Lim} {n : Nat} (a : Arr n) : Reads lim (Verif.readExact n) a.1 a where
  rt rest := by
    obtain ⟨l, hl⟩ := a
    subst hl
    simp [Verif.readExact]
  trunc p s h hs := by
    obtain ⟨l, hl⟩ := a
    simp only at h
    have : ¬ n ≤ p.length := by
      have h1 := congrArg List.length h
      simp at h1
      have h2 := List.length_pos_iff.mpr hs
      omega
    exact ⟨.io, by simp [Verif.readExact, this]⟩

theorem Canon.readExact (n : Nat) : Canon (Verif.readExact n) (fun a => a.1) := by
  intro lim bs a r h
  unfold Verif.readExact at h
  split at h
  · simp only [Res.ok.injEq, Prod.mk.injEq] at h
    obtain ⟨ha, hr⟩ := h
    subst ha hr
    simp
  · simp at h

theorem NoPanic.pure (a : α) : NoPanic (Pure.pure a : Dec α) := by
  intro lim bs; simp

theorem NoPanic.fail (e : Err) : NoPanic (Dec.fail e : Dec α) := by
  intro lim bs; simp [Dec.fail]

theorem NoPanic.bind {d : Dec α} {f : α → Dec β} (h₁ : NoPanic d) (h₂ : ∀ a, NoPanic (f a)) :
    NoPanic (d >>= f) := by
  intro lim bs h
  rcases bind_eq_panic.mp h with h | ⟨a, r, _, h⟩
  · exact h₁ _ _ h
  · exact h₂ _ _ _ h

theorem NoPanic.readExact (n : Nat) : NoPanic (Verif.readExact n) := by
  intro lim bs h
  unfold Verif.readExact at h
  split at h <;> simp at h

theorem NoPanic.mapErr {d : Dec α} (h : NoPanic d) (e : Err) : NoPanic (d.mapErr e) := by
  intro lim bs hb
  unfold Dec.mapErr at hb
  split at hb
  · simp at hb
  · simp at hb
  · exact h _ _ ‹_›

theorem Local.length_le {d : Dec α} (h : Local d) {lim : Lim} {bs r : List UInt8} {a : α}
    (hd : d lim bs = .ok (a, r)) : r.length ≤ bs.length := by
  obtain ⟨p, hp, _⟩ := h _ _ _ _ hd
  simp [hp]

theorem NoPanic.panicFree {d : Dec α} (h : NoPanic d) (hl : Local d) : PanicFree d :=
  fun lim bs _ _ => ⟨h lim bs, fun _ _ hd => hl.length_le hd⟩

theorem PanicFree.pure (a : α) : PanicFree (Pure.pure a : Dec α) :=
  (NoPanic.pure a).panicFree (Local.pure a)

theorem PanicFree.fail (e : Err) : PanicFree (Dec.fail e : Dec α) :=
  (NoPanic.fail e).panicFree (Local.fail e)

theorem PanicFree.bind {d : Dec α} {f : α → Dec β} (h₁ : PanicFree d) (h₂ : ∀ a, PanicFree (f a)) :
    PanicFree (d >>= f) := by
  intro lim bs hl hs
  obtain ⟨h3, h4⟩ := h₁ lim bs hl hs
  constructor
  · intro h
    rcases bind_eq_panic.mp h with h | ⟨a, r, ha, h⟩
    · exact h3 h
    · exact (h₂ a lim r hl (Nat.lt_of_le_of_lt (h4 _ _ ha) hs)).1 h
  · intro b r h
    obtain ⟨a, r', ha, hb⟩ := bind_eq_ok.mp h
    have h5 := h4 _ _ ha
    exact Nat.le_trans ((h₂ a lim r' hl (Nat.lt_of_le_of_lt h5 hs)).2 _ _ hb) h5

end Dec

end Verif
