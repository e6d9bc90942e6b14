import Verif.Lemmas.Types

/-!
# Laws of the policy codec
-/

namespace Verif

open Dec SpendPolicy

variable {v : Ver} {α : Type}

theorem encodePolicies_eq (ps : List SpendPolicy) : encodePolicies ps = ps.flatMap encodePolicy := by
  induction ps with
  | nil => rfl
  | cons p ps ih => rw [encodePolicies, ih]; rfl

theorem enc_policy (p : SpendPolicy) : enc v p = enc .v2 (1 : UInt8) ++ p.encodePolicy := rfl

theorem dec_policy : (dec v : Dec SpendPolicy) = ((dec .v2 : Dec UInt8) >>= fun ver =>
    if ver ≠ 1 then Dec.fail .custom else fun lim bs => decodePolicy lim.stack lim bs) := rfl

/-- The body of `decodePolicy` after the type byte. -/
def policyBody (k : Nat) (ty : UInt8) : Dec SpendPolicy :=
  if ty = 1 then (dec .v2 : Dec U64) >>= fun h => pure (.above h)
  else if ty = 2 then (dec .v2 : Dec U64) >>= fun secs =>
    match DateTime.fromUnix secs.toInt with
    | some t => pure (.after t)
    | none => Dec.fail .custom
  else if ty = 3 then (dec .v2 : Dec PublicKey) >>= fun h => pure (.publicKey h)
  else if ty = 4 then (dec .v2 : Dec Hash256) >>= fun h => pure (.hash h)
  else if ty = 5 then (dec .v2 : Dec UInt8) >>= fun of => (dec .v2 : Dec UInt8) >>= fun n =>
    Dec.reserve n.toNat >>= fun _ => decodeN (decodePolicy k) n.toNat >>= fun ps => pure (.threshold of ps)
  else if ty = 6 then (dec .v2 : Dec Address) >>= fun h => pure (.opaqueAddr h)
  else if ty = 7 then (dec .v2 : Dec UnlockConditions) >>= fun h => pure (.unlockConditions h)
  else Dec.fail .custom

theorem decodePolicy_succ (k : Nat) :
    decodePolicy (k + 1) = ((dec .v2 : Dec UInt8) >>= fun ty => policyBody k ty) := rfl

theorem reads_byte (lim : Lim) (b : UInt8) : Reads lim (dec v : Dec UInt8) [b] b := Lawful.reads lim b trivial

theorem reads_decodePolicy (lim : Lim) : ∀ (k : Nat) (p : SpendPolicy), policyFits lim k p →
    Reads lim (decodePolicy k) p.encodePolicy p := by
  intro k
  induction k with
  | zero => intro p h; simp [policyFits] at h
  | succ k ih =>
    intro p h
    rw [decodePolicy_succ]
    cases p with
    | above x =>
      rw [encodePolicy]
      exact (reads_byte lim _).bind ((Lawful.reads lim x trivial).map fun _ => rfl)
    | after t =>
      rw [encodePolicy]
      refine (reads_byte lim _).bind ?_
      show Reads lim ((dec .v2 : Dec U64) >>= fun secs => _) _ _
      simp only [policyFits, fits] at h
      have h1 : enc .v2 (BitVec.ofInt 64 t.secs : U64) = leBytes 8 (BitVec.ofInt 64 t.secs).toNat := enc_u64 _
      rw [← h1]
      refine (Lawful.reads lim (BitVec.ofInt 64 t.secs : U64) trivial).map fun rest => ?_
      rw [ofInt64_toInt (by omega) (by omega)]
      simp only [DateTime.fromUnix, DateTime.minSecs, DateTime.maxSecs, h.2, and_self, if_true]
      obtain ⟨s, n⟩ := t
      have : n = 0 := h.1
      subst this
      rfl
    | publicKey x =>
      rw [encodePolicy]
      exact (reads_byte lim _).bind ((Lawful.reads lim x trivial).map fun _ => rfl)
    | hash x =>
      rw [encodePolicy]
      exact (reads_byte lim _).bind ((Lawful.reads lim x trivial).map fun _ => rfl)
    | threshold n of =>
      rw [encodePolicy]
      simp only [policyFits] at h
      obtain ⟨h1, h2, h3⟩ := h
      have hn : (UInt8.ofNat of.length).toNat = of.length := by
        simp; omega
      refine (reads_byte lim _).bind ?_
      show Reads lim ((dec .v2 : Dec UInt8) >>= fun of => _) _ _
      refine (reads_byte lim _).bind ?_
      refine (reads_byte lim _).bind ?_
      simp only [hn]
      refine Reads.of_unit_left (a := ()) (fun bs => (reads_reserve h2).rt bs) ?_
      rw [encodePolicies_eq]
      exact (Reads.decodeN (e := encodePolicy) of fun p hp => ih p (h3 p hp)).map fun _ => rfl
    | opaqueAddr x =>
      rw [encodePolicy]
      exact (reads_byte lim _).bind ((Lawful.reads lim x trivial).map fun _ => rfl)
    | unlockConditions x =>
      rw [encodePolicy]
      simp only [policyFits] at h
      exact (reads_byte lim _).bind ((Lawful.reads lim x h).map fun _ => rfl)

theorem local_decodePolicy (k : Nat) : Local (decodePolicy k) := by
  induction k with
  | zero => exact Local.crash
  | succ k ih =>
    rw [decodePolicy_succ]
    refine Lawful.loc.bind fun ty => ?_
    unfold policyBody
    repeat' split
    · exact Lawful.loc.bind fun _ => Local.pure _
    · refine Lawful.loc.bind fun s => ?_
      cases DateTime.fromUnix s.toInt with
      | none => exact Local.fail _
      | some t => exact Local.pure _
    · exact Lawful.loc.bind fun _ => Local.pure _
    · exact Lawful.loc.bind fun _ => Local.pure _
    · exact Lawful.loc.bind fun _ => Lawful.loc.bind fun _ => (Local.reserve _).bind fun _ =>
        (Local.decodeN ih _).bind fun _ => Local.pure _
    · exact Lawful.loc.bind fun _ => Local.pure _
    · exact Lawful.loc.bind fun _ => Local.pure _
    · exact Local.fail _

/-- Panic-free on inputs shorter than `k`. -/
def SafeAt (k : Nat) (d : Dec α) : Prop :=
  ∀ lim bs, 2 ^ 64 ≤ lim.cap → bs.length < lim.stack → bs.length < k →
    d lim bs ≠ .panic ∧ ∀ a r, d lim bs = .ok (a, r) → r.length ≤ bs.length

theorem SafeAt.of_panicFree {k : Nat} {d : Dec α} (h : PanicFree d) : SafeAt k d :=
  fun lim bs h1 h2 _ => h lim bs h1 h2

theorem SafeAt.bind {β : Type} {k : Nat} {d : Dec α} {f : α → Dec β} (h₁ : SafeAt k d) (h₂ : ∀ a, SafeAt k (f a)) :
    SafeAt k (d >>= f) := by
  intro lim bs hl hs hk
  obtain ⟨h3, h4⟩ := h₁ lim bs hl hs hk
  constructor
  · intro h
    rcases bind_eq_panic.mp h with h | ⟨a, r, ha, h⟩
    · exact h3 h
    · have := h4 _ _ ha
      exact (h₂ a lim r hl (by omega) (by omega)).1 h
  · intro b r h
    obtain ⟨a, r', ha, hb⟩ := bind_eq_ok.mp h
    have h5 := h4 _ _ ha
    exact Nat.le_trans ((h₂ a lim r' hl (by omega) (by omega)).2 _ _ hb) h5

theorem SafeAt.decodeN {k : Nat} {d : Dec α} (h : SafeAt k d) (n : Nat) : SafeAt k (Verif.decodeN d n) := by
  induction n with
  | zero => exact .of_panicFree (PanicFree.pure _)
  | succ n ih => exact h.bind fun _ => ih.bind fun _ => .of_panicFree (PanicFree.pure _)

theorem panicFree_reserve (n : Nat) (h : n < 2 ^ 64) : PanicFree (Dec.reserve n) := by
  intro lim bs hl hs
  refine ⟨fun h' => ?_, fun _ _ h => (Local.reserve _).length_le h⟩
  unfold Dec.reserve at h'
  split at h'
  · simp at h'
  · omega

theorem safeAt_decodePolicy (k : Nat) : SafeAt k (decodePolicy k) := by
  induction k with
  | zero => intro lim bs _ _ h; omega
  | succ k ih =>
    have hb : ∀ ty, SafeAt k (policyBody k ty) := by
      intro ty
      unfold policyBody
      repeat' split
      · exact .of_panicFree (Safe.safe.bind fun _ => PanicFree.pure _)
      · refine .of_panicFree (Safe.safe.bind fun s => ?_)
        cases DateTime.fromUnix s.toInt with
        | none => exact PanicFree.fail _
        | some t => exact PanicFree.pure _
      · exact .of_panicFree (Safe.safe.bind fun _ => PanicFree.pure _)
      · exact .of_panicFree (Safe.safe.bind fun _ => PanicFree.pure _)
      · refine SafeAt.bind (.of_panicFree Safe.safe) fun _ => SafeAt.bind (.of_panicFree Safe.safe) fun n =>
          SafeAt.bind (.of_panicFree (panicFree_reserve _ ?_)) fun _ =>
            (SafeAt.decodeN ih _).bind fun _ => .of_panicFree (PanicFree.pure _)
        exact Nat.lt_trans n.toNat_lt (by decide)
      · exact .of_panicFree (Safe.safe.bind fun _ => PanicFree.pure _)
      · exact .of_panicFree (Safe.safe.bind fun _ => PanicFree.pure _)
      · exact .of_panicFree (PanicFree.fail _)
    intro lim bs h1 h2 h3
    rw [decodePolicy_succ]
    cases bs with
    | nil => simp [bind_err dec_u8_nil]
    | cons b bs =>
      rw [bind_ok (dec_u8_cons b bs)]
      simp only [List.length_cons] at h2 h3 ⊢
      obtain ⟨h4, h5⟩ := hb b lim bs h1 (by omega) (by omega)
      exact ⟨h4, fun a r h => Nat.le_succ_of_le (h5 a r h)⟩

theorem canon_decodePolicy (k : Nat) : Canon (decodePolicy k) encodePolicy := by
  induction k with
  | zero => intro lim bs a r h; simp [decodePolicy, Dec.crash] at h
  | succ k ih =>
    intro lim bs a r h
    rw [decodePolicy_succ] at h
    obtain ⟨ty, r1, h1, h2⟩ := bind_eq_ok.mp h
    rw [Canonical.canon _ _ _ _ h1]
    unfold policyBody at h2
    split at h2
    · obtain ⟨x, r2, h3, h4⟩ := bind_eq_ok.mp h2
      simp at h4
      rw [Canonical.canon _ _ _ _ h3, ← h4.1, ← h4.2, ‹ty = _›]; rfl
    split at h2
    · obtain ⟨x, r2, h3, h4⟩ := bind_eq_ok.mp h2
      cases ht : DateTime.fromUnix x.toInt with
      | none => rw [ht] at h4; simp [Dec.fail] at h4
      | some t =>
        rw [ht] at h4
        simp at h4
        unfold DateTime.fromUnix at ht
        split at ht
        · simp at ht
          rw [Canonical.canon _ _ _ _ h3, ← h4.1, ← h4.2, ‹ty = _›, encodePolicy, ← ht, BitVec.ofInt_toInt,
            enc_u64 x]
          rfl
        · simp at ht
    split at h2
    · obtain ⟨x, r2, h3, h4⟩ := bind_eq_ok.mp h2
      simp at h4
      rw [Canonical.canon _ _ _ _ h3, ← h4.1, ← h4.2, ‹ty = _›]; rfl
    split at h2
    · obtain ⟨x, r2, h3, h4⟩ := bind_eq_ok.mp h2
      simp at h4
      rw [Canonical.canon _ _ _ _ h3, ← h4.1, ← h4.2, ‹ty = _›]; rfl
    split at h2
    · obtain ⟨of, r2, h3, h4⟩ := bind_eq_ok.mp h2
      obtain ⟨n, r3, h5, h6⟩ := bind_eq_ok.mp h4
      obtain ⟨_, r4, h7, h8⟩ := bind_eq_ok.mp h6
      obtain ⟨ps, r5, h9, h10⟩ := bind_eq_ok.mp h8
      have h7' : r4 = r3 := by
        unfold Dec.reserve at h7
        split at h7
        · simp at h7; exact h7.symm
        · simp at h7
      subst h7'
      simp at h10
      obtain ⟨hl, hb⟩ := decodeN_ok ih h9
      rw [Canonical.canon _ _ _ _ h3, Canonical.canon _ _ _ _ h5, hb, ← h10.1, ← h10.2, ‹ty = _›, encodePolicy,
        encodePolicies_eq, hl]
      simp [typePrefix, enc, Codec.encode]
    split at h2
    · obtain ⟨x, r2, h3, h4⟩ := bind_eq_ok.mp h2
      simp at h4
      rw [Canonical.canon _ _ _ _ h3, ← h4.1, ← h4.2, ‹ty = _›]; rfl
    split at h2
    · obtain ⟨x, r2, h3, h4⟩ := bind_eq_ok.mp h2
      simp at h4
      rw [Canonical.canon _ _ _ _ h3, ← h4.1, ← h4.2, ‹ty = _›]; rfl
    · simp [Dec.fail] at h2

/-- The top-level call of `decodePolicy`. -/
def runPolicy : Dec SpendPolicy := fun lim bs => decodePolicy lim.stack lim bs

theorem dec_policy' : (dec v : Dec SpendPolicy) = ((dec .v2 : Dec UInt8) >>= fun ver =>
    if ver ≠ 1 then Dec.fail .custom else runPolicy) := rfl

instance : Lawful v SpendPolicy where
  reads lim p h := by
    rw [enc_policy, dec_policy]
    refine (reads_byte lim 1).bind ?_
    have := reads_decodePolicy lim lim.stack p h
    exact ⟨fun rest => this.rt rest, fun p s h1 h2 => this.trunc p s h1 h2⟩
  loc := by
    rw [dec_policy']
    refine Lawful.loc.bind fun ver => ?_
    split
    · exact Local.fail _
    · intro lim bs a r h
      exact local_decodePolicy lim.stack lim bs a r h

instance : Safe v SpendPolicy where
  safe := by
    rw [dec_policy']
    refine Safe.safe.bind fun ver => ?_
    split
    · exact PanicFree.fail _
    · intro lim bs h1 h2
      exact safeAt_decodePolicy lim.stack lim bs h1 h2 h2

instance : Canonical v SpendPolicy where
  canon lim bs a r h := by
    rw [dec_policy'] at h
    obtain ⟨ver, r1, h1, h2⟩ := bind_eq_ok.mp h
    split at h2
    · simp [Dec.fail] at h2
    · rename_i hv
      simp at hv
      rw [Canonical.canon _ _ _ _ h1, canon_decodePolicy _ _ _ _ _ h2, hv, enc_policy, List.append_assoc]

instance : Lawful v SatisfiedPolicy := inferInstance
instance : Safe v SatisfiedPolicy := inferInstance
instance : Canonical v SatisfiedPolicy := inferInstance

end Verif
