import Verif.Spec.Policy
import Verif.Props.Cover

/-!
# Addresses of spend policies (C30, C31)
-/

namespace Verif

open SpendPolicy

variable {H : Hasher}

theorem opaqueAll_map (H : Hasher) : ∀ (of : List SpendPolicy) (as : List Address),
    of.map (address H) = as.map .ok → opaqueAll H of = .ok (as.map .opaqueAddr)
  | [], [], _ => by rw [opaqueAll]; rfl
  | [], _ :: _, h => by simp at h
  | _ :: _, [], h => by simp at h
  | p :: of, a :: as, h => by
    rw [List.map_cons, List.map_cons, List.cons.injEq] at h
    rw [opaqueAll, h.1, opaqueAll_map H of as h.2]
    rfl

theorem opaqueAll_append (ps qs qs' : List SpendPolicy) (h : opaqueAll H qs = opaqueAll H qs') :
    opaqueAll H (ps ++ qs) = opaqueAll H (ps ++ qs') := by
  induction ps with
  | nil => exact h
  | cons p ps ih => rw [List.cons_append, List.cons_append, opaqueAll, opaqueAll, ih]

/-! ## C30 -/

/-- C30.  Replacing any sub-policy, at any depth, by the opaque policy of its address leaves the address unchanged. -/
theorem C30_hiding (H : Hasher) (p q : SpendPolicy) (h : Hides H p q) : q.address H = p.address H := by
  induction h with
  | here p a ha => rw [ha, address]
  | inside n bf af p q _ ih =>
    rw [address, address, opaqueAll_append bf (q :: af) (p :: af) (by rw [opaqueAll, opaqueAll, ih])]

example : Hides Sample.byteSum (.threshold 1 [.above 5, .threshold 2 [.hash (Sample.h 1), .above 6]])
    (.threshold 1 ([.above 5] ++ .threshold 2 ([.hash (Sample.h 1)] ++
      .opaqueAddr (Sample.byteSum (ascii "sia/address|" ++ enc .v2 (SpendPolicy.above 6))) :: []) :: [])) :=
  .inside 1 [.above 5] [] _ _ (.inside 2 [.hash (Sample.h 1)] [] (.above 6) _ (.here _ _ (by rw [address])))

/-- C30, any number of hidden parts on either side: policies that agree up to hidden parts have the same address. -/
theorem C30_agree (H : Hasher) (p q : SpendPolicy) (h : Agree H p q) : p.address H = q.address H := by
  induction h with
  | same p => rfl
  | hiddenLeft p a ha => rw [ha, address]
  | hiddenRight p a ha => rw [ha, address]
  | conditions uc uc' h h' hs => rw [address, address, C68_same_address H uc uc' h h' hs]
  | after t t' e => rw [address, address, enc_policy, enc_policy, encodePolicy, encodePolicy, e]; rfl
  | inside n ps qs hl _ ih =>
    have : ∀ (ps qs : List SpendPolicy), ps.length = qs.length → (∀ pq ∈ ps.zip qs, pq.1.address H = pq.2.address H) →
        opaqueAll H ps = opaqueAll H qs := by
      intro ps
      induction ps with
      | nil => intro qs hl _; cases qs with
        | nil => rfl
        | cons _ _ => cases hl
      | cons p ps ih' =>
        intro qs hl ih
        cases qs with
        | nil => cases hl
        | cons q qs =>
          have h1 : p.address H = q.address H := ih (p, q) (by simp)
          have h2 := ih' qs (by simpa using hl) (fun pq h => ih pq (by rw [List.zip_cons_cons]; exact List.mem_cons_of_mem _ h))
          rw [opaqueAll, opaqueAll, h1, h2]
    rw [address, address, this ps qs hl ih]

example : Agree Sample.byteSum
    (.threshold 1 [.above 5, .opaqueAddr (Sample.byteSum (ascii "sia/address|" ++ enc .v2 (SpendPolicy.above 6)))])
    (.threshold 1 [.opaqueAddr (Sample.byteSum (ascii "sia/address|" ++ enc .v2 (SpendPolicy.above 5))), .above 6]) :=
  .inside _ _ _ rfl (by
    intro pq h
    simp only [List.zip_cons_cons, List.zip_nil_right, List.mem_cons, List.not_mem_nil, or_false] at h
    rcases h with rfl | rfl
    · exact .hiddenRight _ _ (by rw [address])
    · exact .hiddenLeft _ _ (by rw [address]))

/-! ## C31 -/

/-- What is hashed for a policy that is neither opaque nor unlock conditions. -/
structure Own (H : Hasher) (p p' : SpendPolicy) : Prop where
  address : p.address H = .ok (H (ascii "sia/address|" ++ enc .v2 p'))
  hashed : Hashed H p (ascii "sia/address|" ++ enc .v2 p')
  flat : (fits ⟨2 ^ 64, 1⟩ p' ∧ ∀ n of, p' ≠ .threshold n of) ∨ ∃ (n : UInt8) (as : List Address), p' = .threshold n (as.map .opaqueAddr)

theorem encodePolicies_opaque (as : List Address) :
    encodePolicies (as.map .opaqueAddr) = as.flatMap (fun a => 6 :: a.1) := by
  rw [encodePolicies_eq, List.flatMap_map]
  congr 1

theorem address_total (p : SpendPolicy) (h : Committing p) : ∃ a, p.address H = .ok a := by
  induction h with
  | threshold n of hc ih =>
    have : ∀ of : List SpendPolicy, (∀ p ∈ of, ∃ a, p.address H = .ok a) → ∃ hs, opaqueAll H of = .ok hs := by
      intro of
      induction of with
      | nil => intro _; exact ⟨[], by rw [opaqueAll]⟩
      | cons p ps ih' =>
        intro h
        obtain ⟨a, ha⟩ := h p (by simp)
        obtain ⟨hs, hh⟩ := ih' (fun p hp => h p (by simp [hp]))
        exact ⟨.opaqueAddr a :: hs, by rw [opaqueAll, ha, hh]; rfl⟩
    obtain ⟨hs, hh⟩ := this of ih
    exact ⟨_, by rw [address, hh]; rfl⟩
  | unlockConditions uc h1 h2 =>
    obtain ⟨r, hr, -⟩ := C32_address_exact H uc h1
    exact ⟨r, by rw [address, hr]⟩
  | _ => exact ⟨_, by rw [address]⟩

theorem addresses_total (of : List SpendPolicy) (h : ∀ p ∈ of, Committing p) :
    ∃ as : List Address, of.map (address H) = as.map .ok := by
  induction of with
  | nil => exact ⟨[], rfl⟩
  | cons p ps ih =>
    obtain ⟨a, ha⟩ := address_total (H := H) p (h p (by simp))
    obtain ⟨as, has⟩ := ih (fun p hp => h p (by simp [hp]))
    exact ⟨a :: as, by rw [List.map_cons, List.map_cons, ha, has]⟩

theorem own_threshold (n : UInt8) (of : List SpendPolicy) (h : ∀ p ∈ of, Committing p) :
    ∃ as : List Address, of.map (address H) = as.map .ok ∧ Own H (.threshold n of) (.threshold n (as.map .opaqueAddr)) := by
  obtain ⟨as, has⟩ := addresses_total (H := H) of h
  have hlen : of.length = as.length := by simpa using congrArg List.length has
  refine ⟨as, has, ?_, ?_, ?_⟩
  · rw [address, opaqueAll_map H of as has]; rfl
  · have := Hashed.threshold (H := H) n of as has
    rw [enc_policy, encodePolicy, encodePolicies_opaque, List.length_map, ← hlen]
    simpa [typePrefix, enc, Codec.encode] using this
  · exact .inr ⟨n, as, rfl⟩

theorem own_above (x : U64) : Own H (.above x) (.above x) := by
  refine ⟨by rw [address], ?_, .inl ⟨by show policyFits _ 1 _; simp only [policyFits], nofun⟩⟩
  simpa [enc_policy, encodePolicy, typePrefix, enc, Codec.encode, numEncode] using Hashed.above (H := H) x

theorem own_after (x : DateTime) (hx : -377705116800 ≤ x.secs ∧ x.secs ≤ 253402300799) :
    Own H (.after x) (.after ⟨x.secs, 0⟩) := by
  have e : enc .v2 (SpendPolicy.after x) = enc .v2 (SpendPolicy.after ⟨x.secs, 0⟩) := by
    rw [enc_policy, enc_policy, encodePolicy, encodePolicy]; rfl
  refine ⟨by rw [address, e], ?_, .inl ⟨by show policyFits _ 1 _; simp only [policyFits]; exact ⟨rfl, hx⟩, nofun⟩⟩
  simpa [enc_policy, encodePolicy, typePrefix, enc, Codec.encode] using Hashed.after (H := H) x

theorem own_publicKey (x : PublicKey) : Own H (.publicKey x) (.publicKey x) := by
  refine ⟨by rw [address], ?_, .inl ⟨by show policyFits _ 1 _; simp only [policyFits], nofun⟩⟩
  simpa [enc_policy, encodePolicy, typePrefix, enc, Codec.encode] using Hashed.publicKey (H := H) x

theorem own_hash (x : Hash256) : Own H (.hash x) (.hash x) := by
  refine ⟨by rw [address], ?_, .inl ⟨by show policyFits _ 1 _; simp only [policyFits], nofun⟩⟩
  simpa [enc_policy, encodePolicy, typePrefix, enc, Codec.encode] using Hashed.hash (H := H) x

/-- Times lose their fractions of seconds; the other policies in question are hashed as they are. -/
def Whole (p p' : SpendPolicy) : Prop := p' = p ∨ ∃ t, p = .after t ∧ p' = .after ⟨t.secs, 0⟩

theorem Whole.agree {p q r : SpendPolicy} (hp : Whole p r) (hq : Whole q r) : Agree H p q := by
  rcases hp with rfl | ⟨t, rfl, rfl⟩ <;> rcases hq with e | ⟨t', rfl, e⟩
  · rw [e]; exact .same _
  · rw [e]; exact .after _ _ rfl
  · rw [← e]; exact .after _ _ rfl
  · rw [SpendPolicy.after.injEq] at e
    exact .after t t' (DateTime.mk.inj e).1

/-- The shape of a committing policy. -/
theorem SpendPolicy.Committing.shape (p : SpendPolicy) (h : Committing p) :
    (∃ a, p = .opaqueAddr a) ∨ (∃ uc, p = .unlockConditions uc ∧ uc.publicKeys.length + 2 < 2 ^ 64 ∧ V1.SizedConditions uc) ∨
    (∃ (n : UInt8) (of : List SpendPolicy) (as : List Address), p = .threshold n of ∧ (∀ p ∈ of, Committing p) ∧ of.map (address H) = as.map .ok ∧
      Own H p (.threshold n (as.map .opaqueAddr))) ∨ (∃ p', Own H p p' ∧ Whole p p' ∧ ∀ n of, p' ≠ .threshold n of) := by
  cases h with
  | opaqueAddr a => exact .inl ⟨a, rfl⟩
  | unlockConditions uc h1 h2 => exact .inr (.inl ⟨uc, rfl, h1, h2⟩)
  | threshold n of h2 =>
    obtain ⟨as, h3, h4⟩ := own_threshold (H := H) n of h2
    exact .inr (.inr (.inl ⟨n, of, as, rfl, h2, h3, h4⟩))
  | above x => exact .inr (.inr (.inr ⟨_, own_above x, .inl rfl, nofun⟩))
  | after x hx => exact .inr (.inr (.inr ⟨_, own_after x hx, .inr ⟨x, rfl, rfl⟩, nofun⟩))
  | publicKey x => exact .inr (.inr (.inr ⟨_, own_publicKey x, .inl rfl, nofun⟩))
  | hash x => exact .inr (.inr (.inr ⟨_, own_hash x, .inl rfl, nofun⟩))

theorem flatMap_inj : ∀ as as' : List Address,
    as.flatMap (fun a => 6 :: a.1) = as'.flatMap (fun a => 6 :: a.1) → as = as'
  | [], [], _ => rfl
  | [], _ :: _, h => by simp at h
  | _ :: _, [], h => by simp at h
  | a :: as, a' :: as', h => by
    rw [List.flatMap_cons, List.flatMap_cons] at h
    obtain ⟨h1, h2⟩ := List.append_inj h (by simp [a.2, a'.2])
    rw [Subtype.ext (List.cons.inj h1).2, flatMap_inj as as' h2]

theorem enc_threshold (n : UInt8) (as : List Address) : enc .v2 (SpendPolicy.threshold n (as.map .opaqueAddr)) =
    [1, 5, n, UInt8.ofNat as.length] ++ as.flatMap (fun a => 6 :: a.1) := by
  rw [enc_policy, encodePolicy, encodePolicies_opaque, List.length_map]
  rfl

/-- The type byte. -/
theorem enc_second (p : SpendPolicy) : (enc .v2 p)[1]? = some p.typePrefix := by
  rw [enc_policy]
  cases p <;> rw [encodePolicy] <;> rfl

theorem not_threshold {p : SpendPolicy} (h : ∀ n of, p ≠ .threshold n of) : p.typePrefix ≠ 5 := by
  cases p with
  | threshold n of => exact absurd rfl (h n of)
  | _ => simp only [typePrefix]; decide

theorem flat_inj {p q : SpendPolicy}
    (hp : (fits ⟨2 ^ 64, 1⟩ p ∧ ∀ n of, p ≠ .threshold n of) ∨ ∃ (n : UInt8) (as : List Address), p = .threshold n (as.map .opaqueAddr))
    (hq : (fits ⟨2 ^ 64, 1⟩ q ∧ ∀ n of, q ≠ .threshold n of) ∨ ∃ (n : UInt8) (as : List Address), q = .threshold n (as.map .opaqueAddr))
    (he : enc .v2 p = enc .v2 q) : p = q := by
  have ht : p.typePrefix = q.typePrefix := by
    have := congrArg (fun l : List UInt8 => l[1]?) he
    simpa only [enc_second, Option.some.injEq] using this
  rcases hp with ⟨hp, tp⟩ | ⟨n, as, rfl⟩ <;> rcases hq with ⟨hq, tq⟩ | ⟨m, bs, rfl⟩
  · exact (selfDelimiting (v := .v2) ⟨2 ^ 64, 1⟩ p q [] [] hp hq (by rw [he])).1
  · exact absurd ht (not_threshold tp)
  · exact absurd ht.symm (not_threshold tq)
  · rw [enc_threshold, enc_threshold] at he
    obtain ⟨h1, h2⟩ := List.append_inj he rfl
    simp only [List.cons.injEq, true_and] at h1
    rw [h1.1, flatMap_inj as bs h2]

theorem Own.inj {p q p' q' : SpendPolicy} (h : Own H p p') (h' : Own H q q')
    (hc : ∀ s s', Hashed H p s → Hashed H q s' → H s = H s' → s = s') (he : p.address H = q.address H) : p' = q' := by
  rw [h.address, h'.address, Res.ok.injEq] at he
  exact flat_inj h.flat h'.flat (List.append_cancel_left (hc _ _ h.hashed h'.hashed he))

theorem address_uc_string (uc : UnlockConditions) (h : uc.publicKeys.length + 2 < 2 ^ 64) :
    ∃ s, (SpendPolicy.unlockConditions uc).address H = .ok (H s) ∧ uc.HashedFor H s ∧ s.head? = some 1 := by
  obtain ⟨r, h1, h2⟩ := C32_address_exact H uc h
  have : 2 ≤ (uc.leaves H).length := by rw [leaves_length]; omega
  generalize hm : uc.leaves H = m at h2 this
  cases h2 with
  | leaf x => simp at this
  | node j l r a b g1 g2 g3 ga gb =>
    have hs : AccumulatorString H (uc.leaves H) ([1] ++ a.1 ++ b.1) := hm ▸ .node j l r a b g1 g2 g3 ga gb
    exact ⟨_, by rw [address, h1], .inr hs, hs.head⟩
  | full j l r a x g1 g2 ga =>
    have hs : AccumulatorString H (uc.leaves H) ([1] ++ a.1 ++ x.1) := hm ▸ .full j l r a x g1 g2 ga
    exact ⟨_, by rw [address, h1], .inr hs, hs.head⟩

theorem own_ne_uc {p p' : SpendPolicy} (h : Own H p p') (uc : UnlockConditions) (hu : uc.publicKeys.length + 2 < 2 ^ 64)
    (hc : ∀ s s', Hashed H p s → Hashed H (.unlockConditions uc) s' → H s = H s' → s = s') :
    p.address H ≠ (SpendPolicy.unlockConditions uc).address H := by
  intro he
  obtain ⟨s, h1, h2, h3⟩ := address_uc_string (H := H) uc hu
  rw [h.address, h1, Res.ok.injEq] at he
  rw [← hc _ _ h.hashed (.unlockConditions uc s h2) he] at h3
  have : (ascii "sia/address|").head? = some 115 := by decide
  rw [List.head?_append, this] at h3
  cases h3

theorem agree_plain {p p' : SpendPolicy} (ho : Own H p p') (hw : Whole p p') (hn : ∀ n of, p' ≠ .threshold n of) : ∀ q, Committing q →
    (∀ s s', Hashed H p s → Hashed H q s' → H s = H s' → s = s') → p.address H = q.address H → Agree H p q := by
  intro q hq hc he
  rcases SpendPolicy.Committing.shape (H := H) q hq with ⟨a, rfl⟩ | ⟨uc, rfl, h1, h2⟩ | ⟨m, of', as', rfl, h1, h2, h3⟩ | ⟨q', h1, h2, h3⟩
  · exact .hiddenRight _ _ (by rw [he, address])
  · exact absurd he (own_ne_uc ho uc h1 hc)
  · exact absurd (ho.inj h3 hc he) (hn _ _)
  · have := ho.inj h1 hc he
    subst this
    exact hw.agree h2

/-- C31.  Two policies have the same address exactly if they agree up to opaque parts, fractions of seconds, and keys that the addresses of
unlock conditions leave out (C68), unless the hash function has a collision between strings that are hashed for the two addresses. -/
theorem C31_address_iff_agree (H : Hasher) (p q : SpendPolicy) (hp : Committing p) (hq : Committing q)
    (hc : ∀ s s', Hashed H p s → Hashed H q s' → H s = H s' → s = s') :
    p.address H = q.address H ↔ Agree H p q := by
  refine ⟨fun he => ?_, C30_agree H p q⟩
  suffices ∀ p, Committing p → ∀ q, Committing q → (∀ s s', Hashed H p s → Hashed H q s' → H s = H s' → s = s') →
    p.address H = q.address H → Agree H p q from this p hp q hq hc he
  clear hp hq hc he p q
  intro p hp
  induction hp with
  | threshold n of hof ih =>
    intro q hq hc he
    obtain ⟨as, has, ho⟩ := own_threshold (H := H) n of hof
    rcases SpendPolicy.Committing.shape (H := H) q hq with ⟨a, rfl⟩ | ⟨uc, rfl, h1, h2⟩ | ⟨m, of', as', rfl, h1, h2, h3⟩ | ⟨q', h1, -, h2⟩
    · exact .hiddenRight _ _ (by rw [he, address])
    · exact absurd he (own_ne_uc ho uc h1 hc)
    · have := ho.inj h3 hc he
      rw [SpendPolicy.threshold.injEq] at this
      obtain ⟨rfl, e⟩ := this
      have eas : as = as' := by
        refine List.map_inj_right ?_ |>.mp e
        intro x y hxy
        exact SpendPolicy.opaqueAddr.inj hxy
      subst eas
      refine .inside _ _ _ (by simpa using congrArg List.length (has.trans h2.symm)) ?_
      intro pq hpq
      obtain ⟨i, hi, rfl⟩ := List.mem_iff_getElem.mp hpq
      rw [List.length_zip] at hi
      have m1 : of[i] ∈ of := List.getElem_mem ..
      have m2 : of'[i] ∈ of' := List.getElem_mem ..
      rw [List.getElem_zip]
      refine ih _ m1 _ (h1 _ m2) ?_ ?_
      · intro s s' g g'
        exact hc s s' (.child _ _ _ _ m1 g) (.child _ _ _ _ m2 g')
      · have := has.trans h2.symm
        have := congrArg (fun l => l[i]?) this
        simpa [List.getElem?_map, List.getElem?_eq_getElem, (by omega : i < of.length), (by omega : i < of'.length)] using this
    · exact absurd (ho.inj h1 hc he) (fun e => h2 _ _ e.symm)
  | opaqueAddr a =>
    intro q hq hc he
    exact .hiddenLeft _ _ (by rw [← he, address])
  | unlockConditions uc h1 h2 =>
    intro q hq hc he
    rcases SpendPolicy.Committing.shape (H := H) q hq with ⟨a, rfl⟩ | ⟨uc', rfl, h1', h2'⟩ | ⟨m, of', as', rfl, -, -, h3⟩ | ⟨q', h3, -⟩
    · exact .hiddenRight _ _ (by rw [he, address])
    · rw [address, address] at he
      exact .conditions _ _ h1 h1' ((C68_address_iff H uc uc' h1 h1' h2 h2'
        (fun s s' a b => hc s s' (.unlockConditions _ _ a) (.unlockConditions _ _ b))).mp he)
    · exact absurd he.symm (own_ne_uc h3 uc h1 fun s s' a b e => (hc s' s b a e.symm).symm)
    · exact absurd he.symm (own_ne_uc h3 uc h1 fun s s' a b e => (hc s' s b a e.symm).symm)
  | above x => exact agree_plain (own_above x) (.inl rfl) nofun
  | after x hx => exact agree_plain (own_after x hx) (.inr ⟨x, rfl, rfl⟩) nofun
  | publicKey x => exact agree_plain (own_publicKey x) (.inl rfl) nofun
  | hash x => exact agree_plain (own_hash x) (.inl rfl) nofun

theorem covered_three : Covered 3 1 :=
  ⟨1, 0, Nat.dvd_zero _, by decide, by decide, .inr ⟨1, by omega, rfl⟩⟩

theorem sameAddress_small {uc uc' : UnlockConditions} (h : uc.publicKeys.length ≤ 1) (h' : uc'.publicKeys.length ≤ 1)
    (hs : uc.SameAddress uc') : uc = uc' := by
  obtain ⟨h1, h2, h3, h4⟩ := hs
  have no : ∀ n n', n ≤ 3 → n' ≤ 3 → ¬ Confused n n' := by
    rintro n n' a b ⟨k, s, hk, -, e, e'⟩
    have : 2 ^ 1 ≤ 2 ^ k := le_pow hk
    rw [Nat.pow_succ] at e'
    omega
  have hl : uc.publicKeys.length = uc'.publicKeys.length := by
    rcases h3 with h3 | h3 | h3
    · exact h3
    · exact absurd h3 (no _ _ (by omega) (by omega))
    · exact absurd h3 (no _ _ (by omega) (by omega))
  have hk : uc.publicKeys = uc'.publicKeys := by
    refine List.ext_getElem? fun i => ?_
    rcases Nat.lt_or_ge i uc.publicKeys.length with g | g
    · have g0 : i = 0 := by omega
      have g1 : uc.publicKeys.length = 1 := by omega
      subst g0
      refine h4 0 (by omega) ?_
      rw [← hl, g1]
      exact covered_three
    · rw [List.getElem?_eq_none g, List.getElem?_eq_none (by omega)]
  cases uc; cases uc'
  simp only at h1 h2 hk
  rw [h1, h2, hk]

theorem SpendPolicy.Agree.eq {p q : SpendPolicy} (h : Agree H p q) (hp : Transparent p) (hq : Transparent q) : p = q := by
  induction h with
  | same p => rfl
  | hiddenLeft p a _ => cases hp
  | hiddenRight p a _ => cases hq
  | conditions uc uc' _ _ hs => cases hp with
    | unlockConditions _ g => cases hq with
      | unlockConditions _ g' => rw [sameAddress_small g g' hs]
  | after t t' e => cases hp with
    | after _ g => cases hq with
      | after _ g' =>
        cases t; cases t'
        simp only at e g g'
        rw [e, g, g']
  | inside n ps qs hl _ ih =>
    cases hp with
    | threshold _ _ hp => cases hq with
      | threshold _ _ hq =>
        congr 1
        apply List.ext_getElem hl
        intro i h1 h2
        have : (ps[i], qs[i]) ∈ ps.zip qs := by
          rw [List.mem_iff_getElem]
          exact ⟨i, by rw [List.length_zip]; omega, by rw [List.getElem_zip]⟩
        exact ih _ this (hp _ (List.getElem_mem ..)) (hq _ (List.getElem_mem ..))

/-- C31.  Two policies without opaque parts, with times in whole seconds, that have the same address are equal, unless the hash function has
a collision between strings that are hashed for the two addresses. Thresholds may have any number of sub-policies; unlock conditions, which the property leaves out, may occur with at most one key. -/
theorem C31_commits (H : Hasher) (p q : SpendPolicy) (hp : Committing p) (hq : Committing q) (tp : Transparent p)
    (tq : Transparent q) (hc : ∀ s s', Hashed H p s → Hashed H q s' → H s = H s' → s = s')
    (he : p.address H = q.address H) : p = q :=
  ((C31_address_iff_agree H p q hp hq hc).mp he).eq tp tq

/-- The hypotheses of `C31_commits` are met by different policies (so their addresses differ). -/
example : (SpendPolicy.threshold 1 [.above 5, .hash (Sample.h 3)]).address Sample.byteSum ≠
    (SpendPolicy.threshold 2 [.above 5]).address Sample.byteSum := by
  have a5 : (SpendPolicy.above 5).address Sample.byteSum = .ok (Sample.leaf 213) := by
    rw [address]; decide +kernel
  have h3 : (SpendPolicy.hash (Sample.h 3)).address Sample.byteSum = .ok (Sample.leaf 51) := by
    rw [address]; decide +kernel
  have one : ∀ s, Hashed Sample.byteSum (.threshold 1 [.above 5, .hash (Sample.h 3)]) s →
      s = ascii "sia/address|" ++ [1, 5, 1, 2] ++ [Sample.leaf 213, Sample.leaf 51].flatMap (fun a => 6 :: a.1) ∨
      s = ascii "sia/address|" ++ [1, 1] ++ leBytes 8 5 ∨ s = ascii "sia/address|" ++ [1, 4] ++ (Sample.h 3).1 := by
    intro s h
    cases h with
    | threshold n of as has =>
      left
      rw [List.map_cons, List.map_cons, a5, h3] at has
      have : as = [Sample.leaf 213, Sample.leaf 51] :=
        (List.map_inj_right (f := Res.ok) (by intro x y h; cases h; rfl)).mp has.symm
      rw [this]; rfl
    | child n of p s hp hs =>
      simp only [List.mem_cons, List.not_mem_nil, or_false] at hp
      rcases hp with rfl | rfl
      · cases hs; exact .inr (.inl rfl)
      · cases hs; exact .inr (.inr rfl)
  have two : ∀ s, Hashed Sample.byteSum (.threshold 2 [.above 5]) s →
      s = ascii "sia/address|" ++ [1, 5, 2, 1] ++ [Sample.leaf 213].flatMap (fun a => 6 :: a.1) ∨
      s = ascii "sia/address|" ++ [1, 1] ++ leBytes 8 5 := by
    intro s h
    cases h with
    | threshold n of as has =>
      left
      rw [List.map_cons, a5] at has
      have : as = [Sample.leaf 213] := (List.map_inj_right (f := Res.ok) (by intro x y h; cases h; rfl)).mp has.symm
      rw [this]; rfl
    | child n of p s hp hs =>
      simp only [List.mem_cons, List.not_mem_nil, or_false] at hp
      subst hp
      cases hs
      exact .inr rfl
  intro he
  have := C31_commits Sample.byteSum _ _ (.threshold _ _ ?_) (.threshold _ _ ?_) (.threshold _ _ ?_) (.threshold _ _ ?_) ?_ he
  · cases this
  · simp [Committing.above, Committing.hash]
  · simp [Committing.above]
  · simp [Transparent.above, Transparent.hash]
  · simp [Transparent.above]
  · intro s s' h1 h2
    rcases one s h1 with rfl | rfl | rfl <;> rcases two s' h2 with rfl | rfl <;> decide +kernel

/-- A policy that shares its address with another one, whatever the hash function: the second key of the unlock conditions and the fraction
of the second are left out. -/
example (k k2 : UnlockKey) : Agree H (.threshold 1 [.unlockConditions ⟨5, [k], 1⟩, .after ⟨7, 0⟩])
    (.threshold 1 [.unlockConditions ⟨5, [k, k2], 1⟩, .after ⟨7, 500⟩]) := by
  refine .inside _ _ _ rfl ?_
  intro pq h
  simp only [List.zip_cons_cons, List.zip_nil_right, List.mem_cons, List.not_mem_nil, or_false] at h
  rcases h with rfl | rfl
  · refine .conditions _ _ (by simp) (by simp) ⟨rfl, rfl, .inr (.inl ⟨1, 0, by omega, Nat.dvd_zero _, rfl, rfl⟩), fun i hi _ => ?_⟩
    have hi : i < 1 := hi
    have : i = 0 := by omega
    subst this
    rfl
  · exact .after _ _ rfl

/-- C31.  Addresses are computed without a panic. -/
theorem C31_total (H : Hasher) (p : SpendPolicy) (hp : Committing p) : ∃ a, p.address H = .ok a := address_total p hp

end Verif
