import Verif.Spec.Reader
import Verif.Lemmas.Codec
import Verif.Lemmas.Consensus

/-!
# Lemmas on decoding from readers
-/

namespace Verif

variable {v : Ver} {σ ε α β : Type} {S : Source σ ε}

namespace Source

theorem Gave.trans {s s' s'' : σ} {a b : List UInt8} (h : S.Gave s a s') (h' : S.Gave s' b s'') : S.Gave s (a ++ b) s'' := by
  induction h with
  | start s => exact h'
  | more room read some _ ih => rw [List.append_assoc]; exact .more room read some (ih h')

theorem Streams.gave {s s' : σ} {a bs : List UInt8} (h : S.Streams s bs) (g : S.Gave s a s') :
    ∃ rest, bs = a ++ rest ∧ S.Streams s' rest := by
  obtain ⟨R, hR, hs⟩ := h
  induction g generalizing bs with
  | start s => exact ⟨bs, rfl, R, hR, hs⟩
  | more room read some _ ih =>
    obtain ⟨p, q, s1, h1, h2, h3, h4, h5⟩ := hR _ _ _ hs room
    rw [read] at h1
    cases h1
    obtain ⟨rest, e, hr⟩ := ih h5
    exact ⟨rest, by rw [h3, e, List.take_of_length_le h2, List.append_assoc], hr⟩

theorem Streams.stops {s s' : σ} {bs : List UInt8} {e : ReadErr ε} (h : S.Streams s bs) (g : S.Stops s e s') : bs = [] ∧ e = .eof := by
  obtain ⟨R, hR, hs⟩ := h
  obtain ⟨n, hn, g⟩ := g
  obtain ⟨p, q, s1, h1, h2, h3, h4, h5⟩ := hR _ _ _ hs hn
  rcases g with ⟨x, g, _⟩ | ⟨g, rfl⟩
  · rw [g] at h1; cases h1
  · rw [g] at h1
    cases h1
    exact ⟨h4 rfl, rfl⟩

end Source

variable {hides : List UInt8 → Bool}

theorem follows_pure (a : α) : Follows S hides (pure a : Rd σ ε α) (pure a) := fun _ s =>
  .inl ⟨[], s, a, rfl, .start s, fun _ => rfl⟩

theorem follows_fail {e : Err} (h : e ≠ .io) : Follows S hides (Rd.fail e : Rd σ ε α) (Dec.fail e) := fun _ s =>
  .inr (.inl ⟨[], s, e, rfl, h, .start s, fun _ => rfl⟩)

theorem follows_crash : Follows S hides (Rd.crash : Rd σ ε α) Dec.crash := fun _ s =>
  .inr (.inr (.inl ⟨[], s, rfl, .start s, fun _ => rfl⟩))

theorem follows_reserve (n : Nat) : Follows S hides (Rd.reserve n : Rd σ ε Unit) (Dec.reserve n) := by
  intro lim s
  by_cases h : n ≤ lim.cap
  · exact .inl ⟨[], s, (), by simp [Rd.reserve, h], .start s, fun rest => by simp [Dec.reserve, h]⟩
  · exact .inr (.inr (.inl ⟨[], s, by simp [Rd.reserve, h], .start s, fun rest => by simp [Dec.reserve, h]⟩))

theorem follows_lift {x : Res α} (h : x ≠ .err .io) : Follows S hides (Rd.lift x : Rd σ ε α) (Dec.lift x) := by
  cases x with
  | ok a => exact follows_pure a
  | err e => exact follows_fail (fun he => h (he ▸ rfl))
  | panic => exact follows_crash

/-- `d` reads `L` bytes when it succeeds, and with as many bytes it does not fail for lack of bytes. -/
def Consumes (d : Dec α) (L : Nat) : Prop :=
  ∀ lim bs, (∀ a r, d lim bs = .ok (a, r) → bs.length = L + r.length) ∧ (L ≤ bs.length → d lim bs ≠ .err .io ∧ d lim bs ≠ .err .custom)

/-- Sequencing, with the first part reading `L` bytes when it succeeds. -/
theorem Follows.bindAt {r : Rd σ ε α} {d : Dec α} {f : α → Rd σ ε β} {g : α → Dec β} {h1 : List UInt8 → Bool} {h2 : α → List UInt8 → Bool} {L : Nat}
    (size : Consumes d L) (low : ∀ c, c.length < L → hides c = h1 c)
    (high : ∀ lim c a, d lim c = .ok (a, []) → ∀ k, hides (c ++ k) = h2 a k)
    (hr : Follows S h1 r d) (hf : ∀ a, Follows S (h2 a) (f a) (g a)) : Follows S hides (r >>= f) (d >>= g) := by
  intro lim s
  rcases hr lim s with ⟨bs, s', a, e, gv, hd⟩ | ⟨bs, s', x, e, ne, gv, hd⟩ | ⟨bs, s', e, gv, hd⟩ | ⟨bs, s₁, s₂, x, e, gv, st, hd⟩
  · have er : (r >>= f) lim s = ⟨bs ++ (f a lim s').bytes, (f a lim s').after, (f a lim s').out⟩ := by
      show Rd.bind r f lim s = _
      rw [Rd.bind, e]
    have ed : ∀ c rest, (d >>= g) lim (bs ++ c ++ rest) = g a lim (c ++ rest) := by
      intro c rest
      show Dec.bind d g lim _ = _
      rw [Dec.bind, List.append_assoc, hd]
    rcases hf a lim s' with ⟨c, t, b, e', gv', hd'⟩ | ⟨c, t, x, e', ne', gv', hd'⟩ | ⟨c, t, e', gv', hd'⟩ | ⟨c, t₁, t₂, x, e', gv', st', hd'⟩
    · exact .inl ⟨bs ++ c, t, b, by rw [er, e'], gv.trans gv', fun rest => by rw [ed, hd']⟩
    · exact .inr (.inl ⟨bs ++ c, t, x, by rw [er, e'], ne', gv.trans gv', fun rest => by rw [ed, hd']⟩)
    · exact .inr (.inr (.inl ⟨bs ++ c, t, by rw [er, e'], gv.trans gv', fun rest => by rw [ed, hd']⟩))
    · have hh : hides (bs ++ c) = h2 a c := by
        have := hd []
        rw [List.append_nil] at this
        exact high lim bs a this c
      refine .inr (.inr (.inr ⟨bs ++ c, t₁, t₂, x, by rw [er, e', hh], gv.trans gv', st', ?_⟩))
      have := ed c []
      rw [List.append_nil, List.append_nil] at this
      rw [this, hd', hh]
  · refine .inr (.inl ⟨bs, s', x, ?_, ne, gv, fun rest => ?_⟩)
    · show Rd.bind r f lim s = _
      rw [Rd.bind, e]
    · show Dec.bind d g lim _ = _
      rw [Dec.bind, hd]
  · refine .inr (.inr (.inl ⟨bs, s', ?_, gv, fun rest => ?_⟩))
    · show Rd.bind r f lim s = _
      rw [Rd.bind, e]
    · show Dec.bind d g lim _ = _
      rw [Dec.bind, hd]
  · have hh : hides bs = h1 bs := by
      refine low _ (Nat.lt_of_not_le fun hle => ?_)
      have := (size lim bs).2 hle
      split at hd
      · exact this.2 hd
      · exact this.1 hd
    refine .inr (.inr (.inr ⟨bs, s₁, s₂, x, ?_, gv, st, ?_⟩))
    · show Rd.bind r f lim s = _
      rw [Rd.bind, e, hh]
    · show Dec.bind d g lim _ = _
      rw [Dec.bind, hd, hh]

/-- Sequencing of code that hides nothing. -/
theorem Follows.bind {r : Rd σ ε α} {d : Dec α} {f : α → Rd σ ε β} {g : α → Dec β} (hr : Follows S (fun _ => false) r d)
    (hf : ∀ a, Follows S (fun _ => false) (f a) (g a)) : Follows S (fun _ => false) (r >>= f) (d >>= g) := by
  intro lim s
  rcases hr lim s with ⟨bs, s', a, e, gv, hd⟩ | ⟨bs, s', x, e, ne, gv, hd⟩ | ⟨bs, s', e, gv, hd⟩ | ⟨bs, s₁, s₂, x, e, gv, st, hd⟩
  · have er : (r >>= f) lim s = ⟨bs ++ (f a lim s').bytes, (f a lim s').after, (f a lim s').out⟩ := by
      show Rd.bind r f lim s = _
      rw [Rd.bind, e]
    have ed : ∀ c rest, (d >>= g) lim (bs ++ c ++ rest) = g a lim (c ++ rest) := by
      intro c rest
      show Dec.bind d g lim _ = _
      rw [Dec.bind, List.append_assoc, hd]
    rcases hf a lim s' with ⟨c, t, b, e', gv', hd'⟩ | ⟨c, t, x, e', ne', gv', hd'⟩ | ⟨c, t, e', gv', hd'⟩ | ⟨c, t₁, t₂, x, e', gv', st', hd'⟩
    · exact .inl ⟨bs ++ c, t, b, by rw [er, e'], gv.trans gv', fun rest => by rw [ed, hd']⟩
    · exact .inr (.inl ⟨bs ++ c, t, x, by rw [er, e'], ne', gv.trans gv', fun rest => by rw [ed, hd']⟩)
    · exact .inr (.inr (.inl ⟨bs ++ c, t, by rw [er, e'], gv.trans gv', fun rest => by rw [ed, hd']⟩))
    · refine .inr (.inr (.inr ⟨bs ++ c, t₁, t₂, x, by rw [er, e'], gv.trans gv', st', ?_⟩))
      have := ed c []
      rw [List.append_nil, List.append_nil] at this
      rw [this, hd']
  · refine .inr (.inl ⟨bs, s', x, ?_, ne, gv, fun rest => ?_⟩)
    · show Rd.bind r f lim s = _
      rw [Rd.bind, e]
    · show Dec.bind d g lim _ = _
      rw [Dec.bind, hd]
  · refine .inr (.inr (.inl ⟨bs, s', ?_, gv, fun rest => ?_⟩))
    · show Rd.bind r f lim s = _
      rw [Rd.bind, e]
    · show Dec.bind d g lim _ = _
      rw [Dec.bind, hd]
  · refine .inr (.inr (.inr ⟨bs, s₁, s₂, x, ?_, gv, st, ?_⟩))
    · show Rd.bind r f lim s = _
      rw [Rd.bind, e]
    · show Dec.bind d g lim _ = _
      rw [Dec.bind, hd]

theorem fill_spec (n : Nat) (s : σ) :
    (∃ bs s', Rd.fill S n s = ⟨bs, s', .ok ()⟩ ∧ S.Gave s bs s' ∧ bs.length = n) ∨
    (∃ bs s₁ s₂ e, Rd.fill S n s = ⟨bs, s₂, .err e⟩ ∧ S.Gave s bs s₁ ∧ S.Stops s₁ e s₂ ∧ bs.length < n) := by
  induction n using Nat.strongRecOn generalizing s with
  | ind n ih =>
    rw [Rd.fill]
    by_cases hn : n = 0
    · rw [dif_pos hn]; exact .inl ⟨[], s, rfl, .start s, hn.symm⟩
    · rw [dif_neg hn]
      rcases hr : S.read s n with ⟨s', e | bs⟩
      · exact .inr ⟨[], s, s', .io e, rfl, .start s, ⟨n, hn, .inl ⟨e, hr, rfl⟩⟩, Nat.pos_of_ne_zero hn⟩
      · simp only
        by_cases hb : bs = []
        · rw [dif_pos hb]
          exact .inr ⟨[], s, s', .eof, rfl, .start s, ⟨n, hn, .inr ⟨hb ▸ hr, rfl⟩⟩, Nat.pos_of_ne_zero hn⟩
        · rw [dif_neg hb]
          have hb' : bs.length ≠ 0 := by simpa using hb
          have hl : (bs.take n).length = min n bs.length := List.length_take
          rcases ih (n - (bs.take n).length) (by omega) s' with ⟨c, t, e, g, l⟩ | ⟨c, t₁, t₂, x, e, g, st, l⟩
          · rw [e]
            exact .inl ⟨_, t, rfl, .more hn hr hb g, by rw [List.length_append, l]; omega⟩
          · rw [e]
            exact .inr ⟨_, t₁, t₂, x, rfl, .more hn hr hb g, st, by rw [List.length_append]; show _ + c.length < n; omega⟩

theorem exact_spec (n : Nat) (lim : Lim) (s : σ) :
    (∃ bs s', ∃ h : bs.length = n, Rd.exact S n lim s = ⟨bs, s', .ok ⟨bs, h⟩⟩ ∧ S.Gave s bs s') ∨
    (∃ bs s₁ s₂ e, Rd.exact S n lim s = ⟨bs, s₂, .err e⟩ ∧ S.Gave s bs s₁ ∧ S.Stops s₁ e s₂ ∧ bs.length < n) := by
  rcases fill_spec (S := S) n s with ⟨bs, s', e, g, l⟩ | ⟨bs, s₁, s₂, x, e, g, st, l⟩
  · refine .inl ⟨bs, s', l, ?_, g⟩
    unfold Rd.exact
    split
    · next h => simp only [e]
    · next h => rw [e] at h; cases h
    · next h => rw [e] at h; cases h
  · refine .inr ⟨bs, s₁, s₂, x, ?_, g, st, l⟩
    unfold Rd.exact
    split
    · next h => rw [e] at h; cases h
    · next h => rw [e] at h; cases h; simp only [e]
    · next h => rw [e] at h; cases h

theorem follows_exact (n : Nat) : Follows S (fun _ => false) (Rd.exact S n) (readExact n) := by
  intro lim s
  rcases exact_spec (S := S) n lim s with ⟨bs, s', l, e, g⟩ | ⟨bs, s₁, s₂, x, e, g, st, l⟩
  · refine .inl ⟨bs, s', _, e, g, fun rest => ?_⟩
    unfold readExact
    rw [dif_pos (by rw [List.length_append]; omega)]
    congr 2
    · exact Subtype.ext (List.take_left' l)
    · exact List.drop_left' l
  · refine .inr (.inr (.inr ⟨bs, s₁, s₂, x, e, g, st, ?_⟩))
    unfold readExact
    rw [dif_neg (by omega)]
    rfl

theorem follows_exact_custom (n : Nat) : Follows S (fun k => decide (k.length < n)) ((Rd.exact S n).mapErr .custom) ((readExact n).mapErr .custom) := by
  intro lim s
  rcases exact_spec (S := S) n lim s with ⟨bs, s', l, e, g⟩ | ⟨bs, s₁, s₂, x, e, g, st, l⟩
  · refine .inl ⟨bs, s', _, by rw [Rd.mapErr, e], g, fun rest => ?_⟩
    unfold Dec.mapErr readExact
    rw [dif_pos (by rw [List.length_append]; omega)]
    simp only
    congr 2
    · exact Subtype.ext (List.take_left' l)
    · exact List.drop_left' l
  · refine .inr (.inr (.inr ⟨bs, s₁, s₂, x, by rw [Rd.mapErr, e]; simp [l], g, st, ?_⟩))
    unfold Dec.mapErr readExact
    rw [dif_neg (by omega)]
    simp [l]

theorem follows_times {r : Rd σ ε α} {d : Dec α} (h : Follows S (fun _ => false) r d) :
    ∀ n, Follows S (fun _ => false) (Rd.times r n) (decodeN d n)
  | 0 => follows_pure _
  | n + 1 => h.bind fun _ => (follows_times h n).bind fun _ => follows_pure _

theorem follows_ite {c : Prop} [Decidable c] {r r' : Rd σ ε α} {d d' : Dec α} (h : Follows S hides r d) (h' : Follows S hides r' d') :
    Follows S hides (if c then r else r') (if c then d else d') := by
  split
  · exact h
  · exact h'

theorem follows_slots {present : Nat → Bool} {r : Rd σ ε α} {d : Dec α} (h : Follows S (fun _ => false) r d) (a : α) :
    ∀ n i, Follows S (fun _ => false) (Rd.slots present r a i n) (decodeSlots present d a i n)
  | 0, _ => follows_pure _
  | n + 1, i => (follows_ite h (follows_pure _)).bind fun _ => (follows_slots h a n (i + 1)).bind fun _ => follows_pure _

/-! ## All types -/

/-- `get` follows `dec`. -/
class Followed (v : Ver) (α : Type) [Codec v α] [Reads v α] : Prop where
  follows : ∀ {σ ε : Type} (S : Source σ ε), Follows S (fun _ => false) (get v S : Rd σ ε α) (dec v)

theorem follows [Codec v α] [Reads v α] [Followed v α] : Follows S (fun _ => false) (get v S : Rd σ ε α) (dec v) := Followed.follows S

theorem follows_num (n : Nat) : Follows S (fun _ => false) (Rd.num S n) (numDecode n) := (follows_exact 8).bind fun _ => follows_pure _

instance : Followed v UInt8 := ⟨fun _ => (follows_exact 1).bind fun _ => follows_pure _⟩
instance : Followed v Bool := ⟨fun S => (follows (v := v) (α := UInt8) (S := S)).bind fun _ =>
  follows_ite (follows_pure _) (follows_ite (follows_pure _) (follows_fail (by decide)))⟩
instance : Followed v U16 := ⟨fun _ => follows_num 16⟩
instance : Followed v U32 := ⟨fun _ => follows_num 32⟩
instance : Followed v U64 := ⟨fun _ => follows_num 64⟩
instance : Followed v Int16 := ⟨fun _ => (follows_num 16).bind fun _ => follows_pure _⟩
instance : Followed v Int32 := ⟨fun _ => (follows_num 32).bind fun _ => follows_pure _⟩
instance : Followed v Int64 := ⟨fun _ => (follows_num 64).bind fun _ => follows_pure _⟩
instance {n : Nat} : Followed v (Arr n) := ⟨fun _ => follows_exact n⟩

instance [Codec v α] [Reads v α] [Followed v α] : Followed v (List α) :=
  ⟨fun S => (follows (v := v) (α := U64) (S := S)).bind fun _ => (follows_reserve _).bind fun _ => follows_times follows _⟩

instance [Codec v α] [Reads v α] [Followed v α] : Followed v (Option α) :=
  ⟨fun S => (follows (v := v) (α := Bool) (S := S)).bind fun _ => follows_ite (follows.bind fun _ => follows_pure _) (follows_pure _)⟩

instance : Followed v String where
  follows S := (follows (v := v) (α := List UInt8) (S := S)).bind fun buf => by
    cases strOfBytes buf with
    | some s => exact follows_pure s
    | none => exact follows_fail (by decide)

instance [Codec v α] [Reads v α] [Followed v α] [Codec v β] [Reads v β] [Followed v β] : Followed v (α × β) :=
  ⟨fun _ => follows.bind fun _ => follows.bind fun _ => follows_pure _⟩

instance (priority := low) [Struct α β] [Codec v β] [Reads v β] [Followed v β] : Followed v α :=
  ⟨fun _ => follows.bind fun _ => follows_pure _⟩

instance : Followed v DateTime where
  follows S := (follows_num 64).bind fun b => by
    cases DateTime.fromUnix b.toInt with
    | some s => exact follows_pure s
    | none => exact follows_crash

instance : Followed v Duration :=
  ⟨fun _ => (follows_num 64).bind fun _ => follows_ite (follows_fail (by decide)) (follows_pure _)⟩

instance : Followed v Currency where
  follows S := match v with
    | .v1 => (follows (v := .v1) (α := U64) (S := S)).bind fun _ =>
        follows_ite (follows_fail (by decide)) ((follows_exact _).bind fun _ => follows_pure _)
    | .v2 => (follows_exact 16).bind fun _ => follows_pure _

instance : Followed .v1 Work := ⟨fun _ => (follows_exact 32).bind fun _ => follows_pure _⟩

instance : Followed v SiafundOutput where
  follows S := match v with
    | .v1 => (follows (v := .v1) (α := Currency) (S := S)).bind fun c => by
        cases c.toU64? with
        | none => exact follows_fail (by decide)
        | some x =>
          exact (follows (v := .v1) (α := Address) (S := S)).bind fun _ =>
            (follows (v := .v1) (α := Currency) (S := S)).bind fun _ => follows_pure _
    | .v2 => follows.bind fun _ => follows.bind fun _ => follows_pure _

instance : Followed v ChainIndex := inferInstance
instance : Followed v SiacoinOutput := inferInstance
instance : Followed v StateElement := inferInstance
instance : Followed v UnlockKey := inferInstance
instance : Followed v UnlockConditions := inferInstance
instance : Followed v V1.SiacoinInput := inferInstance
instance : Followed v V1.SiafundInput := inferInstance
instance : Followed v V1.FileContract := inferInstance
instance : Followed v V1.FileContractRevision := inferInstance
instance : Followed v V1.StorageProof := inferInstance
instance : Followed v V1.CoveredFields := inferInstance
instance : Followed v V1.TransactionSignature := inferInstance
instance : Followed v V1.Transaction := inferInstance
instance : Followed v Block := inferInstance

theorem follows_policy : ∀ k, Follows S (fun _ => false) (SpendPolicy.getPolicy S k) (SpendPolicy.decodePolicy k)
  | 0 => follows_crash
  | k + 1 => by
    unfold SpendPolicy.getPolicy SpendPolicy.decodePolicy
    refine (follows (v := .v2) (α := UInt8) (S := S)).bind fun ty => ?_
    refine follows_ite (follows.bind fun _ => follows_pure _) ?_
    refine follows_ite ((follows (v := .v2) (α := U64) (S := S)).bind fun secs => ?_) ?_
    · cases DateTime.fromUnix secs.toInt with
      | some s => exact follows_pure _
      | none => exact follows_fail (by decide)
    refine follows_ite (follows.bind fun _ => follows_pure _) ?_
    refine follows_ite (follows.bind fun _ => follows_pure _) ?_
    refine follows_ite ((follows (v := .v2) (α := UInt8) (S := S)).bind fun _ => (follows (v := .v2) (α := UInt8) (S := S)).bind fun _ =>
      (follows_reserve _).bind fun _ => (follows_times (follows_policy k) _).bind fun _ => follows_pure _) ?_
    refine follows_ite (follows.bind fun _ => follows_pure _) ?_
    exact follows_ite (follows.bind fun _ => follows_pure _) (follows_fail (by decide))

instance : Followed v SpendPolicy where
  follows S := (follows (v := .v2) (α := UInt8) (S := S)).bind fun _ => follows_ite (follows_fail (by decide)) (fun lim => follows_policy lim.stack lim)

instance : Followed v SatisfiedPolicy := inferInstance
instance : Followed v V2.Attestation := inferInstance
instance : Followed v V2.FileContract := inferInstance
instance : Followed v V2.SiacoinElement := inferInstance
instance : Followed v V2.SiafundElement := inferInstance
instance : Followed v V2.FileContractElement := inferInstance
instance : Followed v V2.ChainIndexElement := inferInstance
instance : Followed v V2.SiacoinInput := inferInstance
instance : Followed v V2.SiafundInput := inferInstance
instance : Followed v V2.FileContractRevision := inferInstance
instance : Followed v V2.FileContractRenewal := inferInstance
instance : Followed v V2.StorageProof := inferInstance

instance : Followed v V2.FileContractResolution where
  follows S := follows.bind fun _ => (follows (v := v) (α := UInt8) (S := S)).bind fun _ =>
    follows_ite (follows.bind fun _ => follows_pure _) (follows_ite (follows.bind fun _ => follows_pure _)
      (follows_ite (follows_pure _) (follows_fail (by decide))))

theorem follows_field {fields mask : U64} {r : Rd σ ε α} {d : Dec α} {a : α} (h : Follows S (fun _ => false) r d) :
    Follows S (fun _ => false) (Rd.field fields mask r a) (V2.Transaction.decodeField fields mask d a) :=
  follows_ite h (follows_pure _)

instance : Followed v V2.Transaction where
  follows S := (follows (v := v) (α := UInt8) (S := S)).bind fun _ => follows_ite (follows_fail (by decide)) <|
    (follows (v := v) (α := U64) (S := S)).bind fun _ =>
    (follows_field follows).bind fun _ => (follows_field follows).bind fun _ => (follows_field follows).bind fun _ =>
    (follows_field follows).bind fun _ => (follows_field follows).bind fun _ => (follows_field follows).bind fun _ =>
    (follows_field follows).bind fun _ => (follows_field follows).bind fun _ => (follows_field follows).bind fun _ =>
    (follows_field (follows.bind fun _ => follows_pure _)).bind fun _ => (follows_field follows).bind fun _ => follows_pure _

instance : Followed v ElementAccumulator :=
  ⟨fun _ => follows.bind fun _ => (follows_slots follows _ _ _).bind fun _ => follows_pure _⟩

/-! ## State -/

theorem Follows.map {r : Rd σ ε α} {d : Dec α} (h : Follows S hides r d) (f : α → β) :
    Follows S hides (r >>= fun a => pure (f a)) (d >>= fun a => pure (f a)) := by
  intro lim s
  rcases h lim s with ⟨bs, s', a, e, gv, hd⟩ | ⟨bs, s', x, e, ne, gv, hd⟩ | ⟨bs, s', e, gv, hd⟩ | ⟨bs, s₁, s₂, x, e, gv, st, hd⟩
  · refine .inl ⟨bs, s', f a, ?_, gv, fun rest => ?_⟩
    · show Rd.bind _ _ lim s = _
      rw [Rd.bind, e]
      show (⟨bs ++ [], s', .ok (f a)⟩ : Got σ ε β) = _
      rw [List.append_nil]
    · show Dec.bind _ _ lim _ = _
      rw [Dec.bind, hd]
      rfl
  · refine .inr (.inl ⟨bs, s', x, ?_, ne, gv, fun rest => ?_⟩)
    · show Rd.bind _ _ lim s = _
      rw [Rd.bind, e]
    · show Dec.bind _ _ lim _ = _
      rw [Dec.bind, hd]
  · refine .inr (.inr (.inl ⟨bs, s', ?_, gv, fun rest => ?_⟩))
    · show Rd.bind _ _ lim s = _
      rw [Rd.bind, e]
    · show Dec.bind _ _ lim _ = _
      rw [Dec.bind, hd]
  · refine .inr (.inr (.inr ⟨bs, s₁, s₂, x, ?_, gv, st, ?_⟩))
    · show Rd.bind _ _ lim s = _
      rw [Rd.bind, e]
    · show Dec.bind _ _ lim _ = _
      rw [Dec.bind, hd]

/-- The positions from `lo` to before `hi`. -/
def window (lo hi : Nat) : List UInt8 → Bool := fun bs => decide (lo ≤ bs.length ∧ bs.length < hi)

theorem Follows.shift {r : Rd σ ε α} {d : Dec α} {f : α → Rd σ ε β} {g : α → Dec β} {L lo hi : Nat} (size : Consumes d L)
    (hr : Follows S (fun _ => false) r d) (hf : ∀ a, Follows S (window lo hi) (f a) (g a)) :
    Follows S (window (L + lo) (L + hi)) (r >>= f) (d >>= g) :=
  hr.bindAt size (fun k hk => decide_eq_false (by omega)) (fun lim c a h k => decide_eq_decide.mpr (by
    have := (size lim c).1 _ _ h
    simp only [List.length_append, List.length_nil] at *
    omega)) hf

theorem Follows.widen {r : Rd σ ε α} {d : Dec α} {f : α → Rd σ ε β} {g : α → Dec β} {L hi : Nat} (size : Consumes d L)
    (hr : Follows S (window 0 L) r d) (hf : ∀ a, Follows S (window 0 hi) (f a) (g a)) :
    Follows S (window 0 (L + hi)) (r >>= f) (d >>= g) :=
  hr.bindAt size (fun k hk => decide_eq_decide.mpr (by omega)) (fun lim c a h k => decide_eq_decide.mpr (by
    have := (size lim c).1 _ _ h
    simp only [List.length_append, List.length_nil] at *
    omega)) hf

theorem window_nil (lo : Nat) : window lo lo = fun _ => false := funext fun k => decide_eq_false (by omega)

theorem consumes_exact (n : Nat) : Consumes (readExact n) n := by
  intro lim bs
  unfold readExact
  constructor
  · intro a r h
    split at h
    · cases h
      rw [List.length_drop]
      omega
    · cases h
  · intro h
    rw [dif_pos h]
    exact ⟨nofun, nofun⟩

theorem Consumes.map {d : Dec α} {L : Nat} (h : Consumes d L) (f : α → β) : Consumes (d >>= fun a => pure (f a)) L := by
  intro lim bs
  have e : (d >>= fun a => pure (f a)) lim bs = match d lim bs with
    | .ok (a, r) => .ok (f a, r)
    | .err e => .err e
    | .panic => .panic := rfl
  rw [e]
  have := h lim bs
  rcases hd : d lim bs with ⟨a, r⟩ | x | _
  · refine ⟨fun b r' hb => ?_, fun _ => ⟨nofun, nofun⟩⟩
    cases hb
    exact this.1 _ _ hd
  · rw [hd] at this
    exact ⟨nofun, fun hl => ⟨fun he => (this.2 hl).1 (by cases he; rfl), fun he => (this.2 hl).2 (by cases he; rfl)⟩⟩
  · exact ⟨nofun, fun _ => ⟨nofun, nofun⟩⟩

theorem Consumes.bind {d : Dec α} {L M : Nat} (h : Consumes d L) {f : α → Dec β} (hf : ∀ a, Consumes (f a) M) : Consumes (d >>= f) (L + M) := by
  intro lim bs
  have e : (d >>= f) lim bs = match d lim bs with
    | .ok (a, r) => f a lim r
    | .err e => .err e
    | .panic => .panic := rfl
  rw [e]
  have := h lim bs
  rcases hd : d lim bs with ⟨a, r⟩ | x | _
  · have h1 := this.1 _ _ hd
    have h2 := hf a lim r
    refine ⟨fun b r' hb => ?_, fun hl => h2.2 (by omega)⟩
    have := h2.1 _ _ hb
    omega
  · rw [hd] at this
    exact ⟨nofun, fun hl => ⟨fun he => (this.2 (by omega)).1 (by cases he; rfl), fun he => (this.2 (by omega)).2 (by cases he; rfl)⟩⟩
  · exact ⟨nofun, fun _ => ⟨nofun, nofun⟩⟩

theorem consumes_pure (a : α) : Consumes (pure a) 0 := by
  intro lim bs
  refine ⟨fun b r h => ?_, fun _ => ⟨nofun, nofun⟩⟩
  cases h
  exact (Nat.zero_add _).symm

theorem consumes_crash : Consumes (Dec.crash : Dec α) 0 := fun _ _ => ⟨nofun, fun _ => ⟨nofun, nofun⟩⟩

theorem consumes_num (n : Nat) : Consumes (numDecode n) 8 := (consumes_exact 8).map _

theorem consumes_index : Consumes (dec .v2 : Dec ChainIndex) 40 :=
  ((consumes_num 64).bind fun a => (consumes_exact 32).map fun b => (a, b)).map Struct.build

theorem consumes_time : Consumes (dec .v2 : Dec DateTime) 8 := by
  refine (consumes_num 64).bind (M := 0) fun b => ?_
  cases DateTime.fromUnix b.toInt with
  | some s => exact consumes_pure s
  | none => exact consumes_crash

theorem consumes_duration : Consumes (dec .v2 : Dec Duration) 8 := by
  refine (consumes_num 64).bind (M := 0) fun b => ?_
  split
  · exact fun _ _ => ⟨nofun, fun _ => ⟨nofun, nofun⟩⟩
  · exact consumes_pure _

theorem consumes_currency : Consumes (dec .v2 : Dec Currency) 16 := (consumes_exact 16).map _

theorem consumes_work : Consumes (dec .v2 : Dec Work) 32 := by
  refine Consumes.map (d := (readExact 32).mapErr .custom) (fun lim bs => ?_) _
  have := consumes_exact 32 lim bs
  unfold Dec.mapErr
  rcases hd : readExact 32 lim bs with x | x | _
  · rw [hd] at this
    exact this
  · refine ⟨nofun, fun hl => ?_⟩
    unfold readExact at hd
    rw [dif_pos hl] at hd
    cases hd
  · exact ⟨nofun, fun _ => ⟨nofun, nofun⟩⟩

theorem consumes_slots {d : Dec α} {L : Nat} (h : Consumes d L) (a : α) (count : Nat) :
    ∀ n i, Consumes (decodeSlots (fun i => decide (i < count)) d a i n) (L * (min (i + n) count - i))
  | 0, i => by
    have e : L * (min (i + 0) count - i) = 0 := by
      have : min (i + 0) count - i = 0 := by omega
      rw [this, Nat.mul_zero]
    rw [e]
    exact consumes_pure _
  | n + 1, i => by
    have ih := consumes_slots h a count n (i + 1)
    by_cases hi : i < count
    · have e : L * (min (i + (n + 1)) count - i) = L + L * (min (i + 1 + n) count - (i + 1)) := by
        have : min (i + (n + 1)) count - i = min (i + 1 + n) count - (i + 1) + 1 := by omega
        rw [this, Nat.mul_add]
        omega
      rw [e]
      unfold decodeSlots
      rw [show (decide (i < count)) = true from decide_eq_true hi]
      exact h.bind fun x => ih.map _
    · have e : L * (min (i + (n + 1)) count - i) = 0 + L * (min (i + 1 + n) count - (i + 1)) := by
        have h1 : min (i + (n + 1)) count - i = 0 := by omega
        have h2 : min (i + 1 + n) count - (i + 1) = 0 := by omega
        rw [h1, h2, Nat.mul_zero]
      rw [e]
      unfold decodeSlots
      rw [show (decide (i < count)) = false from decide_eq_false hi]
      exact (consumes_pure a).bind fun x => ih.map _

theorem follows_work : Follows S (window 0 32) (get .v2 S : Rd σ ε Work) (dec .v2) := by
  have h := follows_exact_custom (S := S) 32
  have e : (fun k : List UInt8 => decide (k.length < 32)) = window 0 32 := funext fun k => decide_eq_decide.mpr (by omega)
  rw [e] at h
  exact h.map _

theorem follows_tail : Follows S (window 184 280) (get .v2 S : Rd σ ε State.Tail) (dec .v2) := by
  refine Follows.shift (L := 32) (lo := 152) (hi := 248) (consumes_exact 32) follows fun _ => Follows.map ?_ _
  refine Follows.shift (L := 32) (lo := 120) (hi := 216) (consumes_exact 32) follows fun _ => Follows.map ?_ _
  refine Follows.shift (L := 16) (lo := 104) (hi := 200) consumes_currency follows fun _ => Follows.map ?_ _
  refine Follows.shift (L := 8) (lo := 96) (hi := 192) consumes_duration follows fun _ => Follows.map ?_ _
  refine Follows.shift (L := 32) (lo := 64) (hi := 160) (consumes_exact 32) follows fun _ => Follows.map ?_ _
  refine Follows.shift (L := 32) (lo := 32) (hi := 128) (consumes_exact 32) follows fun _ => Follows.map ?_ _
  refine Follows.shift (L := 32) (lo := 0) (hi := 96) (consumes_exact 32) follows fun _ => Follows.map ?_ _
  refine Follows.widen (L := 32) (hi := 64) consumes_work follows_work fun _ => Follows.map ?_ _
  refine Follows.widen (L := 32) (hi := 32) consumes_work follows_work fun _ => Follows.map ?_ _
  refine Follows.widen (L := 32) (hi := 0) consumes_work follows_work fun _ => Follows.map ?_ _
  rw [window_nil]
  exact follows

/-- The state decoder after the index: failures of the reader in the three work fields are replaced. -/
theorem follows_state_after (count : Nat) (hc : count ≤ 11) (index : ChainIndex) :
    Follows S (window (8 * count + 184) (8 * count + 280))
      (do
        let prevTimestamps ← Rd.slots (fun i => decide (i < count)) (get .v2 S) DateTime.epoch 0 11
        let (a, b, c, d, e, f, g, h, i, j, k, l) ← (get .v2 S : Rd σ ε State.Tail)
        pure (⟨index, prevTimestamps, a, b, c, d, e, f, g, h, i, j, k, l⟩ : State))
      (do
        let prevTimestamps ← decodeSlots (fun i => decide (i < count)) (dec .v2) DateTime.epoch 0 11
        let (a, b, c, d, e, f, g, h, i, j, k, l) ← (dec .v2 : Dec State.Tail)
        pure (⟨index, prevTimestamps, a, b, c, d, e, f, g, h, i, j, k, l⟩ : State)) := by
  have h := consumes_slots consumes_time DateTime.epoch count 11 0
  rw [show 8 * (min (0 + 11) count - 0) = 8 * count by omega] at h
  exact Follows.shift h (follows_slots follows _ _ _) fun ts =>
    follows_tail.map fun (a, b, c, d, e, f, g, h, i, j, k, l) => (⟨index, ts, a, b, c, d, e, f, g, h, i, j, k, l⟩ : State)

theorem dec_index {lim : Lim} {c r : List UInt8} {i : ChainIndex} (h : (dec .v2 : Dec ChainIndex) lim c = .ok (i, r)) :
    leVal (c.take 8) = i.height.toNat := by
  have e := (inferInstance : Canonical .v2 ChainIndex).canon _ _ _ _ h
  have e2 : c = leBytes 8 i.height.toNat ++ (i.id.1 ++ r) := by
    rw [e, ← List.append_assoc]
    show leBytes 8 (i.height.setWidth 64).toNat ++ _ ++ r = _
    rw [BitVec.setWidth_eq]
    rfl
  rw [e2, List.take_left' (leBytes_length 8 _), leVal_leBytes_of_lt i.height.isLt]

theorem follows_state (m : Mode) : Follows S State.inWork (State.get m S) (State.decode m) := by
  have hi : Follows S (fun _ => false) (get .v2 S : Rd σ ε ChainIndex) (dec .v2) := follows
  refine hi.bindAt (h2 := fun i => window (8 * min 11 ((i.height.toNat + 1) % 2 ^ 64) + 184) (8 * min 11 ((i.height.toNat + 1) % 2 ^ 64) + 280))
    consumes_index (fun c hc => ?_) (fun lim c a h k => ?_) fun index => ?_
  · unfold State.inWork
    exact decide_eq_false (by omega)
  · have hl := (consumes_index lim c).1 _ _ h
    have hh := dec_index h
    have ht : (c ++ k).take 8 = c.take 8 := List.take_append_of_le_length (by simp at hl; omega)
    unfold State.inWork
    rw [ht, hh]
    refine decide_eq_decide.mpr ?_
    simp only [List.length_append, List.length_nil] at *
    omega
  · have hc : State.timestampsCount m index = .panic ∨ State.timestampsCount m index = .ok (min 11 ((index.height.toNat + 1) % 2 ^ 64)) := by
      have hs : (if (index.height + 1).toNat < 11 then (index.height + 1).toNat else 11) = min 11 ((index.height.toNat + 1) % 2 ^ 64) := by
        rw [BitVec.toNat_add]
        show (if (index.height.toNat + 1) % 2 ^ 64 < 11 then (index.height.toNat + 1) % 2 ^ 64 else 11) = _
        split <;> omega
      rw [← hs]
      unfold State.timestampsCount ChainIndex.childHeight addU
      cases m
      · simp only
        split
        · exact .inr rfl
        · exact .inl rfl
      · exact .inr rfl
    rcases hc with hc | hc
    · rw [hc]
      exact fun _ s => .inr (.inr (.inl ⟨[], s, rfl, .start s, fun _ => rfl⟩))
    · rw [hc]
      have h := follows_state_after (S := S) (min 11 ((index.height.toNat + 1) % 2 ^ 64)) (by omega) index
      exact h

end Verif
