import Verif.Spec.Careful
import Verif.Lemmas.Width
import Verif.Lemmas.Spec
import Verif.Lemmas.Consensus

/-!
# Lemmas on the decoders that do not panic
-/

namespace Verif

open Dec

variable {v : Ver} {α β : Type}

/-- The first decoder returns what the second returns on the machine `lim₀`, with an error in place of a panic; the second reads at least `n` bytes. -/
def Mirrors (lim₀ : Lim) (n : Nat) (d d' : Dec α) : Prop :=
  ∀ lim bs, 2 * bs.length + 8 ≤ lim.cap → lim₀.stack ≤ lim.stack →
    d lim bs = (d' lim₀ bs).orError ∧ ∀ a r, d' lim₀ bs = .ok (a, r) → r.length + n ≤ bs.length

/-- The repaired decoder returns what the decoder of the code returns. -/
class Mends (v : Ver) (α : Type) [Codec v α] [Careful v α] : Prop where
  mends : ∀ lim₀ : Lim, 2 ^ 64 ≤ lim₀.cap → Mirrors lim₀ 1 (decSafe v lim₀.stack : Dec α) (dec v)

variable {lim₀ : Lim} {n m : Nat}

theorem Mirrors.weaken {d d' : Dec α} (h : Mirrors lim₀ n d d') (hm : m ≤ n) : Mirrors lim₀ m d d' :=
  fun lim bs hc hs => ⟨(h lim bs hc hs).1, fun a r hr => by have := (h lim bs hc hs).2 a r hr; omega⟩

theorem Mirrors.pure (a : α) : Mirrors lim₀ 0 (Pure.pure a) (Pure.pure a) := by
  intro lim bs _ _
  refine ⟨rfl, fun b r h => ?_⟩
  cases h
  omega

theorem Mirrors.fail (e : Err) : Mirrors (α := α) lim₀ n (Dec.fail e) (Dec.fail e) :=
  fun _ _ _ _ => ⟨rfl, fun _ _ h => by cases h⟩

theorem Mirrors.crash : Mirrors (α := α) lim₀ n (Dec.fail .custom) Dec.crash :=
  fun _ _ _ _ => ⟨rfl, fun _ _ h => by cases h⟩

theorem Mirrors.bind {d d' : Dec α} {f f' : α → Dec β} (h : Mirrors lim₀ n d d') (hf : ∀ a, Mirrors lim₀ m (f a) (f' a)) :
    Mirrors lim₀ (n + m) (d >>= f) (d' >>= f') := by
  intro lim bs hc hs
  obtain ⟨h1, h2⟩ := h lim bs hc hs
  show Dec.bind d f lim bs = (Dec.bind d' f' lim₀ bs).orError ∧ ∀ a r, Dec.bind d' f' lim₀ bs = _ → _
  unfold Dec.bind
  rw [h1]
  match hd : d' lim₀ bs with
  | .ok (a, r) =>
    have hr := h2 a r hd
    obtain ⟨h3, h4⟩ := hf a lim r (by omega) hs
    refine ⟨h3, fun b r' hb => ?_⟩
    have := h4 b r' hb
    omega
  | .err e => exact ⟨rfl, fun _ _ h => by cases h⟩
  | .panic => exact ⟨rfl, fun _ _ h => by cases h⟩

theorem Mirrors.map {d d' : Dec α} (h : Mirrors lim₀ n d d') (f : α → β) :
    Mirrors lim₀ n (d >>= fun a => Pure.pure (f a)) (d' >>= fun a => Pure.pure (f a)) := h.bind fun _ => Mirrors.pure _

theorem Mirrors.ite {c : Prop} [Decidable c] {d d' e e' : Dec α} (h : Mirrors lim₀ n d d') (h' : Mirrors lim₀ n e e') :
    Mirrors lim₀ n (if c then d else e) (if c then d' else e') := by
  split
  · exact h
  · exact h'

theorem Mirrors.readExact (n : Nat) : Mirrors lim₀ n (Verif.readExact n) (Verif.readExact n) := by
  intro lim bs _ _
  unfold Verif.readExact
  split
  · refine ⟨rfl, fun a r h => ?_⟩
    cases h
    simp
    omega
  · exact ⟨rfl, fun _ _ h => by cases h⟩

theorem Mirrors.mapErr {d d' : Dec α} (h : Mirrors lim₀ n d d') : Mirrors lim₀ n (d.mapErr .custom) (d'.mapErr .custom) := by
  intro lim bs hc hs
  obtain ⟨h1, h2⟩ := h lim bs hc hs
  unfold Dec.mapErr
  rw [h1]
  match hd : d' lim₀ bs with
  | .ok (a, r) => exact ⟨rfl, fun b r' hb => h2 b r' (by rw [hd, ← hb])⟩
  | .err e => exact ⟨rfl, fun _ _ h => by cases h⟩
  | .panic => exact ⟨rfl, fun _ _ h => by cases h⟩

theorem Mirrors.num (w : Nat) : Mirrors lim₀ 8 (numDecode w) (numDecode w) := (Mirrors.readExact 8).map _

theorem Mirrors.u8 : Mirrors lim₀ 1 (dec v : Dec UInt8) (dec v) := (Mirrors.readExact 1).map _

theorem Mirrors.bool : Mirrors lim₀ 1 (dec v : Dec Bool) (dec v) :=
  Mirrors.bind (m := 0) Mirrors.u8 fun _ => Mirrors.ite (Mirrors.pure _) (Mirrors.ite (Mirrors.pure _) (Mirrors.fail _))

theorem Mirrors.arr (n : Nat) : Mirrors lim₀ n (dec v : Dec (Arr n)) (dec v) := Mirrors.readExact n

theorem Mirrors.currency : Mirrors lim₀ 1 (dec v : Dec Currency) (dec v) := by
  cases v with
  | v1 =>
    refine Mirrors.weaken (n := 8 + 0) (Mirrors.bind (Mirrors.num 64) fun len => ?_) (by omega)
    exact Mirrors.ite (Mirrors.fail _) (((Mirrors.readExact _).map _).weaken (Nat.zero_le _))
  | v2 => exact ((Mirrors.readExact 16).map _).weaken (by omega)

/-- Reading elements one by one. -/
theorem Mirrors.pushN {d d' : Dec α} (h : Mirrors lim₀ 1 d d') (n : Nat) : ∀ k lim bs, 2 * (bs.length + k) + 8 ≤ lim.cap → lim₀.stack ≤ lim.stack →
    Verif.pushN d k n lim bs = (decodeN d' n lim₀ bs).orError ∧ ∀ l r, decodeN d' n lim₀ bs = .ok (l, r) → r.length ≤ bs.length := by
  induction n with
  | zero =>
    intro k lim bs _ _
    exact ⟨rfl, fun l r h => by cases h; omega⟩
  | succ n ih =>
    intro k lim bs hc hs
    obtain ⟨h1, h2⟩ := h lim bs (by omega) hs
    show Dec.bind d _ lim bs = (Dec.bind d' _ lim₀ bs).orError ∧ ∀ a r, Dec.bind d' _ lim₀ bs = _ → _
    unfold Dec.bind
    rw [h1]
    match hd : d' lim₀ bs with
    | .ok (a, r) =>
      have hr := h2 a r hd
      obtain ⟨h3, h4⟩ := ih (k + 1) lim r (by omega) hs
      have hres : Dec.reserve (max 8 (2 * k)) lim r = .ok ((), r) := if_pos (by omega)
      have e : (Dec.reserve (max 8 (2 * k)) >>= fun _ => Verif.pushN d (k + 1) n >>= fun as => (Pure.pure (a :: as) : Dec (List α))) lim r =
          Dec.bind (Verif.pushN d (k + 1) n) (fun as => Pure.pure (a :: as)) lim r := bind_ok hres
      show (Dec.reserve (max 8 (2 * k)) >>= fun _ => Verif.pushN d (k + 1) n >>= fun as => (Pure.pure (a :: as) : Dec (List α))) lim r =
        (Dec.bind (decodeN d' n) (fun as => Pure.pure (a :: as)) lim₀ r).orError ∧
        ∀ l r', Dec.bind (decodeN d' n) (fun as => Pure.pure (a :: as)) lim₀ r = .ok (l, r') → _
      rw [e]
      unfold Dec.bind
      rw [h3]
      match hn : decodeN d' n lim₀ r with
      | .ok (l, r') =>
        refine ⟨rfl, fun l' r'' h => ?_⟩
        cases h
        have := h4 l _ hn
        omega
      | .err e => exact ⟨rfl, fun _ _ h => by cases h⟩
      | .panic => exact ⟨rfl, fun _ _ h => by cases h⟩
    | .err e => exact ⟨rfl, fun _ _ h => by cases h⟩
    | .panic => exact ⟨rfl, fun _ _ h => by cases h⟩

/-- Reserving first, on a machine that can. -/
theorem Mirrors.reserved {d d' : Dec α} (h : Mirrors lim₀ 1 d d') {n : Nat} (hn : n ≤ lim₀.cap) :
    Mirrors lim₀ 0 (Verif.pushN d 0 n) (Dec.reserve n >>= fun _ => decodeN d' n) := by
  intro lim bs hc hs
  have e : (Dec.reserve n >>= fun _ => decodeN d' n) lim₀ bs = decodeN d' n lim₀ bs :=
    bind_ok (a := ()) (r := bs) (if_pos hn)
  rw [e]
  exact h.pushN n 0 lim bs hc hs

instance : Mends v UInt8 := ⟨fun _ _ => Mirrors.u8⟩
instance : Mends v Bool := ⟨fun _ _ => Mirrors.bool⟩
instance : Mends v U64 := ⟨fun _ _ => (Mirrors.num 64).weaken (by omega)⟩
instance {n : Nat} : Mends v (Arr (n + 1)) := ⟨fun _ _ => (Mirrors.arr _).weaken (by omega)⟩
instance : Mends v Currency := ⟨fun _ _ => Mirrors.currency⟩

instance : Mends v DateTime where
  mends _ _ := Mirrors.weaken (n := 8 + 0) (Mirrors.bind (Mirrors.num 64) fun b => by
    cases DateTime.fromUnix b.toInt with
    | some t => exact Mirrors.pure _
    | none => exact Mirrors.crash) (by omega)

instance : Mends v Duration where
  mends _ _ := Mirrors.weaken (n := 8 + 0) (Mirrors.bind (Mirrors.num 64) fun _ => Mirrors.ite (Mirrors.fail _) (Mirrors.pure _)) (by omega)

instance : Mends v Work where
  mends _ _ := by
    cases v with
    | v1 => exact ((Mirrors.readExact 32).map _).weaken (by omega)
    | v2 => exact ((Mirrors.readExact 32).mapErr.map _).weaken (by omega)

instance [Codec v α] [Careful v α] [h : Mends v α] : Mends v (List α) where
  mends lim₀ hc := Mirrors.weaken (n := 8 + 0) (Mirrors.bind (Mirrors.num 64) fun len => (h.mends lim₀ hc).reserved (by
    have := len.isLt
    omega)) (by omega)

instance [Codec v α] [Careful v α] [h : Mends v α] : Mends v (Option α) where
  mends lim₀ hc := Mirrors.bind (m := 0) Mirrors.bool fun has => Mirrors.ite (((h.mends lim₀ hc).map _).weaken (by omega)) (Mirrors.pure _)

instance : Mends v String where
  mends lim₀ hc := Mirrors.bind (m := 0) (Mends.mends (α := List UInt8) lim₀ hc) fun buf => by
    cases strOfBytes buf with
    | some s => exact Mirrors.pure _
    | none => exact Mirrors.fail _

instance [Codec v α] [Careful v α] [h : Mends v α] [Codec v β] [Careful v β] [h' : Mends v β] : Mends v (α × β) where
  mends lim₀ hc := Mirrors.weaken (n := 1 + 1) (Mirrors.bind (h.mends lim₀ hc) fun _ => (h'.mends lim₀ hc).map _) (by omega)

instance (priority := low) [Struct α β] [Codec v β] [Careful v β] [h : Mends v β] : Mends v α where
  mends lim₀ hc := (h.mends lim₀ hc).map _

instance : Mends v SiafundOutput where
  mends lim₀ hc := by
    cases v with
    | v1 =>
      refine Mirrors.bind (m := 0) Mirrors.currency fun c => ?_
      split
      · exact Mirrors.fail _
      · exact Mirrors.weaken (Mirrors.bind (Mirrors.arr 32) fun _ => Mirrors.currency.map _) (Nat.zero_le _)
    | v2 => exact Mirrors.weaken (n := 8 + 32) (Mirrors.bind (Mirrors.num 64) fun _ => (Mirrors.arr 32).map _) (by omega)

theorem Mirrors.slots {d d' : Dec α} (h : Mirrors lim₀ 0 d d') (present : Nat → Bool) (a : α) (n : Nat) :
    ∀ i, Mirrors lim₀ 0 (decodeSlots present d a i n) (decodeSlots present d' a i n) := by
  induction n with
  | zero => exact fun i => Mirrors.pure _
  | succ n ih =>
    intro i
    exact Mirrors.bind (n := 0) (m := 0) (Mirrors.ite h (Mirrors.pure _)) fun _ => (ih (i + 1)).map _

instance : Mends v ElementAccumulator where
  mends lim₀ hc := Mirrors.weaken (n := 8 + 0) (Mirrors.bind (Mirrors.num 64) fun _ =>
    (Mirrors.slots ((Mirrors.arr 32).weaken (Nat.zero_le _)) _ _ _ _).map _) (by omega)

instance : Mends v ChainIndex := inferInstance
instance : Mends v SiacoinOutput := inferInstance
instance : Mends v StateElement := inferInstance
instance : Mends v UnlockKey := inferInstance
instance : Mends v UnlockConditions := inferInstance
instance : Mends v V1.SiacoinInput := inferInstance
instance : Mends v V1.SiafundInput := inferInstance
instance : Mends v V1.FileContract := inferInstance
instance : Mends v V1.FileContractRevision := inferInstance
instance : Mends v V1.StorageProof := inferInstance
instance : Mends v V1.CoveredFields := inferInstance
instance : Mends v V1.TransactionSignature := inferInstance
instance : Mends v V1.Transaction := inferInstance
instance : Mends v Block := inferInstance

/-- Without policies the limit does not matter. -/
theorem decSafe_uc (k k' : Nat) : (decSafe v k : Dec UnlockConditions) = decSafe v k' := rfl

theorem SpendPolicy.mirrors_decodePolicy (hc : 2 ^ 64 ≤ lim₀.cap) : ∀ k s, k ≤ s →
    Mirrors lim₀ 1 (SpendPolicy.decodePolicySafe k s) (SpendPolicy.decodePolicy k) := by
  intro k
  induction k with
  | zero => exact fun s _ => Mirrors.crash
  | succ k ih =>
    intro s hs
    obtain ⟨s, rfl⟩ : ∃ t, s = t + 1 := ⟨s - 1, by omega⟩
    unfold SpendPolicy.decodePolicySafe SpendPolicy.decodePolicy
    refine Mirrors.bind (n := 1) (m := 0) Mirrors.u8 fun ty => ?_
    refine Mirrors.ite (((Mirrors.num 64).map _).weaken (Nat.zero_le _)) ?_
    refine Mirrors.ite ?_ ?_
    · refine Mirrors.weaken (n := 8 + 0) (Mirrors.bind (Mirrors.num 64) fun secs => ?_) (Nat.zero_le _)
      cases DateTime.fromUnix secs.toInt with
      | some t => exact Mirrors.pure _
      | none => exact Mirrors.fail _
    refine Mirrors.ite (((Mends.mends (v := .v2) (α := PublicKey) lim₀ hc).map _).weaken (Nat.zero_le _)) ?_
    refine Mirrors.ite (((Mirrors.arr 32).map _).weaken (Nat.zero_le _)) ?_
    refine Mirrors.ite ?_ ?_
    · refine Mirrors.weaken (n := 1 + (1 + 0)) (Mirrors.bind Mirrors.u8 fun of => Mirrors.bind Mirrors.u8 fun n => ?_) (Nat.zero_le _)
      have h := ((ih s (by omega)).reserved (n := n.toNat) (by have := n.toNat_lt; omega)).map (SpendPolicy.threshold of)
      rw [Dec.bind_assoc] at h
      exact h
    refine Mirrors.ite (((Mirrors.arr 32).map _).weaken (Nat.zero_le _)) ?_
    refine Mirrors.ite ?_ (Mirrors.fail _)
    rw [decSafe_uc k lim₀.stack]
    exact ((Mends.mends (v := .v2) (α := UnlockConditions) lim₀ hc).map _).weaken (Nat.zero_le _)

instance : Mends v SpendPolicy where
  mends lim₀ hc := by
    refine Mirrors.bind (n := 1) (m := 0) Mirrors.u8 fun ver => Mirrors.ite (Mirrors.fail _) ?_
    intro lim bs hb hs
    obtain ⟨h1, h2⟩ := SpendPolicy.mirrors_decodePolicy hc lim₀.stack lim.stack hs lim bs hb hs
    exact ⟨h1, fun a r h => by have := h2 a r h; omega⟩

instance : Mends v SatisfiedPolicy := inferInstance
instance : Mends v V2.Attestation := inferInstance
instance : Mends v V2.FileContract := inferInstance
instance : Mends v V2.SiacoinElement := inferInstance
instance : Mends v V2.SiafundElement := inferInstance
instance : Mends v V2.FileContractElement := inferInstance
instance : Mends v V2.ChainIndexElement := inferInstance
instance : Mends v V2.SiacoinInput := inferInstance
instance : Mends v V2.SiafundInput := inferInstance
instance : Mends v V2.FileContractRevision := inferInstance
instance : Mends v V2.FileContractRenewal := inferInstance
instance : Mends v V2.StorageProof := inferInstance

instance : Mends v V2.FileContractResolution where
  mends lim₀ hc := by
    refine Mirrors.weaken (n := 1 + (1 + 0)) (Mirrors.bind (Mends.mends (α := V2.FileContractElement) lim₀ hc) fun _ =>
      Mirrors.bind Mirrors.u8 fun tag => ?_) (by omega)
    refine Mirrors.ite (((Mends.mends (α := V2.FileContractRenewal) lim₀ hc).map _).weaken (Nat.zero_le _)) ?_
    refine Mirrors.ite (((Mends.mends (α := V2.StorageProof) lim₀ hc).map _).weaken (Nat.zero_le _)) ?_
    exact Mirrors.ite (Mirrors.pure _) (Mirrors.fail _)

theorem Mirrors.field {d d' : Dec α} (h : Mirrors lim₀ n d d') (fields mask : U64) (a : α) :
    Mirrors lim₀ 0 (V2.Transaction.decodeField fields mask d a) (V2.Transaction.decodeField fields mask d' a) :=
  Mirrors.ite (h.weaken (Nat.zero_le _)) (Mirrors.pure _)

instance : Mends v V2.Transaction where
  mends lim₀ hc := by
    refine Mirrors.bind (n := 1) (m := 0) Mirrors.u8 fun ver => Mirrors.ite (Mirrors.fail _) ?_
    refine Mirrors.weaken (n := 8 + 0) (Mirrors.bind (Mirrors.num 64) fun fields => ?_) (Nat.zero_le _)
    refine Mirrors.bind (n := 0) (m := 0) (Mirrors.field (Mends.mends (α := List V2.SiacoinInput) lim₀ hc) _ _ _) fun _ => ?_
    refine Mirrors.bind (n := 0) (m := 0) (Mirrors.field (Mends.mends (α := List SiacoinOutput) lim₀ hc) _ _ _) fun _ => ?_
    refine Mirrors.bind (n := 0) (m := 0) (Mirrors.field (Mends.mends (α := List V2.SiafundInput) lim₀ hc) _ _ _) fun _ => ?_
    refine Mirrors.bind (n := 0) (m := 0) (Mirrors.field (Mends.mends (α := List SiafundOutput) lim₀ hc) _ _ _) fun _ => ?_
    refine Mirrors.bind (n := 0) (m := 0) (Mirrors.field (Mends.mends (α := List V2.FileContract) lim₀ hc) _ _ _) fun _ => ?_
    refine Mirrors.bind (n := 0) (m := 0) (Mirrors.field (Mends.mends (α := List V2.FileContractRevision) lim₀ hc) _ _ _) fun _ => ?_
    refine Mirrors.bind (n := 0) (m := 0) (Mirrors.field (Mends.mends (α := List V2.FileContractResolution) lim₀ hc) _ _ _) fun _ => ?_
    refine Mirrors.bind (n := 0) (m := 0) (Mirrors.field (Mends.mends (α := List V2.Attestation) lim₀ hc) _ _ _) fun _ => ?_
    refine Mirrors.bind (n := 0) (m := 0) (Mirrors.field (Mends.mends (α := List UInt8) lim₀ hc) _ _ _) fun _ => ?_
    refine Mirrors.bind (n := 0) (m := 0) (Mirrors.field ((Mends.mends (α := Address) lim₀ hc).map _) _ _ _) fun _ => ?_
    exact Mirrors.map (Mirrors.field Mirrors.currency _ _ _) _

theorem nowhereElse [Codec v α] [Careful v α] [h : Mends v α] : NowhereElse v α :=
  fun D lim bs hc hs => (h.mends ⟨2 ^ 64, D⟩ (Nat.le_refl _) lim bs hc hs).1

theorem stillReads [Codec v α] [Fits α] [Careful v α] [Mends v α] [Lawful v α] : StillReads v α := by
  intro D lim a rest hc hs hf
  rw [nowhereElse D lim _ hc hs, roundTrips ⟨2 ^ 64, D⟩ a rest hf]
  rfl

/-- The decoder of chain states. -/
theorem State.mirrors_decode (hc : 2 ^ 64 ≤ lim₀.cap) : Mirrors lim₀ 1 (State.decodeSafe lim₀.stack) (State.decode .checked) := by
  refine Mirrors.bind (n := 1) (m := 0) (Mends.mends (v := .v2) (α := ChainIndex) lim₀ hc) fun index => ?_
  split
  · next hm =>
    have e : State.timestampsCount .checked index = .panic := by
      have hx : (1 : U64).toNat = 1 := rfl
      unfold State.timestampsCount ChainIndex.childHeight addU
      rw [if_neg (by rw [hx]; omega)]
      rfl
    rw [e]
    exact fun lim bs _ _ => ⟨rfl, fun _ _ h => by cases h⟩
  · next hm =>
    have hlt := index.height.isLt
    have e : State.timestampsCount .checked index = .ok (if index.height.toNat + 1 < 11 then index.height.toNat + 1 else 11) := by
      rw [State.timestampsCount_ok (by omega)]
      congr 1
      split <;> omega
    rw [e]
    refine Mirrors.bind (n := 0) (m := 0) ?_ fun _ => Mirrors.map (Mirrors.weaken (Mends.mends (v := .v2) (α := State.Tail) lim₀ hc) (Nat.zero_le _)) _
    exact Mirrors.slots (Mirrors.weaken (Mends.mends (v := .v2) (α := DateTime) lim₀ hc) (Nat.zero_le _)) _ _ _ _

end Verif
