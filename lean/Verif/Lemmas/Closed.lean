import Verif.Lemmas.V2

/-!
# Decoded values are in the round-trip domain
-/

namespace Verif

open Dec SpendPolicy

variable {v : Ver} {α β : Type}

/-- Whatever the decoder returns satisfies `fits`. -/
class Closed (v : Ver) (α : Type) [Codec v α] [Fits α] : Prop where
  closed : ∀ lim bs a r, (dec v : Dec α) lim bs = .ok (a, r) → fits lim a

instance : Closed v UInt8 := ⟨fun _ _ _ _ _ => trivial⟩
instance : Closed v Bool := ⟨fun _ _ _ _ _ => trivial⟩
instance : Closed v U16 := ⟨fun _ _ _ _ _ => trivial⟩
instance : Closed v U32 := ⟨fun _ _ _ _ _ => trivial⟩
instance : Closed v U64 := ⟨fun _ _ _ _ _ => trivial⟩
instance : Closed v Int16 := ⟨fun _ _ _ _ _ => trivial⟩
instance : Closed v Int32 := ⟨fun _ _ _ _ _ => trivial⟩
instance : Closed v Int64 := ⟨fun _ _ _ _ _ => trivial⟩
instance {n : Nat} : Closed v (Arr n) := ⟨fun _ _ _ _ _ => trivial⟩
instance : Closed v Currency := ⟨fun _ _ _ _ _ => trivial⟩
instance : Closed v Work := ⟨fun _ _ _ _ _ => trivial⟩
instance : Closed v SiafundOutput := ⟨fun _ _ _ _ _ => trivial⟩

theorem reserve_eq_ok {n : Nat} {lim : Lim} {bs r : List UInt8} {u : Unit}
    (h : Dec.reserve n lim bs = .ok (u, r)) : n ≤ lim.cap ∧ r = bs := by
  unfold Dec.reserve at h
  split at h
  · simp at h; exact ⟨by assumption, h.symm⟩
  · simp at h

theorem decodeN_all {d : Dec α} {P : α → Prop} {lim : Lim}
    (h : ∀ bs a r, d lim bs = .ok (a, r) → P a) {n : Nat} {bs r : List UInt8} {l : List α}
    (hl : decodeN d n lim bs = .ok (l, r)) : l.length = n ∧ ∀ a ∈ l, P a := by
  induction n generalizing bs l r with
  | zero => simp [decodeN] at hl; simp [hl.1]
  | succ n ih =>
    obtain ⟨a, r1, h1, h2⟩ := bind_eq_ok.mp hl
    obtain ⟨as, r2, h3, h4⟩ := bind_eq_ok.mp h2
    simp at h4
    obtain ⟨i1, i2⟩ := ih h3
    rw [← h4.1]
    simp [i1]
    exact ⟨h _ _ _ h1, i2⟩

instance [Codec v α] [Fits α] [Closed v α] : Closed v (List α) where
  closed lim bs l r h := by
    rw [dec_list] at h
    obtain ⟨n, r1, h1, h2⟩ := bind_eq_ok.mp h
    obtain ⟨_, r2, h3, h4⟩ := bind_eq_ok.mp h2
    obtain ⟨hc, rfl⟩ := reserve_eq_ok h3
    obtain ⟨h5, h6⟩ := decodeN_all (P := fits lim) (Closed.closed (v := v) lim) h4
    exact ⟨by omega, by have := n.isLt; omega, h6⟩

instance [Codec v α] [Fits α] [Closed v α] : Closed v (Option α) where
  closed lim bs l r h := by
    rw [dec_option] at h
    obtain ⟨b, r1, h1, h2⟩ := bind_eq_ok.mp h
    intro a ha
    cases b with
    | true =>
      obtain ⟨x, r2, h3, h4⟩ := bind_eq_ok.mp h2
      simp at h4
      have : x = a := by rw [← h4.1] at ha; exact Option.some.inj ha
      exact this ▸ Closed.closed _ _ _ _ h3
    | false => simp at h2; rw [← h2.1] at ha; cases ha

instance : Closed v String where
  closed lim bs s r h := by
    rw [dec_string] at h
    obtain ⟨l, r1, h1, h2⟩ := bind_eq_ok.mp h
    cases hs : strOfBytes l with
    | none => rw [hs] at h2; simp [Dec.fail] at h2
    | some t =>
      rw [hs] at h2
      simp at h2
      have h3 := strBytes_of_strOfBytes hs
      have h4 := Closed.closed lim bs l r1 h1
      have h5 := strBytes_length t
      obtain ⟨h6, h7, _⟩ := h4
      rw [h3] at h5
      rw [← h2.1]
      exact ⟨by omega, by omega⟩

instance [Codec v α] [Codec v β] [Fits α] [Fits β] [Closed v α] [Closed v β] : Closed v (α × β) where
  closed lim bs p r h := by
    rw [dec_prod] at h
    obtain ⟨a, r1, h1, h2⟩ := bind_eq_ok.mp h
    obtain ⟨b, r2, h3, h4⟩ := bind_eq_ok.mp h2
    simp at h4
    rw [← h4.1]
    exact ⟨Closed.closed _ _ _ _ h1, Closed.closed _ _ _ _ h3⟩

instance (priority := low) [Struct α β] [Codec v β] [Fits β] [Closed v β] : Closed v α where
  closed lim bs a r h := by
    rw [dec_struct] at h
    obtain ⟨b, r1, h1, h2⟩ := bind_eq_ok.mp h
    simp at h2
    show fits lim (Struct.fields a)
    rw [← h2.1, Struct.fields_build]
    exact Closed.closed _ _ _ _ h1

theorem fromUnix_eq_some {x : Int} {t : DateTime} (h : DateTime.fromUnix x = some t) :
    t.secs = x ∧ t.nanos = 0 ∧ -377705116800 ≤ t.secs ∧ t.secs ≤ 253402300799 := by
  unfold DateTime.fromUnix at h
  split at h
  · rename_i hx
    simp at h
    subst h
    exact ⟨rfl, rfl, hx.1, hx.2⟩
  · simp at h

theorem dec_dateTime : (dec v : Dec DateTime) = (numDecode 64 >>= fun b =>
    match DateTime.fromUnix b.toInt with
    | some t => pure t
    | none => Dec.crash) := rfl

instance : Closed v DateTime where
  closed lim bs t r h := by
    rw [dec_dateTime] at h
    obtain ⟨b, r1, h1, h2⟩ := bind_eq_ok.mp h
    cases hs : DateTime.fromUnix b.toInt with
    | none => rw [hs] at h2; simp [Dec.crash] at h2
    | some t' =>
      rw [hs] at h2
      simp at h2
      rw [← h2.1]
      exact (fromUnix_eq_some hs).2

instance : Closed v Duration where
  closed lim bs t r h := by
    rw [dec_duration] at h
    obtain ⟨b, r1, h1, h2⟩ := bind_eq_ok.mp h
    split at h2
    · simp [Dec.fail] at h2
    · simp at h2
      rw [← h2.1]
      show 0 ≤ (b.toNat : Int) ∧ (b.toNat : Int) < 2 ^ 63
      omega

instance : Closed v ChainIndex := inferInstance
instance : Closed v SiacoinOutput := inferInstance
instance : Closed v StateElement := inferInstance
instance : Closed v UnlockKey := inferInstance
instance : Closed v UnlockConditions := inferInstance
instance : Closed v V1.SiacoinInput := inferInstance
instance : Closed v V1.SiafundInput := inferInstance
instance : Closed v V1.FileContract := inferInstance
instance : Closed v V1.FileContractRevision := inferInstance
instance : Closed v V1.StorageProof := inferInstance
instance : Closed v V1.CoveredFields := inferInstance
instance : Closed v V1.TransactionSignature := inferInstance
instance : Closed v V1.Transaction := inferInstance
instance : Closed v Block := inferInstance

theorem closed_decodePolicy (lim : Lim) (k : Nat) : ∀ bs p r, decodePolicy k lim bs = .ok (p, r) →
    policyFits lim k p := by
  induction k with
  | zero => intro bs p r h; simp [decodePolicy, Dec.crash] at h
  | succ k ih =>
    intro bs p r h
    rw [decodePolicy_succ] at h
    obtain ⟨ty, r1, h1, h2⟩ := bind_eq_ok.mp h
    unfold policyBody at h2
    split at h2
    · obtain ⟨x, r2, h3, h4⟩ := bind_eq_ok.mp h2
      simp at h4
      rw [← h4.1]; trivial
    split at h2
    · obtain ⟨x, r2, h3, h4⟩ := bind_eq_ok.mp h2
      cases ht : DateTime.fromUnix x.toInt with
      | none => rw [ht] at h4; simp [Dec.fail] at h4
      | some t =>
        rw [ht] at h4
        simp at h4
        rw [← h4.1]
        exact (fromUnix_eq_some ht).2
    split at h2
    · obtain ⟨x, r2, h3, h4⟩ := bind_eq_ok.mp h2
      simp at h4
      rw [← h4.1]; trivial
    split at h2
    · obtain ⟨x, r2, h3, h4⟩ := bind_eq_ok.mp h2
      simp at h4
      rw [← h4.1]; trivial
    split at h2
    · obtain ⟨of, r2, h3, h4⟩ := bind_eq_ok.mp h2
      obtain ⟨n, r3, h5, h6⟩ := bind_eq_ok.mp h4
      obtain ⟨_, r4, h7, h8⟩ := bind_eq_ok.mp h6
      obtain ⟨ps, r5, h9, h10⟩ := bind_eq_ok.mp h8
      obtain ⟨hc, rfl⟩ := reserve_eq_ok h7
      simp at h10
      obtain ⟨hl, hb⟩ := decodeN_all (P := policyFits lim k) ih h9
      rw [← h10.1]
      have := n.toNat_lt
      exact ⟨by omega, by omega, hb⟩
    split at h2
    · obtain ⟨x, r2, h3, h4⟩ := bind_eq_ok.mp h2
      simp at h4
      rw [← h4.1]; trivial
    split at h2
    · obtain ⟨x, r2, h3, h4⟩ := bind_eq_ok.mp h2
      simp at h4
      rw [← h4.1]
      exact Closed.closed _ _ _ _ h3
    · simp [Dec.fail] at h2

instance : Closed v SpendPolicy where
  closed lim bs a r h := by
    rw [dec_policy'] at h
    obtain ⟨ver, r1, h1, h2⟩ := bind_eq_ok.mp h
    split at h2
    · simp [Dec.fail] at h2
    · exact closed_decodePolicy _ _ _ _ _ h2

instance : Closed v SatisfiedPolicy := inferInstance
instance : Closed v V2.Attestation := inferInstance
instance : Closed v V2.FileContract := inferInstance
instance : Closed v V2.SiacoinElement := inferInstance
instance : Closed v V2.SiafundElement := inferInstance
instance : Closed v V2.FileContractElement := inferInstance
instance : Closed v V2.ChainIndexElement := inferInstance
instance : Closed v V2.SiacoinInput := inferInstance
instance : Closed v V2.SiafundInput := inferInstance
instance : Closed v V2.FileContractRevision := inferInstance
instance : Closed v V2.FileContractRenewal := inferInstance
instance : Closed v V2.StorageProof := inferInstance

namespace V2

instance : Closed v FileContractResolution where
  closed lim bs a r h := by
    rw [dec_resolution] at h
    obtain ⟨p, r1, h1, h2⟩ := bind_eq_ok.mp h
    obtain ⟨t, r2, h3, h4⟩ := bind_eq_ok.mp h2
    have hp := Closed.closed _ _ _ _ h1
    split at h4
    · obtain ⟨x, r3, h5, h6⟩ := bind_eq_ok.mp h4
      simp at h6
      rw [← h6.1]
      exact ⟨hp, Closed.closed _ _ _ _ h5⟩
    split at h4
    · obtain ⟨x, r3, h5, h6⟩ := bind_eq_ok.mp h4
      simp at h6
      rw [← h6.1]
      exact ⟨hp, Closed.closed _ _ _ _ h5⟩
    split at h4
    · simp at h4
      rw [← h4.1]
      exact ⟨hp, trivial⟩
    · simp [Dec.fail] at h4

namespace Transaction

theorem closed_field [Codec v α] [Fits α] [Closed v α] {f m : U64} {lim : Lim} {bs r : List UInt8} {l : List α}
    (h : decodeField f m (dec v) [] lim bs = .ok (l, r)) : fits lim l := by
  unfold decodeField at h
  split at h
  · exact Closed.closed _ _ _ _ h
  · simp at h
    rw [h.1]
    exact ⟨by simp, by simp, by simp⟩

instance : Closed v Transaction where
  closed lim bs a r h := by
    rw [dec_transaction] at h
    obtain ⟨ver, s, h1, h2⟩ := bind_eq_ok.mp h
    split at h2
    · simp [Dec.fail] at h2
    · obtain ⟨f, s, _, h⟩ := bind_eq_ok.mp h2
      unfold decodeRest at h
      obtain ⟨_, _, h0, h⟩ := bind_eq_ok.mp h
      obtain ⟨_, _, h1, h⟩ := bind_eq_ok.mp h
      obtain ⟨_, _, h2, h⟩ := bind_eq_ok.mp h
      obtain ⟨_, _, h3, h⟩ := bind_eq_ok.mp h
      obtain ⟨_, _, h4, h⟩ := bind_eq_ok.mp h
      obtain ⟨_, _, h5, h⟩ := bind_eq_ok.mp h
      obtain ⟨_, _, h6, h⟩ := bind_eq_ok.mp h
      obtain ⟨_, _, h7, h⟩ := bind_eq_ok.mp h
      obtain ⟨_, _, h8, h⟩ := bind_eq_ok.mp h
      obtain ⟨_, _, h9, h⟩ := bind_eq_ok.mp h
      obtain ⟨_, _, h10, h⟩ := bind_eq_ok.mp h
      simp at h
      rw [← h.1]
      exact ⟨closed_field h0, closed_field h1, closed_field h2, closed_field h3, closed_field h4,
        closed_field h5, closed_field h6, closed_field h7, closed_field h8⟩

end Transaction
end V2
end Verif
