import Verif.Spec.Writer
import Verif.Lemmas.Prim

/-!
# Encoding to a failing writer
-/

namespace Verif

open Wr

variable {σ ε : Type} {v : Ver} {α β : Type}

namespace Sink.Took

variable {S : Sink σ ε}

theorem trans {s s' s'' : σ} {a b c : List UInt8} (h : S.Took s a b s') (h' : S.Took s' b c s'') :
    S.Took s a c s'' := by
  induction h with
  | start => exact h'
  | more h1 h2 h3 h4 _ ih => exact .more h1 h2 h3 h4 (ih h')

theorem front_drop {buf todo x : List UInt8} (h : buf <+: todo) (n : Nat) :
    (todo ++ x).drop (min n buf.length) = todo.drop (min n buf.length) ++ x := by
  have := h.length_le
  rw [List.drop_append_of_le_length (by omega)]

theorem append {s s' : σ} {a b : List UInt8} (h : S.Took s a b s') (x : List UInt8) :
    S.Took s (a ++ x) (b ++ x) s' := by
  induction h with
  | start => exact .start _ _
  | more h1 h2 h3 h4 _ ih =>
    refine .more h1 (h2.trans (List.prefix_append _ _)) h3 h4 ?_
    rw [front_drop h2]
    exact ih

/-- What was taken came from the front. -/
theorem split {s s' : σ} {a b : List UInt8} (h : S.Took s a b s') : ∃ p, a = p ++ b := by
  induction h with
  | start => exact ⟨[], rfl⟩
  | @more s s' s'' buf todo left n h1 h2 h3 h4 _ ih =>
    obtain ⟨p, hp⟩ := ih
    refine ⟨todo.take (min n buf.length) ++ p, ?_⟩
    rw [List.append_assoc, ← hp, List.take_append_drop]

end Sink.Took

variable {S : Sink σ ε}

theorem delivers_done : Delivers S done [] := fun s => .inl ⟨s, rfl, .start _ _⟩

theorem Wr.andThen_ok {a b : Wr σ ε} {s s' : σ} {p : List UInt8} (h : a s = ⟨p, s', .ok⟩) :
    (a ?; b) s = ⟨p ++ (b s').taken, (b s').after, (b s').out⟩ := by simp [andThen, h]

theorem Wr.andThen_err {a b : Wr σ ε} {s s' : σ} {p : List UInt8} {e : WriteErr ε} (h : a s = ⟨p, s', .err e⟩) :
    (a ?; b) s = ⟨p, s', .err e⟩ := by simp [andThen, h]

theorem Wr.andThen_panic {a b : Wr σ ε} {s s' : σ} {p : List UInt8} (h : a s = ⟨p, s', .panic⟩) :
    (a ?; b) s = ⟨p, s', .panic⟩ := by simp [andThen, h]

theorem Delivers.andThen {a b : Wr σ ε} {x y : List UInt8} (ha : Delivers S a x) (hb : Delivers S b y) :
    Delivers S (a ?; b) (x ++ y) := by
  intro s
  rcases ha s with ⟨s', h1, h2⟩ | ⟨p, buf, q, s₁, s₂, e, h1, h2, h3, h4⟩
  · rcases hb s' with ⟨s'', h3, h4⟩ | ⟨p, buf, q, s₁, s₂, e, h3, h4, h5, h6⟩
    · left
      exact ⟨s'', by rw [Wr.andThen_ok h1, h3], (h2.append y).trans h4⟩
    · right
      exact ⟨x ++ p, buf, q, s₁, s₂, e, by rw [h3, List.append_assoc], by rw [Wr.andThen_ok h1, h4],
        (h2.append y).trans h5, h6⟩
  · right
    refine ⟨p, buf, q ++ y, s₁, s₂, e, by rw [h1]; simp only [List.append_assoc], Wr.andThen_err h2, ?_, h4⟩
    have := h3.append y
    rwa [List.append_assoc] at this

theorem delivers_forEach {f : α → Wr σ ε} {g : α → List UInt8} (h : ∀ a, Delivers S (f a) (g a)) (l : List α) :
    Delivers S (forEach f l) (l.flatMap g) := by
  induction l with
  | nil => exact delivers_done
  | cons a l ih => exact (h a).andThen ih

theorem delivers_when {c : Bool} {a : Wr σ ε} {x : List UInt8} (h : Delivers S a x) :
    Delivers S (Wr.when c a) (if c then x else []) := by
  cases c with
  | false => exact delivers_done
  | true => exact h

theorem writeAll_nil (s : σ) : writeAll S [] s = ⟨[], s, .ok⟩ := by
  rw [writeAll]; simp

theorem delivers_writeAll (buf : List UInt8) : Delivers S (writeAll S buf) buf := by
  generalize hk : buf.length = k
  induction k using Nat.strongRecOn generalizing buf with
  | ind k ih =>
    intro s
    by_cases hb : buf = []
    · subst hb
      exact .inl ⟨s, writeAll_nil s, .start _ _⟩
    have hlen : buf.length ≠ 0 := by simpa using hb
    rw [writeAll, dif_neg hb]
    match hw : S.write s buf with
    | (s', .error e) =>
      exact .inr ⟨[], buf, [], s, s', .io e, by simp, rfl, by simpa using .start _ _, hb, .inl ⟨e, hw, rfl⟩⟩
    | (s', .ok n) =>
      by_cases hn : n = 0
      · subst hn
        exact .inr ⟨[], buf, [], s, s', .writeZero, by simp, by simp, by simpa using .start _ _, hb, .inr ⟨hw, rfl⟩⟩
      have hd : buf.drop (min n buf.length) = buf.drop n := by
        by_cases h : n ≤ buf.length
        · rw [Nat.min_eq_left h]
        · rw [Nat.min_eq_right (by omega), List.drop_length, List.drop_of_length_le (by omega)]
      simp only [if_neg hn]
      rcases ih (buf.drop n).length (by simp only [List.length_drop]; omega) (buf.drop n) rfl s' with
        ⟨s'', h1, h2⟩ | ⟨p, b, q, s₁, s₂, e, h1, h2, h3, h4⟩
      · left
        refine ⟨s'', by rw [h1]; simp, .more hb (List.prefix_refl _) hw hn ?_⟩
        rw [hd]; exact h2
      · right
        refine ⟨buf.take n ++ p, b, q, s₁, s₂, e, ?_, by rw [h2], .more hb (List.prefix_refl _) hw hn ?_, h4⟩
        · rw [List.append_assoc, ← h1, List.take_append_drop]
        · rw [hd]; exact h3

/-! ## All encoders -/

/-- The writing encoder delivers what `enc` says. -/
class Delivered (v : Ver) (α : Type) [Codec v α] [Writes v α] : Prop where
  delivers : ∀ {σ ε : Type} (S : Sink σ ε) (a : α), Delivers S (emit v S a) (enc v a)

theorem delivers [Codec v α] [Writes v α] [Delivered v α] (a : α) : Delivers S (emit v S a) (enc v a) :=
  Delivered.delivers S a

instance : Delivered v UInt8 := ⟨fun _ _ => delivers_writeAll _⟩
instance : Delivered v Bool := ⟨fun _ _ => delivers_writeAll _⟩
instance : Delivered v U16 := ⟨fun _ _ => delivers_writeAll _⟩
instance : Delivered v U32 := ⟨fun _ _ => delivers_writeAll _⟩
instance : Delivered v U64 := ⟨fun _ _ => delivers_writeAll _⟩
instance : Delivered v Int16 := ⟨fun _ _ => delivers_writeAll _⟩
instance : Delivered v Int32 := ⟨fun _ _ => delivers_writeAll _⟩
instance : Delivered v Int64 := ⟨fun _ _ => delivers_writeAll _⟩
instance {n : Nat} : Delivered v (Arr n) := ⟨fun _ _ => delivers_writeAll _⟩
instance : Delivered v DateTime := ⟨fun _ _ => delivers_writeAll _⟩
instance : Delivered v Duration := ⟨fun _ _ => delivers_writeAll _⟩
instance : Delivered v Work := ⟨fun _ _ => delivers_writeAll _⟩

instance [Codec v α] [Writes v α] [Delivered v α] : Delivered v (List α) :=
  ⟨fun _ l => (delivers (v := v) (BitVec.ofNat 64 l.length : U64)).andThen (delivers_forEach delivers l)⟩

instance [Codec v α] [Writes v α] [Delivered v α] : Delivered v (Option α) where
  delivers _ o := match o with
    | some a => (delivers (v := v) true).andThen (delivers a)
    | none => delivers (v := v) false

instance : Delivered v String := ⟨fun _ s => delivers (v := v) (strBytes s)⟩

instance [Codec v α] [Writes v α] [Delivered v α] [Codec v β] [Writes v β] [Delivered v β] : Delivered v (α × β) :=
  ⟨fun _ p => (delivers p.1).andThen (delivers p.2)⟩

instance (priority := low) [Struct α β] [Codec v β] [Writes v β] [Delivered v β] : Delivered v α :=
  ⟨fun _ a => delivers (v := v) (Struct.fields a)⟩

instance : Delivered v Currency where
  delivers _ c := match v with
    | .v1 => delivers (v := .v1) (stripZeros (beBytes 16 c.val.toNat))
    | .v2 => delivers_writeAll _

instance : Delivered v SiafundOutput where
  delivers _ x := match v with
    | .v1 => (delivers (v := .v1) (Currency.ofU64 x.value)).andThen
        ((delivers (v := .v1) x.address).andThen (delivers (v := .v1) (Currency.mk 0)))
    | .v2 => (delivers (v := .v2) x.value).andThen (delivers (v := .v2) x.address)

instance : Delivered v ChainIndex := inferInstance
instance : Delivered v SiacoinOutput := inferInstance
instance : Delivered v StateElement := inferInstance
instance : Delivered v UnlockKey := inferInstance
instance : Delivered v UnlockConditions := inferInstance
instance : Delivered v V1.SiacoinInput := inferInstance
instance : Delivered v V1.SiafundInput := inferInstance
instance : Delivered v V1.FileContract := inferInstance
instance : Delivered v V1.FileContractRevision := inferInstance
instance : Delivered v V1.StorageProof := inferInstance
instance : Delivered v V1.CoveredFields := inferInstance
instance : Delivered v V1.TransactionSignature := inferInstance
instance : Delivered v V1.Transaction := inferInstance
instance : Delivered v Block := inferInstance

namespace SpendPolicy

mutual

theorem delivers_policy (p : SpendPolicy) : Delivers S (putPolicy S p) (encodePolicy p) := by
  cases p with
  | above h => rw [putPolicy, encodePolicy]; exact (delivers_writeAll _).andThen (delivers h)
  | after t => rw [putPolicy, encodePolicy]; exact (delivers_writeAll _).andThen (delivers_writeAll _)
  | publicKey pk => rw [putPolicy, encodePolicy]; exact (delivers_writeAll _).andThen (delivers pk)
  | hash h => rw [putPolicy, encodePolicy]; exact (delivers_writeAll _).andThen (delivers h)
  | threshold n of =>
    rw [putPolicy, encodePolicy]
    exact (delivers_writeAll _).andThen ((delivers n).andThen ((delivers _).andThen (delivers_policies of)))
  | opaqueAddr a => rw [putPolicy, encodePolicy]; exact (delivers_writeAll _).andThen (delivers a)
  | unlockConditions uc => rw [putPolicy, encodePolicy]; exact (delivers_writeAll _).andThen (delivers uc)

theorem delivers_policies (ps : List SpendPolicy) : Delivers S (putPolicies S ps) (encodePolicies ps) := by
  cases ps with
  | nil => rw [putPolicies, encodePolicies]; exact delivers_done
  | cons p ps => rw [putPolicies, encodePolicies]; exact (delivers_policy p).andThen (delivers_policies ps)

end

end SpendPolicy

instance : Delivered v SpendPolicy :=
  ⟨fun _ p => (delivers (v := .v2) (1 : UInt8)).andThen (SpendPolicy.delivers_policy p)⟩

instance : Delivered v SatisfiedPolicy := inferInstance
instance : Delivered v V2.Attestation := inferInstance
instance : Delivered v V2.FileContract := inferInstance
instance : Delivered v V2.SiacoinElement := inferInstance
instance : Delivered v V2.SiafundElement := inferInstance
instance : Delivered v V2.FileContractElement := inferInstance
instance : Delivered v V2.ChainIndexElement := inferInstance
instance : Delivered v V2.SiacoinInput := inferInstance
instance : Delivered v V2.SiafundInput := inferInstance
instance : Delivered v V2.FileContractRevision := inferInstance
instance : Delivered v V2.FileContractRenewal := inferInstance
instance : Delivered v V2.StorageProof := inferInstance

instance : Delivered v V2.FileContractResolution where
  delivers S x := by
    obtain ⟨parent, resolution⟩ := x
    cases resolution with
    | renewal r => exact (delivers parent).andThen ((delivers (v := v) (0 : UInt8)).andThen (delivers r))
    | storageProof p => exact (delivers parent).andThen ((delivers (v := v) (1 : UInt8)).andThen (delivers p))
    | expiration => exact (delivers parent).andThen (delivers (v := v) (2 : UInt8))

theorem delivers_vec [Codec v α] [Writes v α] [Delivered v α] (l : List α) :
    Delivers S (Wr.when (!l.isEmpty) (emit v S l)) (V2.Transaction.encodeVec (v := v) l) :=
  delivers_when (delivers l)

theorem delivers_opt [Codec v α] [Writes v α] [Delivered v α] (o : Option α) :
    Delivers S (match o with | some a => emit v S a | none => done) (V2.Transaction.encodeOpt (v := v) o) := by
  cases o with
  | none => exact delivers_done
  | some a => exact delivers a

theorem delivers_fee [Codec v α] [Writes v α] [Delivered v α] (p : Prop) [Decidable p] (a : α) :
    Delivers S (Wr.when p (emit v S a)) (if p then enc v a else []) := by
  have := delivers_when (c := decide p) (delivers (S := S) (v := v) a)
  simpa using this

instance : Delivered v V2.Transaction where
  delivers S t := by
    refine (delivers (v := v) (2 : UInt8)).andThen ((delivers (v := v) (V2.Transaction.fieldBits t.present)).andThen ?_)
    refine (delivers_vec _).andThen ((delivers_vec _).andThen ((delivers_vec _).andThen ((delivers_vec _).andThen ?_)))
    refine (delivers_vec _).andThen ((delivers_vec _).andThen ((delivers_vec _).andThen ((delivers_vec _).andThen ?_)))
    refine (delivers_vec _).andThen (Delivers.andThen ?_ (delivers_fee _ _))
    have := delivers_opt (S := S) (v := v) t.newFoundationAddress
    cases h : t.newFoundationAddress with
    | none => rw [h] at this; exact this
    | some a => rw [h] at this; exact this

theorem delivers_slots {present : Nat → Bool} {w : α → Wr σ ε} {e : α → List UInt8}
    (h : ∀ a, Delivers S (w a) (e a)) (l : List α) (i : Nat) :
    Delivers S (putSlots present w i l) (encodeSlots present e i l) := by
  induction l generalizing i with
  | nil => exact delivers_done
  | cons a l ih => exact (delivers_when (h a)).andThen (ih (i + 1))

instance : Delivered v ElementAccumulator :=
  ⟨fun _ a => (delivers (v := v) a.numLeaves).andThen (delivers_slots delivers a.trees.1 0)⟩

/-! ## The encoders used for hashing -/

theorem V1.Transaction.delivers_noSigs (t : V1.Transaction) : Delivers S (t.putNoSigs S) t.encodeNoSigs :=
  (delivers _).andThen ((delivers _).andThen ((delivers _).andThen ((delivers _).andThen ((delivers _).andThen
    ((delivers _).andThen ((delivers _).andThen ((delivers _).andThen (delivers _))))))))

namespace V2

theorem Attestation.delivers_semantics (a : Attestation) : Delivers S (a.putSemantics S) a.encodeSemantics :=
  (delivers _).andThen ((delivers _).andThen ((delivers _).andThen (delivers _)))

theorem FileContract.delivers_semantics (c : FileContract) : Delivers S (c.putSemantics S) c.encodeSemantics :=
  (delivers _).andThen ((delivers _).andThen ((delivers _).andThen ((delivers _).andThen ((delivers _).andThen
    ((delivers _).andThen ((delivers _).andThen ((delivers _).andThen ((delivers _).andThen ((delivers _).andThen
    ((delivers _).andThen ((delivers _).andThen ((delivers _).andThen (delivers _)))))))))))))

theorem ChainIndexElement.delivers_semantics (e : ChainIndexElement) :
    Delivers S (e.putSemantics S) e.encodeSemantics :=
  (delivers _).andThen ((delivers _).andThen ((delivers _).andThen (delivers _)))

theorem FileContractRevision.delivers_semantics (r : FileContractRevision) :
    Delivers S (r.putSemantics S) r.encodeSemantics :=
  (delivers _).andThen r.revision.delivers_semantics

theorem FileContractRenewal.delivers_semantics (r : FileContractRenewal) :
    Delivers S (r.putSemantics S) r.encodeSemantics :=
  r.finalRevision.delivers_semantics.andThen (r.newContract.delivers_semantics.andThen ((delivers _).andThen
    ((delivers _).andThen ((delivers _).andThen (delivers _)))))

theorem StorageProof.delivers_semantics (p : StorageProof) : Delivers S (p.putSemantics S) p.encodeSemantics :=
  p.proofIndex.delivers_semantics.andThen ((delivers _).andThen (delivers _))

theorem FileContractResolution.delivers_semantics (r : FileContractResolution) :
    Delivers S (r.putSemantics S) r.encodeSemantics := by
  obtain ⟨parent, resolution⟩ := r
  cases resolution with
  | renewal r => exact (delivers _).andThen r.delivers_semantics
  | storageProof p => exact (delivers _).andThen p.delivers_semantics
  | expiration => exact (delivers _).andThen delivers_done

theorem delivers_lenThen {e : α → Wr σ ε} {g : α → List UInt8} (h : ∀ a, Delivers S (e a) (g a)) (l : List α) :
    Delivers S (putLenThen S e l) (lenThen g l) :=
  (delivers _).andThen (delivers_forEach h l)

theorem Transaction.delivers_semantics (t : Transaction) : Delivers S (t.putSemantics S) t.encodeSemantics :=
  (delivers_lenThen (fun _ => delivers _) _).andThen ((delivers _).andThen
    ((delivers_lenThen (fun _ => delivers _) _).andThen ((delivers _).andThen
    ((delivers_lenThen FileContract.delivers_semantics _).andThen
    ((delivers_lenThen FileContractRevision.delivers_semantics _).andThen
    ((delivers_lenThen FileContractResolution.delivers_semantics _).andThen
    ((delivers _).andThen ((delivers _).andThen ((delivers _).andThen (delivers _))))))))))

end V2

/-! ## Particular writers -/

theorem Sink.Took.bounded {n n' : Nat} {todo left : List UInt8} (h : Sink.bounded.Took n todo left n') :
    todo.length + n' = left.length + n := by
  induction h with
  | start => omega
  | @more s s' s'' buf todo left n h1 h2 h3 h4 _ ih =>
    have h5 := h2.length_le
    simp only [List.length_drop] at ih
    simp only [Sink.bounded] at h3
    by_cases hs : s = 0
    · rw [if_pos hs] at h3; cases h3
    · rw [if_neg hs] at h3
      cases h3
      omega

theorem Sink.Took.trickle {n n' : Nat} {todo left : List UInt8} (h : Sink.trickle.Took n todo left n') :
    todo.length + n' = left.length + n := by
  induction h with
  | start => omega
  | @more s s' s'' buf todo left n h1 h2 h3 h4 _ ih =>
    have h5 := h2.length_le
    have h6 : buf.length ≠ 0 := by simpa using h1
    simp only [List.length_drop] at ih
    simp only [Sink.trickle] at h3
    by_cases hs : s = 0
    · rw [if_pos hs] at h3; cases h3
    · rw [if_neg hs] at h3
      cases h3
      omega

theorem Sink.Took.vector {a b : List UInt8} {todo left : List UInt8} (h : Sink.vector.Took a todo left b) :
    a ++ todo = b ++ left := by
  induction h with
  | start => rfl
  | @more s s' s'' buf todo left n h1 h2 h3 h4 _ ih =>
    cases h3
    rw [← ih, Nat.min_self, List.append_assoc]
    obtain ⟨t, rfl⟩ := h2
    simp

theorem refuses_bounded {n n' : Nat} {buf : List UInt8} {e : WriteErr Unit}
    (h : Sink.bounded.Refuses n buf e n') : n = 0 ∧ n' = 0 ∧ e = .io () := by
  obtain ⟨h1, h2⟩ := h
  have h6 : buf.length ≠ 0 := by simpa using h1
  by_cases hs : n = 0
  · subst hs
    rcases h2 with ⟨x, h2, h3⟩ | ⟨h2, h3⟩
    · cases h2; exact ⟨rfl, rfl, h3⟩
    · cases h2
  · simp only [Sink.bounded, if_neg hs] at h2
    rcases h2 with ⟨x, h2, h3⟩ | ⟨h2, h3⟩
    · cases h2
    · exfalso
      simp only [Prod.mk.injEq, Except.ok.injEq] at h2
      omega

theorem refuses_trickle {n n' : Nat} {buf : List UInt8} {e : WriteErr Unit}
    (h : Sink.trickle.Refuses n buf e n') : n = 0 ∧ n' = 0 ∧ e = .io () := by
  obtain ⟨h1, h2⟩ := h
  by_cases hs : n = 0
  · subst hs
    rcases h2 with ⟨x, h2, h3⟩ | ⟨h2, h3⟩
    · cases h2; exact ⟨rfl, rfl, h3⟩
    · cases h2
  · simp only [Sink.trickle, if_neg hs] at h2
    rcases h2 with ⟨x, h2, h3⟩ | ⟨h2, h3⟩
    · cases h2
    · cases h2

theorem reliable_vector : Sink.vector.Reliable := by
  intro s buf e s' ⟨h1, h2⟩
  have h6 : buf.length ≠ 0 := by simpa using h1
  rcases h2 with ⟨x, h2, h3⟩ | ⟨h2, h3⟩
  · cases h2
  · simp only [Sink.vector, Prod.mk.injEq, Except.ok.injEq] at h2
    omega

/-- With room for `n` bytes, exactly the first `n` are written. -/
theorem Delivers.bounded {w : Wr Nat Unit} {bs : List UInt8} (h : Delivers Sink.bounded w bs) (n : Nat) :
    w n = if bs.length ≤ n then ⟨bs, n - bs.length, .ok⟩ else ⟨bs.take n, 0, .err (.io ())⟩ := by
  rcases h n with ⟨s', h1, h2⟩ | ⟨p, buf, q, s₁, s₂, e, h1, h2, h3, h4⟩
  · have := h2.bounded
    simp only [List.length_nil] at this
    rw [if_pos (by omega), h1, show n - bs.length = s' by omega]
  · obtain ⟨rfl, rfl, rfl⟩ := refuses_bounded h4
    have hb : buf.length ≠ 0 := by simpa using h4.1
    have := h3.bounded
    rw [h1] at this
    simp only [List.length_append] at this
    have hp : p.length = n := by omega
    rw [h2, if_neg (by rw [h1]; simp only [List.length_append]; omega), h1, ← hp, List.take_left]

theorem Delivers.trickle {w : Wr Nat Unit} {bs : List UInt8} (h : Delivers Sink.trickle w bs) (n : Nat) :
    w n = if bs.length ≤ n then ⟨bs, n - bs.length, .ok⟩ else ⟨bs.take n, 0, .err (.io ())⟩ := by
  rcases h n with ⟨s', h1, h2⟩ | ⟨p, buf, q, s₁, s₂, e, h1, h2, h3, h4⟩
  · have := h2.trickle
    simp only [List.length_nil] at this
    rw [if_pos (by omega), h1, show n - bs.length = s' by omega]
  · obtain ⟨rfl, rfl, rfl⟩ := refuses_trickle h4
    have hb : buf.length ≠ 0 := by simpa using h4.1
    have := h3.trickle
    rw [h1] at this
    simp only [List.length_append] at this
    have hp : p.length = n := by omega
    rw [h2, if_neg (by rw [h1]; simp only [List.length_append]; omega), h1, ← hp, List.take_left]

theorem Delivers.vector {w : Wr (List UInt8) Empty} {bs : List UInt8} (h : Delivers Sink.vector w bs)
    (v : List UInt8) : w v = ⟨bs, v ++ bs, .ok⟩ := by
  rcases h v with ⟨s', h1, h2⟩ | ⟨p, buf, q, s₁, s₂, e, h1, h2, h3, h4⟩
  · rw [h1, h2.vector, List.append_nil]
  · exact absurd h4 (reliable_vector _ _ _ _)

theorem Delivers.reliable {w : Wr σ ε} {bs : List UInt8} (h : Delivers S w bs) (hS : S.Reliable) (s : σ) :
    ∃ s', w s = ⟨bs, s', .ok⟩ ∧ S.Took s bs [] s' := by
  rcases h s with h | ⟨p, buf, q, s₁, s₂, e, h1, h2, h3, h4⟩
  · exact h
  · exact absurd h4 (hS _ _ _ _)

/-! ## State -/

/-- Like `Delivers`, but a refusal becomes a panic. -/
def Bursts (S : Sink σ ε) (w : Wr σ ε) (bs : List UInt8) : Prop :=
  ∀ s,
    (∃ s', w s = ⟨bs, s', .ok⟩ ∧ S.Took s bs [] s') ∨
    (∃ p buf q s₁ s₂ e, bs = p ++ (buf ++ q) ∧ w s = ⟨p, s₂, .panic⟩ ∧ S.Took s bs (buf ++ q) s₁ ∧
      S.Refuses s₁ buf e s₂)

theorem bursts_unwrap {w : Wr σ ε} {bs : List UInt8} (h : Delivers S w bs) : Bursts S w.unwrap bs := by
  intro s
  rcases h s with ⟨s', h1, h2⟩ | ⟨p, buf, q, s₁, s₂, e, h1, h2, h3, h4⟩
  · exact .inl ⟨s', by simp [unwrap, h1], h2⟩
  · exact .inr ⟨p, buf, q, s₁, s₂, e, h1, by simp [unwrap, h2], h3, h4⟩

theorem Bursts.andThen {a b : Wr σ ε} {x y : List UInt8} (ha : Bursts S a x) (hb : Bursts S b y) :
    Bursts S (a ?; b) (x ++ y) := by
  intro s
  rcases ha s with ⟨s', h1, h2⟩ | ⟨p, buf, q, s₁, s₂, e, h1, h2, h3, h4⟩
  · rcases hb s' with ⟨s'', h3, h4⟩ | ⟨p, buf, q, s₁, s₂, e, h3, h4, h5, h6⟩
    · left
      exact ⟨s'', by rw [Wr.andThen_ok h1, h3], (h2.append y).trans h4⟩
    · right
      exact ⟨x ++ p, buf, q, s₁, s₂, e, by rw [h3, List.append_assoc], by rw [Wr.andThen_ok h1, h4],
        (h2.append y).trans h5, h6⟩
  · right
    refine ⟨p, buf, q ++ y, s₁, s₂, e, by rw [h1]; simp only [List.append_assoc], Wr.andThen_panic h2, ?_, h4⟩
    have := h3.append y
    rwa [List.append_assoc] at this

theorem bursts_forEach {f : α → Wr σ ε} {g : α → List UInt8} (h : ∀ a, Delivers S (f a) (g a)) (l : List α) :
    Bursts S (forEach (fun a => (f a).unwrap) l) (l.flatMap g) := by
  induction l with
  | nil => exact fun s => .inl ⟨s, rfl, .start _ _⟩
  | cons a l ih => exact (bursts_unwrap (h a)).andThen ih

theorem encodeSlots_take {e : α → List UInt8} (c : Nat) (l : List α) (i : Nat) :
    encodeSlots (fun i => decide (i < c)) e i l = (l.take (c - i)).flatMap e := by
  induction l generalizing i with
  | nil => simp [encodeSlots]
  | cons a l ih =>
    rw [encodeSlots, ih]
    by_cases h : i < c
    · rw [show c - i = (c - (i + 1)) + 1 by omega]
      simp [h]
    · rw [show c - i = 0 by omega, show c - (i + 1) = 0 by omega]
      simp [h]

/-- The outcome of code whose failures in the middle part are panics. -/
theorem delivers_sandwich {a b c : Wr σ ε} {x y z : List UInt8} (ha : Delivers S a x) (hb : Bursts S b y)
    (hc : Delivers S c z) (s : σ) :
    (∃ s', (a ?; b ?; c) s = ⟨x ++ (y ++ z), s', .ok⟩ ∧ S.Took s (x ++ (y ++ z)) [] s') ∨
    (∃ p buf q s₁ s₂ e, x ++ (y ++ z) = p ++ (buf ++ q) ∧
      (a ?; b ?; c) s = ⟨p, s₂, if x.length ≤ p.length ∧ p.length < x.length + y.length then .panic else .err e⟩ ∧
      S.Took s (x ++ (y ++ z)) (buf ++ q) s₁ ∧ S.Refuses s₁ buf e s₂) := by
  rcases ha s with ⟨s1, h1, h2⟩ | ⟨p, buf, q, s₁, s₂, e, h1, h2, h3, h4⟩
  · rcases hb s1 with ⟨s2, h3, h4⟩ | ⟨p, buf, q, s₁, s₂, e, h3, h4, h5, h6⟩
    · rcases hc s2 with ⟨s3, h5, h6⟩ | ⟨p, buf, q, s₁, s₂, e, h5, h6, h7, h8⟩
      · left
        refine ⟨s3, by rw [Wr.andThen_ok h1, Wr.andThen_ok h3, h5], ?_⟩
        exact (h2.append _).trans ((h4.append _).trans h6)
      · right
        refine ⟨x ++ (y ++ p), buf, q, s₁, s₂, e, by rw [h5]; simp only [List.append_assoc], ?_,
          (h2.append _).trans ((h4.append _).trans h7), h8⟩
        rw [Wr.andThen_ok h1, Wr.andThen_ok h3, h6, if_neg (by simp only [List.length_append]; omega)]
    · right
      have hb : buf.length ≠ 0 := by simpa using h6.1
      refine ⟨x ++ p, buf, q ++ z, s₁, s₂, e, by rw [h3]; simp only [List.append_assoc], ?_, ?_, h6⟩
      · rw [Wr.andThen_ok h1, Wr.andThen_panic h4, if_pos]
        rw [h3]; simp only [List.length_append]; omega
      · have := h5.append z
        rw [List.append_assoc] at this
        exact (h2.append _).trans this
  · right
    have hb : buf.length ≠ 0 := by simpa using h4.1
    refine ⟨p, buf, q ++ (y ++ z), s₁, s₂, e, by rw [h1]; simp only [List.append_assoc], ?_, ?_, h4⟩
    · rw [Wr.andThen_err h2, if_neg]
      rw [h1]; simp only [List.length_append]; omega
    · have := h3.append (y ++ z)
      rwa [List.append_assoc] at this

theorem State.encode_eq {m : Mode} {s : State} {bs : List UInt8} (h : s.encode m = .ok bs) :
    ∃ count, timestampsCount m s.index = .ok count ∧ count = min 11 ((s.index.height.toNat + 1) % 2 ^ 64) ∧
      bs = enc .v2 s.index ++ ((s.prevTimestamps.1.take count).flatMap (enc .v2) ++ enc .v2 s.tail) := by
  unfold State.encode at h
  cases hc : timestampsCount m s.index with
  | ok count =>
    rw [hc] at h
    refine ⟨count, rfl, ?_, ?_⟩
    · have key : ∀ c : U64, s.index.childHeight m = .ok c → c.toNat = (s.index.height.toNat + 1) % 2 ^ 64 := by
        intro c hc
        have h1 : c = s.index.height + 1 := by
          unfold ChainIndex.childHeight addU at hc
          cases m with
          | checked =>
            simp only at hc
            by_cases hlt : s.index.height.toNat + (1 : U64).toNat < 2 ^ 64
            · rw [if_pos hlt] at hc; exact (Res.ok.inj hc).symm
            · rw [if_neg hlt] at hc; cases hc
          | unchecked => exact (Res.ok.inj hc).symm
        rw [h1, BitVec.toNat_add]
        rfl
      unfold timestampsCount at hc
      cases hh : s.index.childHeight m with
      | ok c =>
        rw [hh] at hc
        have h1 : (if c.toNat < 11 then c.toNat else 11) = count := Res.ok.inj hc
        rw [← key c hh, ← h1]
        by_cases h11 : c.toNat < 11
        · rw [if_pos h11]; omega
        · rw [if_neg h11]; omega
      | err e => rw [hh] at hc; cases hc
      | panic => rw [hh] at hc; cases hc
    · have : enc .v2 s.index ++ (encodeSlots (fun i => decide (i < count)) (enc .v2) 0 s.prevTimestamps.1 ++
          enc .v2 s.tail) = bs := Res.ok.inj h
      rw [← this, encodeSlots_take]
      rfl
  | err e => rw [hc] at h; cases h
  | panic => rw [hc] at h; cases h

theorem timestamps_length (l : List DateTime) : (l.flatMap (enc .v2)).length = 8 * l.length := by
  induction l with
  | nil => rfl
  | cons a l ih =>
    have : (enc .v2 a).length = 8 := leBytes_length _ _
    rw [List.flatMap_cons, List.length_append, ih, this]
    simp only [List.length_cons]
    omega

theorem chainIndex_length (i : ChainIndex) : (enc .v2 i).length = 40 := by
  have h1 : (enc .v2 i.height).length = 8 := leBytes_length _ _
  have h2 : (enc .v2 i.id).length = 32 := i.id.2
  show (enc .v2 i.height ++ enc .v2 i.id).length = 40
  rw [List.length_append, h1, h2]

theorem State.put_cases {m : Mode} {s : State} {bs : List UInt8} (h : s.encode m = .ok bs) (S : Sink σ ε) (w : σ) :
    (∃ w', s.put m S w = ⟨bs, w', .ok⟩ ∧ S.Took w bs [] w') ∨
    (∃ p buf q w₁ w₂ e, bs = p ++ (buf ++ q) ∧
      s.put m S w = ⟨p, w₂,
        if 40 ≤ p.length ∧ p.length < 40 + 8 * min 11 ((s.index.height.toNat + 1) % 2 ^ 64) then .panic else .err e⟩ ∧
      S.Took w bs (buf ++ q) w₁ ∧ S.Refuses w₁ buf e w₂) := by
  obtain ⟨count, hc, hn, rfl⟩ := State.encode_eq h
  have := delivers_sandwich (S := S) (delivers (v := .v2) s.index)
    (bursts_forEach (fun t => delivers (v := .v2) t) (s.prevTimestamps.1.take count)) (delivers (v := .v2) s.tail) w
  rw [chainIndex_length, timestamps_length, List.length_take, s.prevTimestamps.2,
    show min count 11 = count by omega, hn] at this
  rw [← hn] at this ⊢
  unfold State.put
  rw [hc]
  exact this

theorem State.delivers_repaired {m : Mode} {s : State} {bs : List UInt8} (h : s.encode m = .ok bs) (S : Sink σ ε) :
    Delivers S (s.putRepaired m S) bs := by
  obtain ⟨count, hc, hn, rfl⟩ := State.encode_eq h
  unfold State.putRepaired
  rw [hc]
  exact (delivers (v := .v2) s.index).andThen ((delivers_forEach (fun t => delivers (v := .v2) t) _).andThen (delivers _))

end Verif
