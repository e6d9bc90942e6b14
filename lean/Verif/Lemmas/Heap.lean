import Verif.Spec.Heap
import Verif.Lemmas.Memory

/-!
# Lemmas on the memory that a value occupies
-/

namespace Verif

variable {v : Ver} {α β : Type} {A : Alloc} {n k : Nat}

/-- After `k` bytes have been asked for, a decoder brings the account to `h` of its result. -/
def Pays (d : Met α) (k : Nat) (h : α → Nat) : Prop := ∀ M bs a r, (d M bs).2 = .ok (a, r) → k + (d M bs).1 = h a

theorem Pays.pure {a : α} {h : α → Nat} (e : k = h a) : Pays (Pure.pure a) k h := by
  intro M bs b r hr
  cases hr
  exact e

theorem Pays.fail (e : Err) (h : α → Nat) : Pays (Met.fail e) k h := fun _ _ _ _ hr => by cases hr

theorem Pays.crash (h : α → Nat) : Pays Met.crash k h := fun _ _ _ _ hr => by cases hr

theorem Pays.quiet (d : Dec α) : Pays (Met.quiet d) 0 fun _ => 0 := fun _ _ _ _ _ => rfl

theorem Pays.bind {d : Met α} {f : α → Met β} {h : α → Nat} {g : β → Nat} (hd : Pays d 0 h) (hf : ∀ a, Pays (f a) (k + h a) g) :
    Pays (d >>= f) k g := by
  intro M bs b r hr
  rw [Met.bind_def] at hr ⊢
  have hd := hd M bs
  rcases hdm : d M bs with ⟨c, ⟨a, r'⟩ | e | _⟩ <;> rw [hdm] at hr hd
  · have := hf a M r' b r hr
    have h1 := hd a r' rfl
    dsimp only at h1 ⊢
    omega
  · cases hr
  · cases hr

theorem Pays.ite {c : Prop} [Decidable c] {d e : Met α} {h : α → Nat} (hd : Pays d k h) (he : Pays e k h) : Pays (if c then d else e) k h := by
  split
  · exact hd
  · exact he

/-- The account brought to the heap of the result. -/
theorem Pays.map {d : Met α} {h : α → Nat} {f : α → β} {g : β → Nat} (hd : Pays d 0 h) (e : ∀ a, k + h a = g (f a)) :
    Pays (d >>= fun a => Pure.pure (f a)) k g := hd.bind fun a => Pays.pure (e a)

theorem Pays.metN {d : Met α} {h : α → Nat} (hd : Pays d 0 h) : ∀ n M bs l r, (metN d n M bs).2 = .ok (l, r) →
    l.length = n ∧ (metN d n M bs).1 = (l.map h).sum := by
  intro n
  induction n with
  | zero =>
    intro M bs l r hr
    cases hr
    exact ⟨rfl, rfl⟩
  | succ n ih =>
    intro M bs l r hr
    rw [Verif.metN, Met.bind_def] at hr ⊢
    have hd := hd M bs
    rcases hdm : d M bs with ⟨c, ⟨a, r'⟩ | e | _⟩ <;> rw [hdm] at hr hd
    · dsimp only at hr ⊢
      rw [Met.bind_def] at hr ⊢
      have ih := ih M r'
      rcases hnm : Verif.metN d n M r' with ⟨c', ⟨l', r''⟩ | e | _⟩ <;> rw [hnm] at hr ih
      · cases hr
        obtain ⟨h1, h2⟩ := ih l' r rfl
        have h3 := hd a r' rfl
        dsimp only at h2 h3
        refine ⟨by rw [List.length_cons, h1], ?_⟩
        rw [List.map_cons, List.sum_cons, ← h2]
        show c + (c' + 0) = _
        omega
      · cases hr
      · cases hr
    · cases hr
    · cases hr

theorem Pays.vec {d : Met α} {h : α → Nat} {size : Nat} (hg : A.grow = false) (hd : Pays d 0 h) : Pays (metVec A size d n) 0 (heapVec size h) := by
  intro M bs l r hr
  rw [metVec, if_neg (by simp [hg])] at hr ⊢
  by_cases hb : n * size ≤ M.bytes
  · rw [Met.ask_bind_ok hb] at hr ⊢
    obtain ⟨h1, h2⟩ := hd.metN n M bs l r hr
    dsimp only
    rw [h2, heapVec, h1]
    omega
  · rw [Met.ask_bind_panic hb] at hr
    cases hr

/-- A type whose decoder asks for the heap of its result. -/
class Paid (v : Ver) (α : Type) [Metered v α] [Held α] : Prop where
  paid : ∀ A, A.grow = false → Pays (met v A : Met α) 0 (heap A)

/-- A type of elements whose size the decoder of vectors knows. -/
class Fitted (α : Type) [ElemSize α] [Held α] : Prop where
  same : ∀ A, ElemSize.size α A = Held.inline α A

instance : Fitted UInt8 := ⟨fun _ => rfl⟩
instance : Fitted U64 := ⟨fun _ => rfl⟩
instance : Fitted Currency := ⟨fun _ => rfl⟩
instance : Fitted (Arr 32) := ⟨fun _ => rfl⟩
instance : Fitted (Arr 64) := ⟨fun _ => rfl⟩
instance [Held α] : Fitted (List α) := ⟨fun _ => rfl⟩
instance : Fitted SiacoinOutput := ⟨fun _ => rfl⟩
instance : Fitted SiafundOutput := ⟨fun _ => rfl⟩
instance : Fitted UnlockKey := ⟨fun _ => rfl⟩
instance : Fitted SpendPolicy := ⟨fun _ => rfl⟩
instance : Fitted V1.SiacoinInput := ⟨fun _ => rfl⟩
instance : Fitted V1.SiafundInput := ⟨fun _ => rfl⟩
instance : Fitted V1.FileContract := ⟨fun _ => rfl⟩
instance : Fitted V1.FileContractRevision := ⟨fun _ => rfl⟩
instance : Fitted V1.StorageProof := ⟨fun _ => rfl⟩
instance : Fitted V1.TransactionSignature := ⟨fun _ => rfl⟩
instance : Fitted V1.Transaction := ⟨fun _ => rfl⟩
instance : Fitted V2.SiacoinInput := ⟨fun _ => rfl⟩
instance : Fitted V2.SiafundInput := ⟨fun _ => rfl⟩
instance : Fitted V2.FileContract := ⟨fun _ => rfl⟩
instance : Fitted V2.FileContractRevision := ⟨fun _ => rfl⟩
instance : Fitted V2.FileContractResolution := ⟨fun _ => rfl⟩
instance : Fitted V2.Attestation := ⟨fun _ => rfl⟩

instance : Paid v UInt8 := ⟨fun _ _ => Pays.quiet _⟩
instance : Paid v Bool := ⟨fun _ _ => Pays.quiet _⟩
instance : Paid v U64 := ⟨fun _ _ => Pays.quiet _⟩
instance {n : Nat} : Paid v (Arr n) := ⟨fun _ _ => Pays.quiet _⟩
instance : Paid v Currency := ⟨fun _ _ => Pays.quiet _⟩
instance : Paid v DateTime := ⟨fun _ _ => Pays.quiet _⟩
instance : Paid v Duration := ⟨fun _ _ => Pays.quiet _⟩
instance : Paid v Work := ⟨fun _ _ => Pays.quiet _⟩
instance : Paid v SiafundOutput := ⟨fun _ _ => Pays.quiet _⟩
instance : Paid v ElementAccumulator := ⟨fun _ _ => Pays.quiet _⟩

instance [ElemSize α] [Held α] [hs : Fitted α] [Metered v α] [h : Paid v α] : Paid v (List α) where
  paid A hg := Pays.bind (h := fun _ => 0) (Pays.quiet _) fun len => by
    rw [hs.same]
    exact Pays.vec hg (h.paid A hg)

instance [Held α] [Metered v α] [h : Paid v α] : Paid v (Option α) where
  paid A hg := Pays.bind (h := fun _ => 0) (Pays.quiet _) fun _ =>
    Pays.ite ((h.paid A hg).map fun _ => Nat.zero_add _) (Pays.pure rfl)

theorem heapVec_zero {size : Nat} (l : List α) : heapVec size (fun _ => 0) l = size * l.length := by
  rw [heapVec, show (l.map fun _ => 0).sum = 0 by induction l with
    | nil => rfl
    | cons a l ih => rw [List.map_cons, List.sum_cons, ih], Nat.mul_comm]
  rfl

theorem heap_bytes (l : List UInt8) : heap A l = l.length := (heapVec_zero (size := 1) l).trans (Nat.one_mul _)
theorem heap_u64 (l : List U64) : heap A l = 8 * l.length := heapVec_zero l
theorem heap_currency (l : List Currency) : heap A l = 16 * l.length := heapVec_zero l
theorem heap_hashes (l : List (Arr 32)) : heap A l = 32 * l.length := heapVec_zero l
theorem heap_signatures (l : List (Arr 64)) : heap A l = 64 * l.length := heapVec_zero l
theorem heap_siacoinOutputs (l : List SiacoinOutput) : heap A l = A.size "SiacoinOutput" * l.length := heapVec_zero l
theorem heap_siafundOutputs (l : List SiafundOutput) : heap A l = A.size "SiafundOutput" * l.length := heapVec_zero l
theorem heap_fileContracts (l : List V2.FileContract) : heap A l = A.size "v2::FileContract" * l.length := heapVec_zero l
theorem heap_data (l : List (List UInt8)) : heap A l = 24 * l.length + (l.map List.length).sum := by
  show heapVec 24 (heap A) l = _
  rw [heapVec, Nat.mul_comm, show (heap A : List UInt8 → Nat) = List.length from funext heap_bytes]

instance : Paid v String where
  paid A hg := by
    refine Pays.bind (h := heap A) (Paid.paid (α := List UInt8) A hg) fun buf => ?_
    cases hs : strOfBytes buf with
    | some s =>
      refine Pays.pure ?_
      have h := strBytes_of_strOfBytes hs
      rw [Nat.zero_add, heap_bytes, ← h]
      show s.toByteArray.data.toList.length = s.utf8ByteSize
      rw [Array.length_toList]
      rfl
    | none => exact Pays.fail _ _

instance [Held α] [Held β] : Held (α × β) where
  heap A p := heap A p.1 + heap A p.2

instance [Metered v α] [Held α] [h : Paid v α] [Metered v β] [Held β] [h' : Paid v β] : Paid v (α × β) where
  paid A hg := Pays.bind (h.paid A hg) fun a => (h'.paid A hg).map fun b => by
    rw [Nat.zero_add]
    rfl

/-- A derived decoder. -/
theorem paid_struct [Struct α β] [Metered v β] [Held β] [Held α] [h : Paid v β] (e : ∀ A (b : β), heap A b = heap A (Struct.build b : α)) (A : Alloc)
    (hg : A.grow = false) : Pays (do let b ← (met v A : Met β); pure (Struct.build b : α)) 0 (heap A) :=
  (h.paid A hg).map fun b => by rw [Nat.zero_add]; exact e A b

instance : Paid v ChainIndex := ⟨paid_struct fun _ _ => rfl⟩
instance : Paid v SiacoinOutput := ⟨paid_struct fun _ _ => rfl⟩

theorem heap_pair [Held α] [Held β] (p : α × β) : heap A p = heap A p.1 + heap A p.2 := rfl
theorem heap_nil [Held α] : heap A ([] : List α) = 0 := Nat.zero_mul _
theorem heap_u8 (x : UInt8) : heap A x = 0 := rfl
theorem heap_bool (x : Bool) : heap A x = 0 := rfl
theorem heap_num (x : U64) : heap A x = 0 := rfl
theorem heap_arr {n : Nat} (x : Arr n) : heap A x = 0 := rfl
theorem heap_cur (x : Currency) : heap A x = 0 := rfl
theorem heap_date (x : DateTime) : heap A x = 0 := rfl
theorem heap_sco (x : SiacoinOutput) : heap A x = 0 := rfl
theorem heap_sfo (x : SiafundOutput) : heap A x = 0 := rfl
theorem heap_index (x : ChainIndex) : heap A x = 0 := rfl
theorem heap_contract (x : V2.FileContract) : heap A x = 0 := rfl

instance : Paid v StateElement := ⟨paid_struct fun A b => by
  show heap A b.1 + heap A b.2 = 32 * b.2.length
  rw [heap_hashes, heap_num, Nat.zero_add]⟩
instance : Paid v UnlockKey := ⟨paid_struct fun A b => by
  show heap A b.1 + heap A b.2 = b.2.length
  rw [heap_bytes, heap_arr, Nat.zero_add]⟩
instance : Paid v UnlockConditions := ⟨paid_struct fun A b => by
  show heap A b.1 + (heap A b.2.1 + heap A b.2.2) = heap A b.2.1
  simp only [heap_num, Nat.zero_add, Nat.add_zero]⟩
instance : Paid v V1.SiacoinInput := ⟨paid_struct fun A b => by
  show heap A b.1 + heap A b.2 = heap A b.2
  simp only [heap_arr, Nat.zero_add]⟩
instance : Paid v V1.SiafundInput := ⟨paid_struct fun A b => by
  show heap A b.1 + (heap A b.2.1 + heap A b.2.2) = heap A b.2.1
  simp only [heap_arr, Nat.zero_add, Nat.add_zero]⟩
instance : Paid v V1.FileContract := ⟨paid_struct fun A b => by
  obtain ⟨b1, b2, b3, b4, b5, b6, b7, b8, b9⟩ := b
  simp only [heap_pair, heap_num, heap_arr, heap_cur, heap_siacoinOutputs]
  show _ = A.size "SiacoinOutput" * (b6.length + b7.length)
  rw [Nat.mul_add]
  omega⟩
instance : Paid v V1.FileContractRevision := ⟨paid_struct fun A b => by
  obtain ⟨b1, b2, b3, b4, b5, b6, b7, b8, b9, b10⟩ := b
  simp only [heap_pair, heap_num, heap_arr, heap_siacoinOutputs]
  show _ = heap A b2 + A.size "SiacoinOutput" * (b8.length + b9.length)
  rw [Nat.mul_add]
  omega⟩
instance : Paid v V1.StorageProof := ⟨paid_struct fun A b => by
  show heap A b.1 + (heap A b.2.1 + heap A b.2.2) = 32 * b.2.2.length
  simp only [heap_arr, heap_hashes, Nat.zero_add]⟩
instance : Paid v V1.CoveredFields := ⟨paid_struct fun A b => by
  obtain ⟨b1, b2, b3, b4, b5, b6, b7, b8, b9, b10, b11⟩ := b
  simp only [heap_pair, heap_bool, heap_u64]
  show _ = 8 * (b2.length + b3.length + b4.length + b5.length + b6.length + b7.length + b8.length + b9.length + b10.length + b11.length)
  omega⟩
instance : Paid v V1.TransactionSignature := ⟨paid_struct fun A b => by
  obtain ⟨b1, b2, b3, b4, b5⟩ := b
  simp only [heap_pair, heap_num, heap_arr, heap_bytes]
  show _ = heap A b4 + b5.length
  omega⟩
instance : Paid v V1.Transaction := ⟨paid_struct fun A b => by
  obtain ⟨b1, b2, b3, b4, b5, b6, b7, b8, b9, b10⟩ := b
  simp only [heap_pair, heap_siacoinOutputs, heap_siafundOutputs, heap_currency, heap_data]
  show _ = heap A b1 + A.size "SiacoinOutput" * b2.length + heap A b3 + heap A b4 + heap A b5 + heap A b6 + A.size "SiafundOutput" * b7.length +
    16 * b8.length + (24 * b9.length + (b9.map List.length).sum) + heap A b10
  omega⟩
instance : Paid v Block := ⟨paid_struct fun A b => by
  obtain ⟨b1, b2, b3, b4, b5⟩ := b
  simp only [heap_pair, heap_num, heap_arr, heap_date, heap_siacoinOutputs]
  show _ = A.size "SiacoinOutput" * b4.length + heap A b5
  omega⟩

theorem SpendPolicy.pays (hg : A.grow = false) : ∀ k, Pays (SpendPolicy.metPolicy A k) 0 (SpendPolicy.heap A) := by
  intro k
  induction k with
  | zero => exact Pays.crash _
  | succ k ih =>
    unfold SpendPolicy.metPolicy
    refine Pays.bind (Paid.paid (v := .v2) (α := UInt8) A hg) fun ty => ?_
    refine Pays.ite ((Paid.paid (v := .v2) (α := U64) A hg).map fun _ => by rw [SpendPolicy.heap]; rfl) ?_
    refine Pays.ite ?_ ?_
    · refine Pays.bind (Paid.paid (v := .v2) (α := U64) A hg) fun secs => ?_
      cases DateTime.fromUnix secs.toInt with
      | some t => exact Pays.pure (by rw [SpendPolicy.heap]; rfl)
      | none => exact Pays.fail _ _
    refine Pays.ite ((Paid.paid (v := .v2) (α := PublicKey) A hg).map fun _ => by rw [SpendPolicy.heap]; rfl) ?_
    refine Pays.ite ((Paid.paid (v := .v2) (α := Hash256) A hg).map fun _ => by rw [SpendPolicy.heap]; rfl) ?_
    refine Pays.ite ?_ ?_
    · refine Pays.bind (Paid.paid (v := .v2) (α := UInt8) A hg) fun of => ?_
      refine Pays.bind (Paid.paid (v := .v2) (α := UInt8) A hg) fun n => ?_
      refine Pays.map (Pays.vec hg ih) fun l => ?_
      rw [SpendPolicy.heap, heapVec, List.map_attach_eq_pmap, List.pmap_eq_map]
      exact Nat.zero_add _
    refine Pays.ite ((Paid.paid (v := .v2) (α := Address) A hg).map fun _ => by rw [SpendPolicy.heap]; rfl) ?_
    refine Pays.ite ((Paid.paid (v := .v2) (α := UnlockConditions) A hg).map fun _ => by rw [SpendPolicy.heap]; exact Nat.zero_add _) (Pays.fail _ _)

instance : Paid v SpendPolicy where
  paid A hg := by
    refine Pays.bind (Paid.paid (v := .v2) (α := UInt8) A hg) fun ver => Pays.ite (Pays.fail _ _) ?_
    exact fun M => SpendPolicy.pays hg M.stack M

instance : Paid v SatisfiedPolicy := ⟨paid_struct fun A b => by
  obtain ⟨b1, b2, b3⟩ := b
  simp only [heap_pair, heap_signatures, heap_hashes]
  show _ = heap A b1 + 64 * b2.length + 32 * b3.length
  omega⟩
instance : Paid v V2.Attestation := ⟨paid_struct fun A b => by
  obtain ⟨b1, b2, b3, b4⟩ := b
  simp only [heap_pair, heap_arr, heap_bytes]
  show 0 + (b2.utf8ByteSize + (b3.length + 0)) = b2.utf8ByteSize + b3.length
  omega⟩
instance : Paid v V2.FileContract := ⟨paid_struct fun _ _ => rfl⟩
instance : Paid v V2.SiacoinElement := ⟨paid_struct fun _ _ => rfl⟩
instance : Paid v V2.SiafundElement := ⟨paid_struct fun _ _ => rfl⟩
instance : Paid v V2.FileContractElement := ⟨paid_struct fun _ _ => rfl⟩
instance : Paid v V2.ChainIndexElement := ⟨paid_struct fun _ _ => rfl⟩
instance : Paid v V2.SiacoinInput := ⟨paid_struct fun _ _ => rfl⟩
instance : Paid v V2.SiafundInput := ⟨paid_struct fun A b => by
  obtain ⟨b1, b2, b3⟩ := b
  simp only [heap_pair, heap_arr]
  show _ = heap A b1 + heap A b3
  omega⟩
instance : Paid v V2.FileContractRevision := ⟨paid_struct fun _ _ => rfl⟩
instance : Paid v V2.FileContractRenewal := ⟨paid_struct fun _ _ => rfl⟩
instance : Paid v V2.StorageProof := ⟨paid_struct fun A b => by
  obtain ⟨b1, b2, b3⟩ := b
  simp only [heap_pair, heap_arr, heap_hashes]
  show _ = heap A b1 + 32 * b3.length
  omega⟩

instance : Paid v V2.FileContractResolution where
  paid A hg := by
    refine Pays.bind (Paid.paid (α := V2.FileContractElement) A hg) fun p => ?_
    refine Pays.bind (Paid.paid (α := UInt8) A hg) fun tag => ?_
    refine Pays.ite ((Paid.paid (α := V2.FileContractRenewal) A hg).map fun r => ?_) ?_
    · rw [Nat.zero_add]; rfl
    refine Pays.ite ((Paid.paid (α := V2.StorageProof) A hg).map fun r => ?_) ?_
    · rw [Nat.zero_add]; rfl
    exact Pays.ite (Pays.pure (by rw [Nat.zero_add]; rfl)) (Pays.fail _ _)

theorem Pays.field {d : Met α} {h : α → Nat} (hd : Pays d 0 h) (fields mask : U64) {a : α} (ha : h a = 0) : Pays (metField fields mask d a) 0 h :=
  Pays.ite hd (Pays.pure ha.symm)

instance : Paid v V2.Transaction where
  paid A hg := by
    refine Pays.bind (Paid.paid (α := UInt8) A hg) fun ver => Pays.ite (Pays.fail _ _) ?_
    refine Pays.bind (Paid.paid (α := U64) A hg) fun fields => ?_
    refine Pays.bind (Pays.field (Paid.paid (α := List V2.SiacoinInput) A hg) _ _ heap_nil) fun b1 => ?_
    refine Pays.bind (Pays.field (Paid.paid (α := List SiacoinOutput) A hg) _ _ heap_nil) fun b2 => ?_
    refine Pays.bind (Pays.field (Paid.paid (α := List V2.SiafundInput) A hg) _ _ heap_nil) fun b3 => ?_
    refine Pays.bind (Pays.field (Paid.paid (α := List SiafundOutput) A hg) _ _ heap_nil) fun b4 => ?_
    refine Pays.bind (Pays.field (Paid.paid (α := List V2.FileContract) A hg) _ _ heap_nil) fun b5 => ?_
    refine Pays.bind (Pays.field (Paid.paid (α := List V2.FileContractRevision) A hg) _ _ heap_nil) fun b6 => ?_
    refine Pays.bind (Pays.field (Paid.paid (α := List V2.FileContractResolution) A hg) _ _ heap_nil) fun b7 => ?_
    refine Pays.bind (Pays.field (Paid.paid (α := List V2.Attestation) A hg) _ _ heap_nil) fun b8 => ?_
    refine Pays.bind (Pays.field (Paid.paid (α := List UInt8) A hg) _ _ heap_nil) fun b9 => ?_
    refine Pays.bind (h := fun _ => 0) (Pays.field (Pays.map (f := some) (g := fun _ => 0) (Paid.paid (α := Address) A hg) fun _ => rfl) _ _ rfl) fun b10 => ?_
    refine Pays.map (Pays.field (Paid.paid (α := Currency) A hg) _ _ rfl) fun b11 => ?_
    simp only [heap_siacoinOutputs, heap_siafundOutputs, heap_fileContracts, heap_bytes, heap_u8, heap_num, heap_cur]
    show _ = heap A b1 + A.size "SiacoinOutput" * b2.length + heap A b3 + A.size "SiafundOutput" * b4.length + A.size "v2::FileContract" * b5.length +
      heap A b6 + heap A b7 + heap A b8 + b9.length
    omega

theorem costsItsHeap [Metered v α] [Held α] [h : Paid v α] : CostsItsHeap v α := fun A M bs r a hg hr =>
  (Nat.zero_add _).symm.trans (h.paid A hg M bs a r hr)

end Verif
