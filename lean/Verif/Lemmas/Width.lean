import Verif.Model.Width
import Verif.Spec.Width
import Verif.Lemmas.V2

/-!
# Lemmas on the decoders with another conversion to `usize`
-/

namespace Verif

open Dec

variable {v : Ver} {α β : Type}

/-! ## On 64-bit targets -/

/-- With the 64-bit conversion it is the decoder of the rest of the model. -/
class Same (v : Ver) (α : Type) [Codec v α] [Widths v α] : Prop where
  same : (decAs v .wide : Dec α) = dec v

theorem decUsize_wide : decUsize .wide = numDecode 64 := by
  funext lim bs
  show Dec.bind _ _ lim bs = _
  unfold Dec.bind
  split <;> next h => exact h.symm

theorem decVec_wide (d : Dec α) : decVec .wide d = (numDecode 64 >>= fun len => Dec.reserve len.toNat >>= fun _ => decodeN d len.toNat) := by
  unfold decVec
  rw [decUsize_wide]

instance : Same v UInt8 := ⟨rfl⟩
instance : Same v Bool := ⟨rfl⟩
instance : Same v U64 := ⟨rfl⟩
instance {n : Nat} : Same v (Arr n) := ⟨rfl⟩
instance : Same v DateTime := ⟨rfl⟩
instance : Same v Duration := ⟨rfl⟩
instance : Same v Work := ⟨rfl⟩

instance [Codec v α] [Widths v α] [h : Same v α] : Same v (List α) where
  same := by
    show decVec .wide (decAs v .wide) = _
    rw [decVec_wide, h.same]
    rfl

instance [Codec v α] [Widths v α] [h : Same v α] : Same v (Option α) where
  same := by
    show (_ >>= fun has : Bool => if has = true then (decAs v .wide >>= fun a => pure (some a)) else pure none) = _
    rw [h.same]
    rfl

instance : Same v String where
  same := by
    show ((decAs v .wide : Dec (List UInt8)) >>= _) = _
    rw [Same.same]
    rfl

instance [Codec v α] [Widths v α] [h : Same v α] [Codec v β] [Widths v β] [h' : Same v β] : Same v (α × β) where
  same := by
    show (decAs v .wide >>= fun a => decAs v .wide >>= fun b => pure (a, b)) = _
    rw [h.same, h'.same]
    rfl

instance (priority := low) [Struct α β] [Codec v β] [Widths v β] [h : Same v β] : Same v α where
  same := by
    show (decAs v .wide >>= fun b => pure (Struct.build b)) = _
    rw [h.same]
    rfl

instance : Same v Currency where
  same := by
    cases v with
    | v1 =>
      show (decUsize .wide >>= _) = _
      rw [decUsize_wide]
      rfl
    | v2 => rfl

instance : Same v SiafundOutput where
  same := by
    cases v with
    | v1 =>
      show ((decAs .v1 .wide : Dec Currency) >>= fun c => match c.toU64? with
        | none => Dec.fail .custom
        | some value => (decAs .v1 .wide : Dec Address) >>= fun address => (decAs .v1 .wide : Dec Currency) >>= fun _ =>
          pure (⟨value, address⟩ : SiafundOutput)) = _
      simp only [Same.same]
      rfl
    | v2 => rfl

instance : Same v ChainIndex := inferInstance
instance : Same v SiacoinOutput := inferInstance
instance : Same v StateElement := inferInstance
instance : Same v UnlockKey := inferInstance
instance : Same v UnlockConditions := inferInstance
instance : Same v V1.SiacoinInput := inferInstance
instance : Same v V1.SiafundInput := inferInstance
instance : Same v V1.FileContract := inferInstance
instance : Same v V1.FileContractRevision := inferInstance
instance : Same v V1.StorageProof := inferInstance

theorem Dec.bind_assoc {γ : Type} (d : Dec α) (f : α → Dec β) (g : β → Dec γ) : ((d >>= f) >>= g) = (d >>= fun a => f a >>= g) := by
  funext lim bs
  show Dec.bind (Dec.bind d f) g lim bs = Dec.bind d (fun a => Dec.bind (f a) g) lim bs
  unfold Dec.bind
  cases d lim bs <;> rfl

theorem Dec.pure_bind (a : α) (f : α → Dec β) : ((pure a : Dec α) >>= f) = f a := rfl

instance : Same v V1.CoveredFields where
  same := by
    have e : decVec .wide (decUsize .wide) = (dec v : Dec (List U64)) := by
      rw [decVec_wide, decUsize_wide]
      rfl
    rw [dec_struct]
    simp only [dec_prod, Dec.bind_assoc, Dec.pure_bind]
    rw [← e]
    rfl

instance : Same v V1.TransactionSignature := inferInstance
instance : Same v V1.Transaction := inferInstance
instance : Same v Block := inferInstance

theorem SpendPolicy.decodePolicyAs_wide (k : Nat) : SpendPolicy.decodePolicyAs .wide k = SpendPolicy.decodePolicy k := by
  induction k with
  | zero => rfl
  | succ k ih =>
    unfold SpendPolicy.decodePolicyAs SpendPolicy.decodePolicy
    rw [ih, Same.same]
    rfl

instance : Same v SpendPolicy where
  same := by
    show (_ >>= fun ver : UInt8 => if ver ≠ 1 then Dec.fail .custom else fun lim bs => SpendPolicy.decodePolicyAs .wide lim.stack lim bs) = _
    simp only [SpendPolicy.decodePolicyAs_wide]
    rfl

instance : Same v SatisfiedPolicy := inferInstance
instance : Same v V2.Attestation := inferInstance
instance : Same v V2.FileContract := inferInstance
instance : Same v V2.SiacoinElement := inferInstance
instance : Same v V2.SiafundElement := inferInstance
instance : Same v V2.FileContractElement := inferInstance
instance : Same v V2.ChainIndexElement := inferInstance
instance : Same v V2.SiacoinInput := inferInstance
instance : Same v V2.SiafundInput := inferInstance
instance : Same v V2.FileContractRevision := inferInstance
instance : Same v V2.FileContractRenewal := inferInstance
instance : Same v V2.StorageProof := inferInstance

instance : Same v V2.FileContractResolution where
  same := by
    unfold decAs Widths.decodeAs instWidthsFileContractResolution
    simp only [Same.same]
    rfl

instance : Same v V2.Transaction where
  same := by
    unfold decAs Widths.decodeAs instWidthsTransaction_1
    simp only [Same.same]
    rfl

/-! ## Two conversions -/

/-- Up to `b`, what the first conversion gives the second gives too. -/
def Agree (b : Nat) (T T' : ToUsize) : Prop := ∀ x y, T x = some y → y.toNat ≤ b → T' x = some y

/-- On machines that allocate at most `b` elements, what the first decoder returns and satisfies `P` the second returns too. -/
def Keeps (b : Nat) (P : α → Prop) (d d' : Dec α) : Prop :=
  ∀ lim bs a r, lim.cap ≤ b → d lim bs = .ok (a, r) → P a → d' lim bs = .ok (a, r)

/-- The type contains no `usize`, only lengths are. -/
class Plain (v : Ver) (α : Type) [Widths v α] : Prop where
  keeps : ∀ {b : Nat} {T T' : ToUsize}, Agree b T T' → 16 ≤ b → Keeps b (fun _ => True) (decAs v T : Dec α) (decAs v T')

variable {b : Nat} {T T' : ToUsize}

theorem Keeps.refl (P : α → Prop) (d : Dec α) : Keeps b P d d := fun _ _ _ _ _ h _ => h

theorem Keeps.weaken {P Q : α → Prop} {d d' : Dec α} (h : Keeps b P d d') (hq : ∀ a, Q a → P a) : Keeps b Q d d' :=
  fun lim bs a r hc hd q => h lim bs a r hc hd (hq a q)

theorem Keeps.bind {d d' : Dec α} {f f' : α → Dec β} (h : Keeps b (fun _ => True) d d')
    (hf : ∀ a, Keeps b (fun _ => True) (f a) (f' a)) : Keeps b (fun _ => True) (d >>= f) (d' >>= f') := by
  intro lim bs c r hc hd _
  obtain ⟨a, r1, h1, h2⟩ := bind_eq_ok.mp hd
  exact bind_eq_ok.mpr ⟨a, r1, h lim bs a r1 hc h1 trivial, hf a lim r1 c r hc h2 trivial⟩

theorem Keeps.ite {P : α → Prop} {c : Prop} [Decidable c] {d d' e e' : Dec α} (h : Keeps b P d d') (h' : Keeps b P e e') :
    Keeps b P (if c then d else e) (if c then d' else e') := by
  split
  · exact h
  · exact h'

theorem Keeps.pair {P : α → Prop} {Q : β → Prop} {d d' : Dec α} {e e' : Dec β} (h : Keeps b P d d') (h' : Keeps b Q e e') :
    Keeps b (fun p => P p.1 ∧ Q p.2) (d >>= fun a => e >>= fun c => pure (a, c)) (d' >>= fun a => e' >>= fun c => pure (a, c)) := by
  intro lim bs p r hc hd hp
  obtain ⟨a, r1, h1, h2⟩ := bind_eq_ok.mp hd
  obtain ⟨c, r2, h3, h4⟩ := bind_eq_ok.mp h2
  simp at h4
  obtain ⟨rfl, rfl⟩ := h4
  exact bind_eq_ok.mpr ⟨a, r1, h lim bs a r1 hc h1 hp.1, bind_eq_ok.mpr ⟨c, r2, h' lim r1 c r2 hc h3 hp.2, rfl⟩⟩

theorem Keeps.build [Struct α β] {P : β → Prop} {d d' : Dec β} (h : Keeps b P d d') :
    Keeps b (fun a => P (Struct.fields a)) (d >>= fun x => pure (Struct.build x : α)) (d' >>= fun x => pure (Struct.build x)) := by
  intro lim bs a r hc hd hp
  obtain ⟨x, r1, h1, h2⟩ := bind_eq_ok.mp hd
  simp at h2
  obtain ⟨rfl, rfl⟩ := h2
  rw [Struct.fields_build] at hp
  exact bind_eq_ok.mpr ⟨x, r1, h lim bs x r1 hc h1 hp, rfl⟩

theorem Keeps.decodeN {P : α → Prop} {d d' : Dec α} (h : Keeps b P d d') (n : Nat) :
    Keeps b (fun l => ∀ a ∈ l, P a) (Verif.decodeN d n) (Verif.decodeN d' n) := by
  induction n with
  | zero => exact Keeps.refl _ _
  | succ n ih =>
    intro lim bs l r hc hd hp
    simp only [Verif.decodeN] at hd ⊢
    obtain ⟨a, r1, h1, h2⟩ := bind_eq_ok.mp hd
    obtain ⟨as, r2, h3, h4⟩ := bind_eq_ok.mp h2
    simp at h4
    obtain ⟨rfl, rfl⟩ := h4
    exact bind_eq_ok.mpr ⟨a, r1, h lim bs a r1 hc h1 (hp a (by simp)), bind_eq_ok.mpr
      ⟨as, r2, ih lim r1 as r2 hc h3 (fun x hx => hp x (by simp [hx])), rfl⟩⟩

theorem Keeps.usize (h : Agree b T T') : Keeps b (fun x => x.toNat ≤ b) (decUsize T) (decUsize T') := by
  intro lim bs y r hc hd hy
  obtain ⟨x, r1, h1, h2⟩ := bind_eq_ok.mp hd
  refine bind_eq_ok.mpr ⟨x, r1, h1, ?_⟩
  cases hx : T x with
  | none => rw [hx] at h2; simp [Dec.fail] at h2
  | some z =>
    rw [hx] at h2
    simp at h2
    obtain ⟨rfl, rfl⟩ := h2
    rw [h x _ hx hy]
    rfl

theorem Keeps.vec {P : α → Prop} {d d' : Dec α} (ha : Agree b T T') (h : Keeps b P d d') :
    Keeps b (fun l => ∀ a ∈ l, P a) (decVec T d) (decVec T' d') := by
  intro lim bs l r hc hd hp
  obtain ⟨n, r1, h1, h2⟩ := bind_eq_ok.mp hd
  obtain ⟨u, r2, h3, h4⟩ := bind_eq_ok.mp h2
  have hn : n.toNat ≤ b := by
    unfold Dec.reserve at h3
    split at h3
    · omega
    · simp at h3
  exact bind_eq_ok.mpr ⟨n, r1, Keeps.usize ha lim bs n r1 hc h1 hn, bind_eq_ok.mpr ⟨u, r2, h3, h.decodeN _ lim r2 l r hc h4 hp⟩⟩

instance : Plain v UInt8 := ⟨fun _ _ => .refl _ _⟩
instance : Plain v Bool := ⟨fun _ _ => .refl _ _⟩
instance : Plain v U64 := ⟨fun _ _ => .refl _ _⟩
instance {n : Nat} : Plain v (Arr n) := ⟨fun _ _ => .refl _ _⟩
instance : Plain v DateTime := ⟨fun _ _ => .refl _ _⟩
instance : Plain v Duration := ⟨fun _ _ => .refl _ _⟩
instance : Plain v Work := ⟨fun _ _ => .refl _ _⟩

instance [Widths v α] [h : Plain v α] : Plain v (List α) :=
  ⟨fun ha hb => (Keeps.vec ha (h.keeps ha hb)).weaken fun _ _ _ _ => trivial⟩

instance [Widths v α] [h : Plain v α] : Plain v (Option α) where
  keeps ha hb := by
    refine Keeps.bind (.refl _ _) fun has => ?_
    split
    · exact (h.keeps ha hb).bind fun _ => .refl _ _
    · exact .refl _ _

instance : Plain v String where
  keeps ha hb := Keeps.bind (Plain.keeps (α := List UInt8) ha hb) fun _ => .refl _ _

instance [Widths v α] [h : Plain v α] [Widths v β] [h' : Plain v β] : Plain v (α × β) :=
  ⟨fun ha hb => (h.keeps ha hb).bind fun _ => (h'.keeps ha hb).bind fun _ => .refl _ _⟩

instance (priority := low) [Struct α β] [Widths v β] [h : Plain v β] : Plain v α :=
  ⟨fun ha hb => (h.keeps ha hb).bind fun _ => .refl _ _⟩

instance : Plain v Currency where
  keeps ha hb := by
    cases v with
    | v1 =>
      intro lim bs c r hc hd _
      obtain ⟨n, r1, h1, h2⟩ := bind_eq_ok.mp hd
      have hn : n.toNat ≤ 16 := by
        split at h2
        · simp [Dec.fail] at h2
        · omega
      exact bind_eq_ok.mpr ⟨n, r1, Keeps.usize ha lim bs n r1 hc h1 (by omega), h2⟩
    | v2 => exact .refl _ _

instance : Plain v SiafundOutput where
  keeps ha hb := by
    cases v with
    | v1 =>
      refine Keeps.bind (Plain.keeps (α := Currency) ha hb) fun c => ?_
      split
      · exact .refl _ _
      · exact Keeps.bind (Plain.keeps (α := Address) ha hb) fun _ => Keeps.bind (Plain.keeps (α := Currency) ha hb) fun _ => .refl _ _
    | v2 => exact .refl _ _

instance : Plain v ChainIndex := inferInstance
instance : Plain v SiacoinOutput := inferInstance
instance : Plain v StateElement := inferInstance
instance : Plain v UnlockKey := inferInstance
instance : Plain v UnlockConditions := inferInstance
instance : Plain v V1.SiacoinInput := inferInstance
instance : Plain v V1.SiafundInput := inferInstance
instance : Plain v V1.FileContract := inferInstance
instance : Plain v V1.FileContractRevision := inferInstance
instance : Plain v V1.StorageProof := inferInstance

theorem SpendPolicy.keeps_decodePolicy (ha : Agree b T T') (hb : 16 ≤ b) (k : Nat) :
    Keeps b (fun _ => True) (SpendPolicy.decodePolicyAs T k) (SpendPolicy.decodePolicyAs T' k) := by
  induction k with
  | zero => exact .refl _ _
  | succ k ih =>
    unfold SpendPolicy.decodePolicyAs
    refine Keeps.bind (.refl _ _) fun ty => ?_
    repeat' split
    all_goals first
      | exact .refl _ _
      | exact Keeps.bind (Plain.keeps (α := UnlockConditions) ha hb) fun _ => .refl _ _
      | exact Keeps.bind (.refl _ _) fun _ => Keeps.bind (.refl _ _) fun _ => Keeps.bind (.refl _ _) fun _ =>
          Keeps.bind ((ih.decodeN _).weaken fun _ _ _ _ => trivial) fun _ => .refl _ _

instance : Plain v SpendPolicy where
  keeps ha hb := by
    refine Keeps.bind (.refl _ _) fun ver => ?_
    refine Keeps.ite (.refl _ _) ?_
    exact fun lim bs a r => SpendPolicy.keeps_decodePolicy ha hb lim.stack lim bs a r

instance : Plain v SatisfiedPolicy := inferInstance
instance : Plain v V2.Attestation := inferInstance
instance : Plain v V2.FileContract := inferInstance
instance : Plain v V2.SiacoinElement := inferInstance
instance : Plain v V2.SiafundElement := inferInstance
instance : Plain v V2.FileContractElement := inferInstance
instance : Plain v V2.ChainIndexElement := inferInstance
instance : Plain v V2.SiacoinInput := inferInstance
instance : Plain v V2.SiafundInput := inferInstance
instance : Plain v V2.FileContractRevision := inferInstance
instance : Plain v V2.FileContractRenewal := inferInstance
instance : Plain v V2.StorageProof := inferInstance

instance : Plain v V2.FileContractResolution where
  keeps ha hb := by
    refine Keeps.bind (Plain.keeps (α := V2.FileContractElement) ha hb) fun _ => Keeps.bind (.refl _ _) fun tag => ?_
    repeat' split
    · exact Keeps.bind (Plain.keeps (α := V2.FileContractRenewal) ha hb) fun _ => .refl _ _
    · exact Keeps.bind (Plain.keeps (α := V2.StorageProof) ha hb) fun _ => .refl _ _
    · exact .refl _ _
    · exact .refl _ _

theorem Keeps.field {d d' : Dec α} (h : Keeps b (fun _ => True) d d') (fields mask : U64) (x : α) :
    Keeps b (fun _ => True) (V2.Transaction.decodeField fields mask d x) (V2.Transaction.decodeField fields mask d' x) := by
  unfold V2.Transaction.decodeField
  split
  · exact h
  · exact .refl _ _

instance : Plain v V2.Transaction where
  keeps ha hb := by
    refine Keeps.bind (.refl _ _) fun version => ?_
    split
    · exact .refl _ _
    · refine Keeps.bind (.refl _ _) fun fields => ?_
      iterate 9 refine Keeps.bind (Keeps.field (Plain.keeps ha hb) _ _ _) fun _ => ?_
      refine Keeps.bind (Keeps.field (Keeps.bind (Plain.keeps ha hb) fun _ => .refl _ _) _ _ _) fun _ => ?_
      exact Keeps.bind (Keeps.field (Plain.keeps ha hb) _ _ _) fun _ => .refl _ _

/-! ## Types with indices -/

/-- Every index is at most `b`. -/
def V1.CoveredFields.AtMost (b : Nat) (c : V1.CoveredFields) : Prop := ∀ i ∈ c.indices, i.toNat ≤ b

/-- Decoding the fields of covered fields as nested pairs. -/
theorem decAs_covered (T : ToUsize) : (decAs v T : Dec V1.CoveredFields) =
    ((do
      let a ← (dec v : Dec Bool)
      let p ← (do
        let b ← decVec T (decUsize T)
        let p ← (do
          let c ← decVec T (decUsize T)
          let p ← (do
            let d ← decVec T (decUsize T)
            let p ← (do
              let e ← decVec T (decUsize T)
              let p ← (do
                let f ← decVec T (decUsize T)
                let p ← (do
                  let g ← decVec T (decUsize T)
                  let p ← (do
                    let h ← decVec T (decUsize T)
                    let p ← (do
                      let i ← decVec T (decUsize T)
                      let p ← (do
                        let j ← decVec T (decUsize T)
                        let k ← decVec T (decUsize T)
                        pure (j, k))
                      pure (i, p))
                    pure (h, p))
                  pure (g, p))
                pure (f, p))
              pure (e, p))
            pure (d, p))
          pure (c, p))
        pure (b, p))
      pure (a, p)) >>= fun x => pure (Struct.build x)) := by
  simp only [Dec.bind_assoc, Dec.pure_bind]
  rfl

theorem keeps_covered (ha : Agree b T T') : Keeps b (V1.CoveredFields.AtMost b) (decAs v T) (decAs v T') := by
  have l := Keeps.vec ha (Keeps.usize ha)
  rw [decAs_covered, decAs_covered]
  refine (Keeps.build ((Keeps.refl (fun _ => True) _).pair (l.pair (l.pair (l.pair (l.pair (l.pair (l.pair (l.pair (l.pair
    (l.pair l))))))))))).weaken fun c hc => ?_
  simp only [V1.CoveredFields.AtMost, V1.CoveredFields.indices, List.mem_append] at hc
  refine ⟨trivial, ?_, ?_, ?_, ?_, ?_, ?_, ?_, ?_, ?_, ?_⟩ <;> exact fun i hi => hc i (by simp [Struct.fields] at hi; simp [hi])

theorem Plain.any [Widths v α] [h : Plain v α] (ha : Agree b T T') (hb : 16 ≤ b) : Keeps b (fun _ : α => True) (decAs v T) (decAs v T') :=
  h.keeps ha hb

theorem keeps_signature (ha : Agree b T T') (hb : 16 ≤ b) :
    Keeps b (fun s : V1.TransactionSignature => s.coveredFields.AtMost b) (decAs v T) (decAs v T') :=
  (Keeps.build ((Plain.any (α := Hash256) ha hb).pair ((Plain.any (α := U64) ha hb).pair ((Plain.any (α := U64) ha hb).pair
    ((keeps_covered ha).pair (Plain.any (α := List UInt8) ha hb)))))).weaken
    fun _ hs => ⟨trivial, trivial, trivial, hs, trivial⟩

theorem keeps_transaction (ha : Agree b T T') (hb : 16 ≤ b) :
    Keeps b (fun t : V1.Transaction => ∀ s ∈ t.signatures, s.coveredFields.AtMost b) (decAs v T) (decAs v T') :=
  (Keeps.build ((Plain.any (α := List V1.SiacoinInput) ha hb).pair ((Plain.any (α := List SiacoinOutput) ha hb).pair
    ((Plain.any (α := List V1.FileContract) ha hb).pair ((Plain.any (α := List V1.FileContractRevision) ha hb).pair
    ((Plain.any (α := List V1.StorageProof) ha hb).pair ((Plain.any (α := List V1.SiafundInput) ha hb).pair
    ((Plain.any (α := List SiafundOutput) ha hb).pair ((Plain.any (α := List Currency) ha hb).pair
    ((Plain.any (α := List (List UInt8)) ha hb).pair (Keeps.vec ha (keeps_signature ha hb)))))))))))).weaken
    fun _ hs => ⟨trivial, trivial, trivial, trivial, trivial, trivial, trivial, trivial, trivial, hs⟩

theorem keeps_block (ha : Agree b T T') (hb : 16 ≤ b) :
    Keeps b (fun x : Block => ∀ t ∈ x.transactions, ∀ s ∈ t.signatures, s.coveredFields.AtMost b) (decAs v T) (decAs v T') :=
  (Keeps.build ((Plain.any (α := BlockID) ha hb).pair ((Plain.any (α := U64) ha hb).pair ((Plain.any (α := DateTime) ha hb).pair
    ((Plain.any (α := List SiacoinOutput) ha hb).pair (Keeps.vec ha (keeps_transaction ha hb))))))).weaken
    fun _ hs => ⟨trivial, trivial, trivial, trivial, hs⟩

/-! ## The three conversions -/

theorem narrow_eq (x : U64) : ToUsize.narrow x = some (mod32 x) := by
  unfold ToUsize.narrow mod32
  congr 1
  apply BitVec.eq_of_toNat_eq
  simp only [BitVec.toNat_setWidth, BitVec.toNat_ofNat]

theorem mod32_of_lt {x : U64} (h : x.toNat < 2 ^ 32) : mod32 x = x := by
  unfold mod32
  rw [Nat.mod_eq_of_lt h, BitVec.ofNat_toNat, BitVec.setWidth_eq]

theorem mod32_toNat (x : U64) : (mod32 x).toNat = x.toNat % 2 ^ 32 := by
  unfold mod32
  rw [BitVec.toNat_ofNat]
  exact Nat.mod_eq_of_lt (by omega)

theorem agree_wide_checked : Agree (2 ^ 32 - 1) .wide .checked := by
  intro x y h hy
  cases h
  unfold ToUsize.checked
  rw [if_pos (by omega)]

theorem agree_checked_narrow (b : Nat) : Agree b .checked .narrow := by
  intro x y h _
  unfold ToUsize.checked at h
  split at h
  · next hx => cases h; rw [narrow_eq, mod32_of_lt hx]
  · cases h

theorem agree_checked_wide (b : Nat) : Agree b .checked .wide := by
  intro x y h _
  unfold ToUsize.checked at h
  split at h
  · exact h
  · cases h

theorem agree_wide_narrow : Agree (2 ^ 32 - 1) .wide .narrow := fun x y h hy =>
  agree_checked_narrow _ x y (agree_wide_checked x y h hy) hy

/-! ## The exact result on 32-bit targets -/

/-- On machines that allocate fewer than 2^32 elements, where the first decoder returns `a` the second returns `f a`. -/
def Turns (f : α → α) (d d' : Dec α) : Prop := ∀ lim bs a r, lim.cap < 2 ^ 32 → d lim bs = .ok (a, r) → d' lim bs = .ok (f a, r)

theorem Turns.pair {f : α → α} {g : β → β} {d d' : Dec α} {e e' : Dec β} (h : Turns f d d') (h' : Turns g e e') :
    Turns (fun p => (f p.1, g p.2)) (d >>= fun a => e >>= fun c => pure (a, c)) (d' >>= fun a => e' >>= fun c => pure (a, c)) := by
  intro lim bs p r hc hd
  obtain ⟨a, r1, h1, h2⟩ := bind_eq_ok.mp hd
  obtain ⟨c, r2, h3, h4⟩ := bind_eq_ok.mp h2
  simp at h4
  obtain ⟨rfl, rfl⟩ := h4
  exact bind_eq_ok.mpr ⟨f a, r1, h lim bs a r1 hc h1, bind_eq_ok.mpr ⟨g c, r2, h' lim r1 c r2 hc h3, rfl⟩⟩

theorem Turns.build [Struct α β] {f : α → α} {g : β → β} {d d' : Dec β} (h : Turns g d d') (hf : ∀ a : α, f a = Struct.build (g (Struct.fields a))) :
    Turns f (d >>= fun x => pure (Struct.build x : α)) (d' >>= fun x => pure (Struct.build x)) := by
  intro lim bs a r hc hd
  obtain ⟨x, r1, h1, h2⟩ := bind_eq_ok.mp hd
  simp at h2
  obtain ⟨rfl, rfl⟩ := h2
  refine bind_eq_ok.mpr ⟨g x, r1, h lim bs x r1 hc h1, ?_⟩
  rw [hf, Struct.fields_build]
  rfl

theorem Turns.decodeN {f : α → α} {d d' : Dec α} (h : Turns f d d') (n : Nat) : Turns (List.map f) (Verif.decodeN d n) (Verif.decodeN d' n) := by
  induction n with
  | zero =>
    intro lim bs l r _ hd
    simp [Verif.decodeN] at hd ⊢
    simp [hd.1, hd.2]
  | succ n ih =>
    intro lim bs l r hc hd
    simp only [Verif.decodeN] at hd ⊢
    obtain ⟨a, r1, h1, h2⟩ := bind_eq_ok.mp hd
    obtain ⟨as, r2, h3, h4⟩ := bind_eq_ok.mp h2
    simp at h4
    obtain ⟨rfl, rfl⟩ := h4
    exact bind_eq_ok.mpr ⟨f a, r1, h lim bs a r1 hc h1, bind_eq_ok.mpr ⟨as.map f, r2, ih lim r1 as r2 hc h3, rfl⟩⟩

theorem turns_usize : Turns mod32 (decUsize .wide) (decUsize .narrow) := by
  intro lim bs y r hc hd
  obtain ⟨x, r1, h1, h2⟩ := bind_eq_ok.mp hd
  simp [ToUsize.wide] at h2
  obtain ⟨rfl, rfl⟩ := h2
  refine bind_eq_ok.mpr ⟨x, r1, h1, ?_⟩
  rw [narrow_eq]
  rfl

theorem Turns.vec {f : α → α} {d d' : Dec α} (h : Turns f d d') : Turns (List.map f) (decVec .wide d) (decVec .narrow d') := by
  intro lim bs l r hc hd
  obtain ⟨n, r1, h1, h2⟩ := bind_eq_ok.mp hd
  obtain ⟨u, r2, h3, h4⟩ := bind_eq_ok.mp h2
  have hn : n.toNat ≤ lim.cap := by
    unfold Dec.reserve at h3
    split at h3
    · assumption
    · simp at h3
  have e := turns_usize lim bs n r1 hc h1
  rw [mod32_of_lt (by omega)] at e
  exact bind_eq_ok.mpr ⟨n, r1, e, bind_eq_ok.mpr ⟨u, r2, h3, h.decodeN _ lim r2 l r hc h4⟩⟩

theorem Turns.plain [Widths v α] [Plain v α] : Turns id (decAs v .wide : Dec α) (decAs v .narrow) := fun lim bs a r hc hd =>
  Plain.keeps (b := 2 ^ 32 - 1) agree_wide_narrow (by decide) lim bs a r (by omega) hd trivial

theorem turns_covered : Turns (V1.CoveredFields.mapIndices mod32) (decAs v .wide) (decAs v .narrow) := by
  have l := Turns.vec turns_usize
  rw [decAs_covered, decAs_covered]
  have hb : Turns id (dec v : Dec Bool) (dec v) := fun _ _ _ _ _ h => h
  exact Turns.build (hb.pair (l.pair (l.pair (l.pair (l.pair (l.pair (l.pair (l.pair (l.pair (l.pair l)))))))))) fun _ => rfl

theorem turns_signature : Turns (V1.TransactionSignature.mapIndices mod32) (decAs v .wide) (decAs v .narrow) :=
  Turns.build ((Turns.plain (α := Hash256)).pair ((Turns.plain (α := U64)).pair ((Turns.plain (α := U64)).pair
    (turns_covered.pair (Turns.plain (α := List UInt8)))))) fun _ => rfl

theorem turns_transaction : Turns (V1.Transaction.mapIndices mod32) (decAs v .wide) (decAs v .narrow) :=
  Turns.build ((Turns.plain (α := List V1.SiacoinInput)).pair ((Turns.plain (α := List SiacoinOutput)).pair
    ((Turns.plain (α := List V1.FileContract)).pair ((Turns.plain (α := List V1.FileContractRevision)).pair
    ((Turns.plain (α := List V1.StorageProof)).pair ((Turns.plain (α := List V1.SiafundInput)).pair
    ((Turns.plain (α := List SiafundOutput)).pair ((Turns.plain (α := List Currency)).pair
    ((Turns.plain (α := List (List UInt8))).pair (Turns.vec turns_signature)))))))))) fun _ => rfl

theorem turns_block : Turns (Block.mapIndices mod32) (decAs v .wide) (decAs v .narrow) :=
  Turns.build ((Turns.plain (α := BlockID)).pair ((Turns.plain (α := U64)).pair ((Turns.plain (α := DateTime)).pair
    ((Turns.plain (α := List SiacoinOutput)).pair (Turns.vec turns_transaction))))) fun _ => rfl

/-! ## Which values are unchanged -/

theorem map_eq_self {f : α → α} {l : List α} : l.map f = l ↔ ∀ a ∈ l, f a = a := by
  induction l with
  | nil => simp
  | cons a l ih => simp [ih]

theorem mod32_eq_self {x : U64} : mod32 x = x ↔ x.toNat < 2 ^ 32 := by
  refine ⟨fun h => ?_, mod32_of_lt⟩
  have := mod32_toNat x
  rw [h] at this
  omega

theorem V1.CoveredFields.mod32_self {c : V1.CoveredFields} : c.mapIndices mod32 = c ↔ ∀ i ∈ c.indices, i.toNat < 2 ^ 32 := by
  cases c
  simp only [V1.CoveredFields.mapIndices, V1.CoveredFields.mk.injEq, map_eq_self, mod32_eq_self, V1.CoveredFields.indices, List.mem_append]
  constructor
  · intro ⟨_, h1, h2, h3, h4, h5, h6, h7, h8, h9, h10⟩ i hi
    rcases hi with ((((((((hi | hi) | hi) | hi) | hi) | hi) | hi) | hi) | hi) | hi
    · exact h1 i hi
    · exact h2 i hi
    · exact h3 i hi
    · exact h4 i hi
    · exact h5 i hi
    · exact h6 i hi
    · exact h7 i hi
    · exact h8 i hi
    · exact h9 i hi
    · exact h10 i hi
  · intro h
    refine ⟨trivial, ?_, ?_, ?_, ?_, ?_, ?_, ?_, ?_, ?_, ?_⟩ <;> exact fun i hi => h i (by simp [hi])

theorem V1.Transaction.mod32_self {t : V1.Transaction} : t.mapIndices mod32 = t ↔ t.IndicesBelow (2 ^ 32) := by
  have : t.mapIndices mod32 = t ↔ t.signatures.map (·.mapIndices mod32) = t.signatures := by
    cases t
    simp [V1.Transaction.mapIndices]
  rw [this, map_eq_self]
  refine forall_congr' fun s => forall_congr' fun _ => ?_
  rw [← V1.CoveredFields.mod32_self]
  cases s
  simp [V1.TransactionSignature.mapIndices]

theorem Block.mod32_self {x : Block} : x.mapIndices mod32 = x ↔ x.IndicesBelow (2 ^ 32) := by
  have : x.mapIndices mod32 = x ↔ x.transactions.map (·.mapIndices mod32) = x.transactions := by
    cases x
    simp [Block.mapIndices]
  rw [this, map_eq_self]
  exact forall_congr' fun t => forall_congr' fun _ => V1.Transaction.mod32_self

end Verif
