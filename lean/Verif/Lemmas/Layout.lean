import Verif.Spec.Layout
import Verif.Lemmas.Spec
import Verif.Lemmas.Bytes
import Verif.Lemmas.Consensus
import Verif.Lemmas.Hashing

/-!
# The encoders write the specified layouts
-/

namespace Verif

open Layout

variable {v : Ver} {α : Type}

theorem leBytes_mod (k n : Nat) : leBytes k (n % 256 ^ k) = leBytes k n := by
  rw [← leBytes_leVal (leBytes k n), leVal_leBytes, leBytes_length]

theorem le64_mod (n : Nat) : le64 (n % 2 ^ 64) = le64 n := by
  rw [le64_eq, le64_eq, show (2 : Nat) ^ 64 = 256 ^ 8 from rfl, leBytes_mod]

theorem lay_u64 (x : U64) : enc v x = le64 x.toNat := by
  rw [le64_eq]
  show leBytes 8 (x.setWidth 64).toNat = _
  rw [BitVec.setWidth_eq]

theorem lay_length (n : Nat) : enc v (BitVec.ofNat 64 n : U64) = le64 n := by
  rw [lay_u64, BitVec.toNat_ofNat, le64_mod]

theorem lay_arr {n : Nat} (a : Arr n) : enc v a = a.1 := rfl

theorem flatMap_byte (l : List UInt8) : l.flatMap (enc v) = l := by
  induction l with
  | nil => rfl
  | cons b l ih => rw [List.flatMap_cons, ih]; rfl

theorem lay_many [Codec v α] {f : α → List UInt8} (h : ∀ a, enc v a = f a) (l : List α) : enc v l = many f l := by
  show enc v (BitVec.ofNat 64 l.length : U64) ++ l.flatMap (enc v) = _
  rw [lay_length, many, List.flatMap_def, funext h]

theorem lay_bytes (l : List UInt8) : enc v l = bytes l := by
  show enc v (BitVec.ofNat 64 l.length : U64) ++ l.flatMap (enc v) = _
  rw [lay_length, flatMap_byte, bytes]

theorem lay_string (s : String) : enc v s = bytes (text s) := lay_bytes _

theorem leBytes_succ (k n : Nat) : leBytes (k + 1) n = UInt8.ofNat n :: leBytes k (n / 256) := by
  rw [leBytes]
  congr 1
  apply UInt8.toNat_inj.mp
  simp

theorem stripZeros_beBytes (k n : Nat) (h : n < 256 ^ k) : stripZeros (beBytes k n) = digits n := by
  induction k generalizing n with
  | zero =>
    have : n = 0 := by simpa using h
    subst this
    rw [digits]
    rfl
  | succ k ih =>
    have h2 : n / 256 < 256 ^ k := by rw [Nat.pow_succ] at h; omega
    have ih := ih _ h2
    have e : beBytes (k + 1) n = beBytes k (n / 256) ++ [UInt8.ofNat n] := by
      simp [beBytes, leBytes_succ]
    rw [e, digits]
    split
    · rename_i h0
      subst h0
      have z := dropWhile_replicate_append (beBytes k (0 / 256))
      rw [ih] at z
      rw [Nat.zero_div, digits, if_pos rfl] at z
      simp only [List.append_nil, List.length_nil, Nat.sub_zero] at z
      rw [Nat.zero_div, ← z, show UInt8.ofNat 0 = 0 from rfl]
      unfold stripZeros
      rw [← List.replicate_succ']
      generalize (beBytes k 0).length + 1 = m
      induction m with
      | zero => rfl
      | succ m ih => rw [List.replicate_succ, List.dropWhile_cons_of_pos (by rfl), ih]
    · rename_i h0
      rw [← ih]
      unfold stripZeros
      rw [List.dropWhile_append]
      by_cases h1 : n / 256 = 0
      · have : (List.dropWhile (· == 0) (beBytes k (n / 256))) = [] := by
          have := ih
          unfold stripZeros at this
          rw [this, h1, digits, if_pos rfl]
        rw [this]
        have hb : (UInt8.ofNat n == 0) = false := by
          rw [beq_eq_false_iff_ne]
          intro hc
          have := congrArg UInt8.toNat hc
          simp at this
          omega
        simp [List.dropWhile, hb]
      · have : (List.dropWhile (· == 0) (beBytes k (n / 256))) ≠ [] := by
          have := ih
          unfold stripZeros at this
          rw [this, digits, if_neg h1]
          simp
        rw [if_neg (by simpa [List.isEmpty_iff] using this)]

theorem lay_currency (c : Currency) : enc v c = currency v c := by
  cases v with
  | v1 =>
    rw [enc_currency_v1, lay_bytes, stripZeros_beBytes _ _ (by have := c.val.isLt; omega)]
    rfl
  | v2 =>
    rw [enc_currency_v2, ← le128_eq]
    rfl

theorem lay_work (w : Work) : enc v w = work w := by
  rw [enc_work, work, beBytes, leBytes_eq]
  apply List.ext_getElem
  · simp
  · intro i h1 h2
    simp

theorem lay_ofInt (n : Int) : leBytes 8 (BitVec.ofInt 64 n).toNat = signed n := by
  rw [BitVec.toNat_ofInt, ← le64_eq]
  rfl

theorem lay_time (t : DateTime) : enc v t = time t := lay_ofInt t.secs
theorem lay_duration (d : Duration) : enc v d = duration d := lay_ofInt d.ns

theorem lay_bool (b : Bool) : enc v b = [if b then 1 else 0] := rfl

theorem lay_maybe [Codec v α] {f : α → List UInt8} (h : ∀ a, enc v a = f a) (o : Option α) : enc v o = maybe f o := by
  cases o with
  | none => rfl
  | some a => show _ ++ enc v a = _; rw [h]; rfl

macro "lay" "[" ts:Lean.Parser.Tactic.simpLemma,* "]" : tactic =>
  `(tactic| simp only [$ts,*, lay_u64, lay_arr, lay_bytes, lay_string, lay_currency, lay_work, lay_time, lay_duration, lay_bool,
      List.flatten_cons, List.flatten_nil, List.append_nil, List.append_assoc])

theorem lay_chainIndex (x : ChainIndex) : enc v x = chainIndex x := by
  show enc v x.height ++ enc v x.id = _
  lay [chainIndex]

theorem lay_siacoinOutput (x : SiacoinOutput) : enc v x = siacoinOutput v x := by
  show enc v x.value ++ enc v x.address = _
  lay [siacoinOutput]

theorem lay_siafundOutput (x : SiafundOutput) : enc v x = siafundOutput v x := by
  cases v with
  | v1 =>
    show enc .v1 (Currency.ofU64 x.value) ++ (enc .v1 x.address ++ enc .v1 (Currency.mk 0)) = _
    have e : (Currency.ofU64 x.value).val.toNat = x.value.toNat := by
      simp only [Currency.ofU64, BitVec.toNat_setWidth]
      have := x.value.isLt
      omega
    rw [lay_currency, currency, e, show enc .v1 (Currency.mk 0) = [0, 0, 0, 0, 0, 0, 0, 0] by decide +kernel]
    lay [siafundOutput]
  | v2 =>
    show enc .v2 x.value ++ enc .v2 x.address = _
    lay [siafundOutput]

theorem lay_stateElement (x : StateElement) : enc v x = stateElement x := by
  show enc v x.leafIndex ++ enc v x.merkleProof = _
  lay [stateElement, lay_many (v := v) (lay_arr (n := 32))]

theorem lay_unlockKey (x : UnlockKey) : enc v x = unlockKey x := by
  show enc v x.algorithm ++ enc v x.key = _
  lay [unlockKey]

theorem lay_unlockConditions (x : UnlockConditions) : enc v x = unlockConditions x := by
  show enc v x.timelock ++ (enc v x.publicKeys ++ enc v x.signaturesRequired) = _
  lay [unlockConditions, lay_many (v := v) lay_unlockKey]

/-! ## v1 -/

theorem lay_v1SiacoinInput (x : V1.SiacoinInput) : enc .v1 x = v1SiacoinInput x := by
  show enc .v1 x.parentId ++ enc .v1 x.unlockConditions = _
  lay [v1SiacoinInput, lay_unlockConditions]

theorem lay_v1SiafundInput (x : V1.SiafundInput) : enc .v1 x = v1SiafundInput x := by
  show enc .v1 x.parentId ++ (enc .v1 x.unlockConditions ++ enc .v1 x.claimAddress) = _
  lay [v1SiafundInput, lay_unlockConditions]

theorem lay_v1FileContract (x : V1.FileContract) : enc .v1 x = v1FileContract x := by
  show enc .v1 x.fileSize ++ (enc .v1 x.fileMerkleRoot ++ (enc .v1 x.windowStart ++ (enc .v1 x.windowEnd ++
    (enc .v1 x.payout ++ (enc .v1 x.validProofOutputs ++ (enc .v1 x.missedProofOutputs ++ (enc .v1 x.unlockHash ++
    enc .v1 x.revisionNumber))))))) = _
  lay [v1FileContract, lay_many (v := .v1) lay_siacoinOutput]

theorem lay_v1FileContractRevision (x : V1.FileContractRevision) : enc .v1 x = v1FileContractRevision x := by
  show enc .v1 x.parentId ++ (enc .v1 x.unlockConditions ++ (enc .v1 x.revisionNumber ++ (enc .v1 x.fileSize ++
    (enc .v1 x.fileMerkleRoot ++ (enc .v1 x.windowStart ++ (enc .v1 x.windowEnd ++ (enc .v1 x.validProofOutputs ++
    (enc .v1 x.missedProofOutputs ++ enc .v1 x.unlockHash)))))))) = _
  lay [v1FileContractRevision, lay_many (v := .v1) lay_siacoinOutput, lay_unlockConditions]

theorem lay_v1StorageProof (x : V1.StorageProof) : enc .v1 x = v1StorageProof x := by
  show enc .v1 x.parentId ++ (enc .v1 x.leaf ++ enc .v1 x.proof) = _
  lay [v1StorageProof, lay_many (v := .v1) (lay_arr (n := 32))]

theorem lay_positions (l : List U64) : enc .v1 l = positions l := lay_many lay_u64 l

theorem lay_coveredFields (x : V1.CoveredFields) : enc .v1 x = coveredFields x := by
  show enc .v1 x.wholeTransaction ++ (enc .v1 x.siacoinInputs ++ (enc .v1 x.siacoinOutputs ++ (enc .v1 x.fileContracts ++
    (enc .v1 x.fileContractRevisions ++ (enc .v1 x.storageProofs ++ (enc .v1 x.siafundInputs ++ (enc .v1 x.siafundOutputs ++
    (enc .v1 x.minerFees ++ (enc .v1 x.arbitraryData ++ enc .v1 x.signatures))))))))) = _
  lay [coveredFields, lay_positions]

theorem lay_transactionSignature (x : V1.TransactionSignature) : enc .v1 x = transactionSignature x := by
  show enc .v1 x.parentId ++ (enc .v1 x.publicKeyIndex ++ (enc .v1 x.timelock ++ (enc .v1 x.coveredFields ++
    enc .v1 x.signature))) = _
  lay [transactionSignature, lay_coveredFields]

theorem lay_v1Unsigned (x : V1.Transaction) : x.encodeNoSigs = v1Unsigned x := by
  unfold V1.Transaction.encodeNoSigs
  lay [v1Unsigned, lay_many (v := .v1) lay_v1SiacoinInput, lay_many (v := .v1) lay_siacoinOutput,
    lay_many (v := .v1) lay_v1FileContract, lay_many (v := .v1) lay_v1FileContractRevision,
    lay_many (v := .v1) lay_v1StorageProof, lay_many (v := .v1) lay_v1SiafundInput, lay_many (v := .v1) lay_siafundOutput,
    lay_many (v := .v1) lay_currency, lay_many (v := .v1) lay_bytes]

theorem lay_v1Transaction (x : V1.Transaction) : enc .v1 x = v1Transaction x := by
  rw [v1Transaction, ← lay_v1Unsigned, ← lay_many (v := .v1) lay_transactionSignature]
  unfold V1.Transaction.encodeNoSigs
  simp only [List.append_assoc]
  rfl

theorem lay_block (x : Block) : enc .v1 x = block x := by
  show enc .v1 x.parentId ++ (enc .v1 x.nonce ++ (enc .v1 x.timestamp ++ (enc .v1 x.minerPayouts ++
    enc .v1 x.transactions))) = _
  lay [block, lay_many (v := .v1) lay_siacoinOutput, lay_many (v := .v1) lay_v1Transaction]

/-! ## v2 -/

mutual

theorem lay_subPolicy (p : SpendPolicy) : p.encodePolicy = subPolicy p := by
  cases p with
  | above h => rw [SpendPolicy.encodePolicy, subPolicy, lay_u64]; rfl
  | after t => rw [SpendPolicy.encodePolicy, subPolicy, lay_ofInt]; rfl
  | publicKey k => rw [SpendPolicy.encodePolicy, subPolicy]; rfl
  | hash h => rw [SpendPolicy.encodePolicy, subPolicy]; rfl
  | threshold n of => rw [SpendPolicy.encodePolicy, subPolicy, lay_subPolicies of]; rfl
  | opaqueAddr a => rw [SpendPolicy.encodePolicy, subPolicy]; rfl
  | unlockConditions uc => rw [SpendPolicy.encodePolicy, subPolicy, lay_unlockConditions]; rfl

theorem lay_subPolicies (ps : List SpendPolicy) : SpendPolicy.encodePolicies ps = subPolicies ps := by
  cases ps with
  | nil => rw [SpendPolicy.encodePolicies, subPolicies]
  | cons p ps => rw [SpendPolicy.encodePolicies, subPolicies, lay_subPolicy p, lay_subPolicies ps]

end

theorem lay_policy (p : SpendPolicy) : enc .v2 p = policy p := by
  show 1 :: p.encodePolicy = _
  rw [lay_subPolicy]
  rfl

theorem lay_satisfiedPolicy (x : SatisfiedPolicy) : enc .v2 x = satisfiedPolicy x := by
  show enc .v2 x.policy ++ (enc .v2 x.signatures ++ enc .v2 x.preimages) = _
  lay [satisfiedPolicy, lay_policy, lay_many (v := .v2) (lay_arr (n := 64)), lay_many (v := .v2) (lay_arr (n := 32))]

theorem lay_attestation (x : V2.Attestation) : enc .v2 x = attestation x := by
  show enc .v2 x.publicKey ++ (enc .v2 x.key ++ (enc .v2 x.value ++ enc .v2 x.signature)) = _
  lay [attestation]

theorem lay_v2Currency (c : Currency) : enc .v2 c = le128 c.val.toNat := lay_currency c

theorem currency_v2 (c : Currency) : currency .v2 c = le128 c.val.toNat := rfl

theorem lay_v2FileContract (x : V2.FileContract) : enc .v2 x = v2FileContract x := by
  show enc .v2 x.capacity ++ (enc .v2 x.filesize ++ (enc .v2 x.fileMerkleRoot ++ (enc .v2 x.proofHeight ++
    (enc .v2 x.expirationHeight ++ (enc .v2 x.renterOutput ++ (enc .v2 x.hostOutput ++ (enc .v2 x.missedHostValue ++
    (enc .v2 x.totalCollateral ++ (enc .v2 x.renterPublicKey ++ (enc .v2 x.hostPublicKey ++ (enc .v2 x.revisionNumber ++
    (enc .v2 x.renterSignature ++ enc .v2 x.hostSignature)))))))))))) = _
  lay [v2FileContract, contractTerms, lay_siacoinOutput, currency_v2]

theorem lay_siacoinElement (x : V2.SiacoinElement) : enc .v2 x = siacoinElement x := by
  show enc .v2 x.stateElement ++ (enc .v2 x.id ++ (enc .v2 x.siacoinOutput ++ enc .v2 x.maturityHeight)) = _
  lay [siacoinElement, lay_stateElement, lay_siacoinOutput]

theorem lay_siafundElement (x : V2.SiafundElement) : enc .v2 x = siafundElement x := by
  show enc .v2 x.stateElement ++ (enc .v2 x.id ++ (enc .v2 x.siafundOutput ++ enc .v2 x.claimStart)) = _
  lay [siafundElement, lay_stateElement, lay_siafundOutput, currency_v2]

theorem lay_fileContractElement (x : V2.FileContractElement) : enc .v2 x = fileContractElement x := by
  show enc .v2 x.stateElement ++ (enc .v2 x.id ++ enc .v2 x.fileContract) = _
  lay [fileContractElement, lay_stateElement, lay_v2FileContract]

theorem lay_chainIndexElement (x : V2.ChainIndexElement) : enc .v2 x = chainIndexElement x := by
  show enc .v2 x.stateElement ++ (enc .v2 x.id ++ enc .v2 x.chainIndex) = _
  lay [chainIndexElement, lay_stateElement, lay_chainIndex]

theorem lay_v2SiacoinInput (x : V2.SiacoinInput) : enc .v2 x = v2SiacoinInput x := by
  show enc .v2 x.parent ++ enc .v2 x.satisfiedPolicy = _
  lay [v2SiacoinInput, lay_siacoinElement, lay_satisfiedPolicy]

theorem lay_v2SiafundInput (x : V2.SiafundInput) : enc .v2 x = v2SiafundInput x := by
  show enc .v2 x.parent ++ (enc .v2 x.claimAddress ++ enc .v2 x.satisfiedPolicy) = _
  lay [v2SiafundInput, lay_siafundElement, lay_satisfiedPolicy]

theorem lay_v2FileContractRevision (x : V2.FileContractRevision) : enc .v2 x = v2FileContractRevision x := by
  show enc .v2 x.parent ++ enc .v2 x.revision = _
  lay [v2FileContractRevision, lay_fileContractElement, lay_v2FileContract]

theorem lay_renewal (x : V2.FileContractRenewal) : enc .v2 x = renewal x := by
  show enc .v2 x.finalRevision ++ (enc .v2 x.newContract ++ (enc .v2 x.renterRollover ++ (enc .v2 x.hostRollover ++
    (enc .v2 x.renterSignature ++ enc .v2 x.hostSignature)))) = _
  lay [renewal, lay_v2FileContract, currency_v2]

theorem lay_v2StorageProof (x : V2.StorageProof) : enc .v2 x = v2StorageProof x := by
  show enc .v2 x.proofIndex ++ (enc .v2 x.leaf ++ enc .v2 x.proof) = _
  lay [v2StorageProof, lay_chainIndexElement, lay_many (v := .v2) (lay_arr (n := 32))]

theorem lay_resolution (x : V2.FileContractResolution) : enc .v2 x = resolution x := by
  obtain ⟨p, r⟩ := x
  cases r with
  | renewal r =>
    show enc .v2 p ++ ([0] ++ enc .v2 r) = _
    lay [resolution, lay_fileContractElement, lay_renewal]
    rfl
  | storageProof q =>
    show enc .v2 p ++ ([1] ++ enc .v2 q) = _
    lay [resolution, lay_fileContractElement, lay_v2StorageProof]
    rfl
  | expiration =>
    show enc .v2 p ++ [2] = _
    lay [resolution, lay_fileContractElement]

namespace V2.Transaction

theorem fieldBits_bitField (b0 b1 b2 b3 b4 b5 b6 b7 b8 b9 b10 : Bool) :
    (fieldBits [b0, b1, b2, b3, b4, b5, b6, b7, b8, b9, b10]).toNat =
      bitField [b0, b1, b2, b3, b4, b5, b6, b7, b8, b9, b10] := by
  have h : ∀ b0 b1 b2 b3 b4 b5 b6 b7 b8 b9 b10 : Bool, (fieldBits [b0, b1, b2, b3, b4, b5, b6, b7, b8, b9, b10]).toNat =
      bitField [b0, b1, b2, b3, b4, b5, b6, b7, b8, b9, b10] := by decide +kernel
  exact h _ _ _ _ _ _ _ _ _ _ _

theorem lay_vec {α : Type} [Codec .v2 α] {f : α → List UInt8} (h : ∀ a, enc .v2 a = f a) (l : List α) :
    encodeVec (v := .v2) l = if decide (l ≠ []) then many f l else [] := by
  rw [← lay_many h]
  cases l <;> rfl

theorem lay_vec_bytes (l : List UInt8) : encodeVec (v := .v2) l = if decide (l ≠ []) then bytes l else [] := by
  rw [← lay_bytes (v := .v2)]
  cases l <;> rfl

theorem lay_opt (o : Option Address) :
    encodeOpt (v := .v2) o = if decide (o ≠ none) then (o.map (·.1)).getD [] else [] := by
  cases o <;> rfl

theorem flatMap_filter (l : List (Bool × List UInt8)) :
    (l.filter (·.1)).flatMap (·.2) = l.flatMap fun p => if p.1 then p.2 else [] := by
  induction l with
  | nil => rfl
  | cons p l ih =>
    obtain ⟨b, x⟩ := p
    cases b
    · simpa using ih
    · simp [ih]

theorem isEmpty_not {α : Type} (l : List α) : (!l.isEmpty) = decide (l ≠ []) := by cases l <;> simp

theorem isSome_ne {α : Type} (o : Option α) : o.isSome = decide (o ≠ none) := by cases o <;> simp

theorem fee_ne (c : Currency) : decide (c ≠ ⟨0⟩) = decide (c.val ≠ 0) := by
  cases c
  simp

theorem lay_transaction (t : Transaction) : enc .v2 t = v2Transaction t := by
  rw [v2Transaction, flatMap_filter]
  show [2] ++ (enc .v2 (fieldBits t.present) ++
    (encodeVec (v := .v2) t.siacoinInputs ++ (encodeVec (v := .v2) t.siacoinOutputs ++
    (encodeVec (v := .v2) t.siafundInputs ++ (encodeVec (v := .v2) t.siafundOutputs ++
    (encodeVec (v := .v2) t.fileContracts ++ (encodeVec (v := .v2) t.fileContractRevisions ++
    (encodeVec (v := .v2) t.fileContractResolutions ++ (encodeVec (v := .v2) t.attestations ++
    (encodeVec (v := .v2) t.arbitraryData ++
    (encodeOpt (v := .v2) t.newFoundationAddress ++
    (if t.minerFee ≠ ⟨0⟩ then enc .v2 t.minerFee else [])))))))))))) = _
  rw [lay_u64, present, fieldBits_bitField, lay_vec lay_v2SiacoinInput, lay_vec lay_siacoinOutput,
    lay_vec lay_v2SiafundInput, lay_vec lay_siafundOutput, lay_vec lay_v2FileContract, lay_vec lay_v2FileContractRevision,
    lay_vec lay_resolution, lay_vec lay_attestation, lay_vec_bytes, lay_opt, lay_v2Currency]
  simp only [isEmpty_not, isSome_ne, fee_ne, v2Fields, List.map_cons, List.map_nil, List.flatMap_cons, List.flatMap_nil,
    List.append_nil, List.cons_append, List.nil_append]
  congr 12
  have := fee_ne t.minerFee
  by_cases h : t.minerFee = ⟨0⟩
  · simp [h]
  · simp only [ne_eq, h, not_false_eq_true, decide_true] at this
    rw [if_pos h, ← this, if_pos rfl]

end V2.Transaction

/-! ## Chain state -/

theorem lay_slots {α : Type} (present : Nat → Bool) (e : α → List UInt8) (i : Nat) (l : List α) :
    encodeSlots present e i l =
      (List.range l.length).flatMap fun j => if present (i + j) then (l[j]?.map e).getD [] else [] := by
  induction l generalizing i with
  | nil => rfl
  | cons a l ih =>
    rw [encodeSlots, ih, List.length_cons, List.range_succ_eq_map, List.flatMap_cons, List.flatMap_map]
    have : (fun j => if present (i + 1 + j) then (l[j]?.map e).getD [] else []) =
        fun j => if present (i + j.succ) then (((a :: l)[j.succ]?).map e).getD [] else [] := by
      funext j
      rw [show i + 1 + j = i + j.succ by omega, List.getElem?_cons_succ]
    rw [this]
    rfl

theorem lay_accumulator (x : ElementAccumulator) : enc .v2 x = accumulator x := by
  show enc .v2 x.numLeaves ++ encodeSlots (hasTreeAtHeight x.numLeaves) (enc .v2) 0 x.trees.1 = _
  rw [lay_slots, x.trees.2, lay_u64, accumulator]
  simp only [hasTreeAtHeight_eq, Nat.zero_add]
  rfl

theorem slots_take {α : Type} (k : Nat) (e : α → List UInt8) (i : Nat) (l : List α) :
    encodeSlots (fun j => decide (j < i + k)) e i l = (l.take k).flatMap e := by
  induction l generalizing i k with
  | nil => simp [encodeSlots]
  | cons a l ih =>
    cases k with
    | zero =>
      have := ih 0 (i + 1)
      rw [encodeSlots, List.take_zero]
      simp only [Nat.add_zero, Nat.lt_irrefl, decide_false, Bool.false_eq_true, if_false, List.nil_append, List.flatMap_nil]
      have hz : ∀ (l : List α) (n : Nat), i ≤ n → encodeSlots (fun j => decide (j < i)) e n l = [] := by
        intro l
        induction l with
        | nil => intros; rfl
        | cons b l ih =>
          intro n hn
          rw [encodeSlots, ih _ (by omega), if_neg (by simp; omega)]
          rfl
      exact hz l _ (by omega)
    | succ k =>
      rw [encodeSlots, if_pos (by simp), List.take_succ_cons, List.flatMap_cons, ← ih k (i + 1)]
      rw [show i + 1 + k = i + (k + 1) by omega]

theorem lay_state {m : Mode} {s : State} (h : s.index.height.toNat + 1 < 2 ^ 64) : s.encode m = .ok (state s) := by
  rw [State.encode_ok h]
  congr 1
  have e := slots_take (min (s.index.height.toNat + 1) 11) (enc .v2) 0 s.prevTimestamps.1
  rw [Nat.zero_add] at e
  rw [e, show min (s.index.height.toNat + 1) 11 = min (s.index.height.toNat + 1) s.prevTimestamps.1.length by
    rw [s.prevTimestamps.2], List.take_eq_take_min.symm, funext (lay_time (v := .v2))]
  show _ ++ (_ ++ (enc .v2 s.depth ++ (enc .v2 s.childTarget ++ (enc .v2 s.siafundPool ++ (enc .v2 s.oakTime ++
    (enc .v2 s.oakTarget ++ (enc .v2 s.foundationPrimaryAddress ++ (enc .v2 s.foundationFailsafeAddress ++
    (enc .v2 s.totalWork ++ (enc .v2 s.difficulty ++ (enc .v2 s.oakWork ++ (enc .v2 s.elements ++
    enc .v2 s.attestations)))))))))))) = _
  lay [state, lay_chainIndex, lay_accumulator, currency_v2]

/-! ## Hashed strings -/

theorem lay_le8 (i : U64) : le8 i = le64 i.toNat := (le64_eq _).symm

theorem specifier_name (s : String) (h : ascii s = text s) (hl : (text s).length ≤ 16) : (specifier (ascii s)).1 = name s := by
  show (ascii s ++ List.replicate 16 0).take 16 = _
  rw [h, List.take_append, List.take_of_length_le hl, List.take_replicate, Nat.min_eq_left (by omega), name]

theorem lay_prefixed [Codec .v1 α] {f : α → List UInt8} (h : ∀ a, enc .v1 a = f a) (pre : List UInt8) (l : List α) :
    V1.Transaction.prefixedInputs pre l = prefixed pre f l := by
  unfold V1.Transaction.prefixedInputs prefixed many
  rw [BitVec.toNat_ofNat, ← le64_eq, le64_mod, List.flatMap_def]
  simp only [h]

theorem lay_selected [Codec .v1 α] {f : α → List UInt8} (h : ∀ a, enc .v1 a = f a) (pre : List UInt8) (l : List α)
    (is : List U64) : V1.pickBytes pre l is = selected (fun a => pre ++ f a) l is := by
  unfold V1.pickBytes V1.pick selected
  induction is with
  | nil => rfl
  | cons i is ih =>
    rw [List.map_cons, List.flatMap_cons, ih, List.filterMap_cons]
    cases l[i.toNat]? with
    | none => rfl
    | some a => simp only [List.flatMap_cons, h]

theorem lay_zero : enc .v2 (Arr.zero 64) = noSignature := rfl

theorem lay_contract (c : V2.FileContract) : c.encodeSemantics = unsignedContract c := by
  unfold V2.FileContract.encodeSemantics
  lay [unsignedContract, contractTerms, lay_zero, lay_siacoinOutput, currency_v2]
  rfl

theorem lay_unsignedRenewal (r : V2.FileContractRenewal) : r.encodeSemantics = unsignedRenewal r := by
  unfold V2.FileContractRenewal.encodeSemantics
  lay [unsignedRenewal, lay_contract, currency_v2]
  rfl

theorem lay_unsignedResolution (r : V2.FileContractResolution) : r.encodeSemantics = unsignedResolution r := by
  obtain ⟨p, r⟩ := r
  unfold V2.FileContractResolution.encodeSemantics
  cases r with
  | renewal r => lay [unsignedResolution, V2.ContractResolution.encodeSemantics, lay_unsignedRenewal]
  | storageProof q =>
    show _ ++ q.encodeSemantics = _
    unfold V2.StorageProof.encodeSemantics V2.ChainIndexElement.encodeSemantics
    lay [unsignedResolution, lay_chainIndex, lay_many (v := .v2) (lay_arr (n := 32))]
    rfl
  | expiration => lay [unsignedResolution, V2.ContractResolution.encodeSemantics]

theorem lay_lenThen {α : Type} {e f : α → List UInt8} (h : ∀ a, e a = f a) (l : List α) : V2.lenThen e l = many f l := by
  unfold V2.lenThen many
  rw [lay_length, List.flatMap_def, funext h]

theorem lay_revision (r : V2.FileContractRevision) : r.encodeSemantics = r.parent.id.1 ++ unsignedContract r.revision := by
  unfold V2.FileContractRevision.encodeSemantics
  rw [lay_contract]
  rfl

theorem lay_v2Effects (t : V2.Transaction) : t.encodeSemantics = v2Effects t := by
  unfold V2.Transaction.encodeSemantics
  lay [v2Effects, lay_lenThen lay_contract, lay_lenThen lay_unsignedResolution, lay_lenThen lay_revision,
    lay_many (v := .v2) lay_siacoinOutput, lay_many (v := .v2) lay_siafundOutput, lay_many (v := .v2) lay_attestation,
    lay_maybe (v := .v2) (lay_arr (n := 32)), currency_v2]
  rw [lay_lenThen (f := fun i : V2.SiacoinInput => i.parent.id.1) (fun _ => rfl),
    lay_lenThen (f := fun i : V2.SiafundInput => i.parent.id.1) (fun _ => rfl)]

theorem lay_replay (cs : ChainState) : cs.replayPrefix = replay cs := by
  unfold ChainState.replayPrefix replay
  by_cases h1 : cs.network.hardforkV2.allowHeight.toNat ≤ cs.state.index.height.toNat
  · simp [h1]
  · by_cases h2 : cs.network.hardforkFoundation.height.toNat ≤ cs.state.index.height.toNat
    · simp [h1, h2]
    · by_cases h3 : cs.network.hardforkASIC.height.toNat ≤ cs.state.index.height.toNat
      · simp [h1, h2, h3]
      · simp [h1, h2, h3]

end Verif
