import Verif.Lemmas.Layout
import Verif.Props.Hashing
import Verif.Props.Policy

/-!
# The wire formats and hashed strings, byte by byte (C54, C56)
-/

namespace Verif

open Layout

theorem hasLayout {v : Ver} {α : Type} [Codec v α] [Fits α] [Lawful v α] {f : α → List UInt8} (h : ∀ a : α, enc v a = f a) :
    HasLayout v f :=
  ⟨h, fun lim a rest hf => h a ▸ roundTrips lim a rest hf⟩

theorem hasExactLayout {v : Ver} {α : Type} [Codec v α] [Fits α] [Lawful v α] [Canonical v α] {f : α → List UInt8}
    (h : ∀ a : α, enc v a = f a) : HasExactLayout v f :=
  ⟨hasLayout h, fun lim bs rest a hd => h a ▸ decodesCanonically lim bs rest a hd⟩

/-! ## C54 -/

/-- C54, the v2 format of transactions: byte 2, the bit field, the fields that are there. -/
theorem C54_v2_transaction : HasLayout .v2 v2Transaction := hasLayout V2.Transaction.lay_transaction

/-- C54 for the parts of a v2 transaction; they are read from nothing but their layout. -/
theorem C54_v2_parts :
    HasExactLayout .v2 (fun x : U64 => le64 x.toNat) ∧ HasExactLayout .v2 (fun b : Bool => [if b then 1 else 0]) ∧
    HasExactLayout .v2 bytes ∧ HasExactLayout .v2 (fun s : String => bytes (text s)) ∧
    HasExactLayout .v2 (currency .v2) ∧ HasExactLayout .v2 time ∧ HasExactLayout .v2 work ∧
    HasExactLayout .v2 duration ∧
    HasExactLayout .v2 chainIndex ∧ HasExactLayout .v2 (siacoinOutput .v2) ∧ HasExactLayout .v2 (siafundOutput .v2) ∧
    HasExactLayout .v2 stateElement ∧ HasExactLayout .v2 unlockKey ∧ HasExactLayout .v2 unlockConditions ∧
    HasExactLayout .v2 policy ∧ HasExactLayout .v2 satisfiedPolicy ∧ HasExactLayout .v2 attestation ∧
    HasExactLayout .v2 v2FileContract ∧ HasExactLayout .v2 siacoinElement ∧ HasExactLayout .v2 siafundElement ∧
    HasExactLayout .v2 fileContractElement ∧ HasExactLayout .v2 chainIndexElement ∧ HasExactLayout .v2 v2SiacoinInput ∧
    HasExactLayout .v2 v2SiafundInput ∧ HasExactLayout .v2 v2FileContractRevision ∧ HasExactLayout .v2 renewal ∧
    HasExactLayout .v2 v2StorageProof ∧ HasExactLayout .v2 resolution ∧ HasExactLayout .v2 accumulator :=
  ⟨hasExactLayout lay_u64, hasExactLayout lay_bool, hasExactLayout lay_bytes, hasExactLayout lay_string,
    hasExactLayout lay_currency, hasExactLayout lay_time, hasExactLayout lay_work, hasExactLayout lay_duration,
    hasExactLayout lay_chainIndex, hasExactLayout lay_siacoinOutput, hasExactLayout lay_siafundOutput,
    hasExactLayout lay_stateElement, hasExactLayout lay_unlockKey, hasExactLayout lay_unlockConditions,
    hasExactLayout lay_policy, hasExactLayout lay_satisfiedPolicy, hasExactLayout lay_attestation,
    hasExactLayout lay_v2FileContract, hasExactLayout lay_siacoinElement, hasExactLayout lay_siafundElement,
    hasExactLayout lay_fileContractElement, hasExactLayout lay_chainIndexElement, hasExactLayout lay_v2SiacoinInput,
    hasExactLayout lay_v2SiafundInput, hasExactLayout lay_v2FileContractRevision, hasExactLayout lay_renewal,
    hasExactLayout lay_v2StorageProof, hasExactLayout lay_resolution, hasExactLayout lay_accumulator⟩

/-- C54, the v1 format: transactions, blocks and their parts. -/
theorem C54_v1 :
    HasLayout .v1 v1Transaction ∧ HasLayout .v1 block ∧ HasLayout .v1 (currency .v1) ∧ HasLayout .v1 (siacoinOutput .v1) ∧
    HasLayout .v1 (siafundOutput .v1) ∧ HasLayout .v1 v1FileContract ∧ HasLayout .v1 v1FileContractRevision :=
  ⟨hasLayout lay_v1Transaction, hasLayout lay_block, hasLayout lay_currency, hasLayout lay_siacoinOutput,
    hasLayout lay_siafundOutput, hasLayout lay_v1FileContract, hasLayout lay_v1FileContractRevision⟩

/-- C54, the v1 parts that contain no amounts; they are read from nothing but their layout. -/
theorem C54_v1_parts :
    HasExactLayout .v1 (fun x : U64 => le64 x.toNat) ∧ HasExactLayout .v1 (fun b : Bool => [if b then 1 else 0]) ∧
    HasExactLayout .v1 bytes ∧ HasExactLayout .v1 time ∧ HasExactLayout .v1 work ∧
    HasExactLayout .v1 unlockKey ∧ HasExactLayout .v1 unlockConditions ∧ HasExactLayout .v1 v1SiacoinInput ∧
    HasExactLayout .v1 v1SiafundInput ∧ HasExactLayout .v1 v1StorageProof ∧ HasExactLayout .v1 coveredFields ∧
    HasExactLayout .v1 transactionSignature :=
  ⟨hasExactLayout lay_u64, hasExactLayout lay_bool, hasExactLayout lay_bytes, hasExactLayout lay_time,
    hasExactLayout lay_work, hasExactLayout lay_unlockKey, hasExactLayout lay_unlockConditions,
    hasExactLayout lay_v1SiacoinInput, hasExactLayout lay_v1SiafundInput, hasExactLayout lay_v1StorageProof,
    hasExactLayout lay_coveredFields, hasExactLayout lay_transactionSignature⟩

/-- C54, chain states below the last height: the layout is written, and nothing else is read. -/
theorem C54_state (m : Mode) (lim : Lim) :
    (∀ s : State, s.index.height.toNat + 1 < 2 ^ 64 → s.encode m = .ok (Layout.state s)) ∧
    (∀ (s : State) (rest : List UInt8), stateFits lim s → State.decode m lim (Layout.state s ++ rest) = .ok (s, rest)) ∧
    (∀ (bs rest : List UInt8) (s : State), State.decode m lim bs = .ok (s, rest) → s.index.height.toNat + 1 < 2 ^ 64 →
      bs = Layout.state s ++ rest) := by
  refine ⟨fun s h => lay_state h, fun s rest h => ?_, fun bs rest s h hh => ?_⟩
  · exact (State.reads_state h (lay_state h.1)).rt rest
  · obtain ⟨e, he, rfl⟩ := State.canon_decode h
    rw [lay_state hh] at he
    rw [Res.ok.inj he]

example : fits Sample.lim Sample.v2txn ∧ 700 < (v2Transaction Sample.v2txn).length := ⟨Sample.fits_v2txn, by decide +kernel⟩
example : fits Sample.lim Sample.v1txn ∧ 700 < (v1Transaction Sample.v1txn).length := ⟨Sample.fits_v1txn, by decide +kernel⟩
example : stateFits Sample.lim Sample.state ∧ 300 < (Layout.state Sample.state).length := ⟨Sample.fits_state, by decide +kernel⟩
example : siacoinOutput .v1 ⟨⟨258⟩, Sample.h 7⟩ = [2, 0, 0, 0, 0, 0, 0, 0, 1, 2] ++ List.replicate 32 7 := by decide +kernel
example : policy (.threshold 1 [.above 5, .after ⟨-1, 0⟩]) =
    [1, 5, 1, 2, 1, 5, 0, 0, 0, 0, 0, 0, 0, 2, 255, 255, 255, 255, 255, 255, 255, 255] := by decide +kernel

/-- C54: an amount in v1 takes eight bytes and as many as it has digits in base 256, the first of them not zero. -/
theorem C54_v1_currency_digits (c : Currency) : ∃ l : List UInt8,
    enc .v1 c = le64 l.length ++ l ∧ l.head? ≠ some 0 ∧ beNat l = c.val.toNat ∧ l.length ≤ 16 := by
  refine ⟨stripZeros (beBytes 16 c.val.toNat), ?_, ?_, ?_, ?_⟩
  · rw [enc_currency_v1, lay_bytes]
    rfl
  · unfold stripZeros
    generalize beBytes 16 c.val.toNat = l
    intro h
    induction l with
    | nil => simp at h
    | cons b l ih =>
      by_cases hb : b = 0
      · subst hb; exact ih h
      · rw [List.dropWhile_cons_of_neg (by simpa using hb)] at h
        simp at h
        exact hb h
  · have hz := dropWhile_replicate_append (beBytes 16 c.val.toNat)
    rw [← beNat_zeros _ (stripZeros _), hz, beNat_eq, beVal_beBytes_of_lt (by have := c.val.isLt; omega)]
  · have := stripZeros_length_le (beBytes 16 c.val.toNat)
    rwa [beBytes_length] at this

/-- C54: sizes of the values with a fixed size in v2. -/
theorem C54_sizes (x : U64) (c : Currency) (t : DateTime) (w : Work) (i : ChainIndex) (o : SiacoinOutput) (f : SiafundOutput)
    (fc : V2.FileContract) (r : V2.FileContractRenewal) :
    (enc .v2 x).length = 8 ∧ (enc .v2 c).length = 16 ∧ (enc .v2 t).length = 8 ∧ (enc .v2 w).length = 32 ∧
    (enc .v2 i).length = 40 ∧ (enc .v2 o).length = 48 ∧ (enc .v2 f).length = 40 ∧ (enc .v2 fc).length = 392 ∧
    (enc .v2 r).length = 944 := by
  have l128 : ∀ n, (le128 n).length = 16 := fun n => by simp [le128]
  have h32 : ∀ a : Arr 32, a.1.length = 32 := fun a => a.2
  have h64 : ∀ a : Arr 64, a.1.length = 64 := fun a => a.2
  simp only [lay_u64, lay_currency, lay_time, lay_work, lay_chainIndex, lay_siacoinOutput, lay_siafundOutput,
    lay_v2FileContract, lay_renewal, currency, time, signed, work, chainIndex, siacoinOutput, siafundOutput, v2FileContract,
    contractTerms, renewal, List.flatten_cons, List.flatten_nil, List.length_append, List.length_nil, le64_length, l128, h32, h64,
    List.length_map, List.length_range]
  simp

/-! ## C56 -/

/-- C56: the strings hashed for every derived identifier. -/
theorem C56_derived_ids (H : Hasher) (d : Derivation) : d.eval H = H (derivation d) := by
  have foundation := specifier_name "foundation" (by decide +kernel) (by decide +kernel)
  have proof := specifier_name "storage proof" (by decide +kernel) (by decide +kernel)
  have sco := specifier_name "siacoin output" (by decide +kernel) (by decide +kernel)
  have sfo := specifier_name "siafund output" (by decide +kernel) (by decide +kernel)
  have fc := specifier_name "file contract" (by decide +kernel) (by decide +kernel)
  have claim : ascii "sia/id/v2siacoinclaimoutput|" = text "sia/id/v2siacoinclaimoutput|" := by decide +kernel
  have v2sco : ascii "sia/id/siacoinoutput|" = text "sia/id/siacoinoutput|" := by decide +kernel
  have v2sfo : ascii "sia/id/siafundoutput|" = text "sia/id/siafundoutput|" := by decide +kernel
  have v2fc : ascii "sia/id/filecontract|" = text "sia/id/filecontract|" := by decide +kernel
  have att : ascii "sia/id/attestation|" = text "sia/id/attestation|" := by decide +kernel
  have out : ascii "id/v2filecontractoutput" = text "id/v2filecontractoutput" := by decide +kernel
  have ren : ascii "id/v2filecontractrenewal" = text "id/v2filecontractrenewal" := by decide +kernel
  cases d <;> simp only [Derivation.eval, derivation, Ids.claimOutputId, Ids.v2ClaimOutputId, Ids.foundationOutputId,
    Ids.minerOutputId, Ids.deriveV2ChildId, Ids.v2SiacoinOutputId, Ids.v2SiafundOutputId, Ids.v2FileContractId,
    Ids.v2AttestationId, Ids.deriveProofOutputId, Ids.validOutputId, Ids.missedOutputId, Ids.deriveV2ProofOutputId,
    Ids.v2RenterOutputId, Ids.v2HostOutputId, Ids.v2RenewalId, V1.Transaction.siacoinOutputId, V1.Transaction.siafundOutputId,
    V1.Transaction.fileContractId, V1.Transaction.deriveChildId, foundation, proof, sco, sfo, fc, claim, v2sco, v2sfo, v2fc, att,
    out, ren, lay_le8, lay_v1Unsigned, List.append_assoc] <;> rfl

/-- C56: the strings hashed for transaction IDs. -/
theorem C56_transaction_ids (H : Hasher) (t : V1.Transaction) (t2 : V2.Transaction) :
    t.id H = H (v1Unsigned t) ∧ t2.id H = H (v2Effects t2) := by
  constructor
  · rw [V1.Transaction.id, lay_v1Unsigned]
  · rw [V2.Transaction.id, lay_v2Effects]

/-- C56: the string hashed for a signature over a whole v1 transaction. -/
theorem C56_v1_whole (H : Hasher) (t : V1.Transaction) (cs : ChainState) (parentId : Arr 32) (publicKeyIndex timelock : U64) :
    t.wholeSigHash H cs parentId publicKeyIndex timelock =
      H (wholeTransaction (replay cs) t parentId publicKeyIndex timelock) := by
  unfold V1.Transaction.wholeSigHash
  congr 1
  lay [wholeTransaction, lay_replay, lay_prefixed lay_v1SiacoinInput, lay_many (v := .v1) lay_siacoinOutput,
    lay_many (v := .v1) lay_v1FileContract, lay_many (v := .v1) lay_v1FileContractRevision,
    lay_many (v := .v1) lay_v1StorageProof, lay_prefixed lay_v1SiafundInput, lay_many (v := .v1) lay_siafundOutput,
    lay_many (v := .v1) lay_currency, lay_many (v := .v1) lay_bytes]

/-- C56: the string hashed for a signature over selected fields of a v1 transaction. -/
theorem C56_v1_selected (H : Hasher) (t : V1.Transaction) (cs : ChainState) (c : V1.CoveredFields) (h : V1.InRange t c) :
    t.partialSigHash H cs c = .ok (H (selectedFields (replay cs) t c)) := by
  rw [V1.partialSigHash_ok H t cs c h]
  congr 2
  unfold V1.partialPreimage
  lay [selectedFields, lay_replay, lay_selected lay_v1SiacoinInput, lay_selected lay_siacoinOutput,
    lay_selected lay_v1FileContract, lay_selected lay_v1FileContractRevision,
    lay_selected lay_v1StorageProof, lay_selected lay_v1SiafundInput, lay_selected lay_siafundOutput,
    lay_selected lay_currency, lay_selected lay_bytes, lay_selected lay_transactionSignature, List.nil_append]

example : V1.InRange Sample.v1txn Sample.covered := by
  constructor <;> simp [Sample.covered, Sample.v1txn]

/-- C56: the strings hashed for the four kinds of v2 signatures. -/
theorem C56_v2_signatures (H : Hasher) (cs : ChainState) (s : Signed) : s.sigHash H cs = H (signedMessage (replay cs) s) := by
  have att : ascii "sia/sig/attestation|" = text "sia/sig/attestation|" := by decide +kernel
  have fc : ascii "sia/sig/filecontract|" = text "sia/sig/filecontract|" := by decide +kernel
  have ren : ascii "sia/sig/filecontractrenewal|" = text "sia/sig/filecontractrenewal|" := by decide +kernel
  have inp : ascii "sia/sig/input|" = text "sia/sig/input|" := by decide +kernel
  cases s with
  | attestation a =>
    simp only [Signed.sigHash, V2.Attestation.sigHash, V2.Attestation.encodeSemantics, lay_replay, att]
    lay [signedMessage, lay_zero]
    rfl
  | contract c => simp only [Signed.sigHash, V2.FileContract.sigHash, lay_contract, lay_replay, fc, signedMessage, List.append_assoc]
  | renewal r =>
    simp only [Signed.sigHash, V2.FileContractRenewal.sigHash, lay_unsignedRenewal, lay_replay, ren, signedMessage,
      List.append_assoc]
  | input t =>
    simp only [Signed.sigHash, V2.Transaction.inputSigHash, lay_v2Effects, lay_replay, inp, signedMessage, List.append_assoc]

/-- Every unlock conditions in the policy have fewer than 2^64 - 2 keys, as every Rust vector has. -/
inductive Layout.Keys64 : SpendPolicy → Prop
  | above (h : U64) : Keys64 (.above h)
  | after (t : DateTime) : Keys64 (.after t)
  | publicKey (k : PublicKey) : Keys64 (.publicKey k)
  | hash (h : Hash256) : Keys64 (.hash h)
  | threshold (n : UInt8) (of : List SpendPolicy) : (∀ p ∈ of, Keys64 p) → Keys64 (.threshold n of)
  | opaqueAddr (a : Address) : Keys64 (.opaqueAddr a)
  | unlockConditions (uc : UnlockConditions) : uc.publicKeys.length + 2 < 2 ^ 64 → Keys64 (.unlockConditions uc)

theorem conditionLeaves_eq (uc : UnlockConditions) : conditionLeaves uc = uc.leafStrings := by
  unfold conditionLeaves UnlockConditions.leafStrings
  simp only [← le64_eq, lay_unlockKey]
  rfl

theorem opaque_bytes (as : List Address) :
    subPolicies (as.map SpendPolicy.opaqueAddr) = as.flatMap fun a => 6 :: a.1 := by
  induction as with
  | nil => rw [List.map_nil, subPolicies]; rfl
  | cons a as ih => rw [List.map_cons, subPolicies, ih, subPolicy]; rfl

theorem address_prefix : ascii "sia/address|" = text "sia/address|" := by decide +kernel

mutual

theorem address_of {H : Hasher} : ∀ {p : SpendPolicy} {a : Address}, AddressOf H p a → p.address H = .ok a
  | _, _, .above h => by
    rw [SpendPolicy.address, lay_policy, policy, subPolicy, address_prefix, List.append_assoc]
    rfl
  | _, _, .after t => by
    rw [SpendPolicy.address, lay_policy, policy, subPolicy, address_prefix, List.append_assoc]
    rfl
  | _, _, .publicKey k => by
    rw [SpendPolicy.address, lay_policy, policy, subPolicy, address_prefix, List.append_assoc]
    rfl
  | _, _, .hash h => by
    rw [SpendPolicy.address, lay_policy, policy, subPolicy, address_prefix, List.append_assoc]
    rfl
  | _, _, .threshold n of as hs => by
    have h := addresses_of hs
    have hl := congrArg List.length h
    rw [List.length_map, List.length_map] at hl
    rw [SpendPolicy.address, opaqueAll_map H of as h]
    simp only [Res.ok_bind]
    rw [lay_policy, policy, subPolicy, address_prefix, opaque_bytes, List.length_map, hl, List.append_assoc]
    rfl
  | _, _, .opaqueAddr a => by rw [SpendPolicy.address]
  | _, _, .unlockConditions uc a hk hr => by
    rw [SpendPolicy.address]
    obtain ⟨r, h1, h2⟩ := C32_address_exact H uc hk
    rw [h1]
    rw [conditionLeaves_eq] at hr
    rw [h2.unique hr]

theorem addresses_of {H : Hasher} : ∀ {ps : List SpendPolicy} {as : List Address}, AddressesOf H ps as →
    ps.map (SpendPolicy.address H) = as.map .ok
  | _, _, .nil => rfl
  | _, _, .cons p ps a as h hs => by rw [List.map_cons, List.map_cons, address_of h, addresses_of hs]

end

/-- C56: the address of a policy is the one specified, byte by byte. -/
theorem C56_policy_address (H : Hasher) (p : SpendPolicy) (h : Keys64 p) :
    ∃ a, p.address H = .ok a ∧ ∀ b, AddressOf H p b ↔ b = a := by
  have ex : ∃ a, AddressOf H p a := by
    induction h with
    | above h => exact ⟨_, .above h⟩
    | after t => exact ⟨_, .after t⟩
    | publicKey k => exact ⟨_, .publicKey k⟩
    | hash h => exact ⟨_, .hash h⟩
    | opaqueAddr a => exact ⟨_, .opaqueAddr a⟩
    | unlockConditions uc hk =>
      obtain ⟨r, -, h2⟩ := C32_address_exact H uc hk
      refine ⟨r, .unlockConditions uc r hk ?_⟩
      rw [conditionLeaves_eq]
      exact h2
    | threshold n of _ ih =>
      have : ∃ as, AddressesOf H of as := by
        rename_i hk
        clear hk
        induction of with
        | nil => exact ⟨_, .nil⟩
        | cons p ps ihl =>
          obtain ⟨a, ha⟩ := ih p (by simp)
          obtain ⟨as, has⟩ := ihl fun q hq => ih q (by simp [hq])
          exact ⟨_, .cons p ps a as ha has⟩
      obtain ⟨as, has⟩ := this
      exact ⟨_, .threshold n of as has⟩
  obtain ⟨a, ha⟩ := ex
  refine ⟨a, address_of ha, fun b => ⟨fun hb => ?_, fun e => e ▸ ha⟩⟩
  exact Res.ok.inj ((address_of hb).symm.trans (address_of ha))

example : Keys64 (.threshold 2 [.above 5, .threshold 1 [.hash (Sample.h 1)], .unlockConditions Sample.uc]) := by
  refine .threshold _ _ fun p hp => ?_
  simp only [List.mem_cons, List.not_mem_nil, or_false] at hp
  rcases hp with rfl | rfl | rfl
  · exact .above 5
  · refine .threshold _ _ fun p hp => ?_
    simp only [List.mem_cons, List.not_mem_nil, or_false] at hp
    subst hp
    exact .hash _
  · exact .unlockConditions _ (by decide +kernel)

/-- C56: the address of the conditions that one key alone can satisfy, written out. -/
theorem C56_single_key_address (H : Hasher) (timelock sigs : U64) (k : UnlockKey) :
    (⟨timelock, [k], sigs⟩ : UnlockConditions).address H =
      .ok (H ([1] ++ (H ([1] ++ (H ([0] ++ le64 timelock.toNat)).1 ++ (H ([0] ++ unlockKey k)).1)).1 ++
        (H ([0] ++ le64 sigs.toNat)).1)) := by
  obtain ⟨r, h1, h2⟩ := C32_address_exact H ⟨timelock, [k], sigs⟩ (by simp)
  rw [h1]
  have e : (⟨timelock, [k], sigs⟩ : UnlockConditions).leaves H =
      ([H ([0] ++ le64 timelock.toNat)] ++ [H ([0] ++ unlockKey k)]) ++ [H ([0] ++ le64 sigs.toNat)] := by
    rw [UnlockConditions.leaves, ← conditionLeaves_eq]
    rfl
  rw [e] at h2
  rw [h2.unique (.node 1 _ _ _ _ rfl (by simp) (by simp) (.full 0 [_] [] _ _ rfl rfl (.leaf _)) (.leaf _))]

end Verif
