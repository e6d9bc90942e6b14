import Verif.Lemmas.Blake2b
import Verif.Lemmas.Writer
import Verif.Model.Streaming
import Verif.Props.Consensus
import Verif.Props.Merkle
import Verif.Props.Rhp
import Verif.Props.Writer

/-!
# C59: hashing in pieces, with BLAKE2b
-/

namespace Verif

open Wr

namespace Blake2b

/-- Code that feeds `bs` to a hash state. -/
def Feeds (w : Wr Stream Unit) (bs : List UInt8) : Prop := ∀ s : Stream, s.buf.length ≤ 128 → w s = ⟨bs, s.update bs, .ok⟩

theorem feeds_feed (bs : List UInt8) : Feeds (feed bs) bs := fun _ _ => rfl

theorem feeds_done : Feeds done [] := fun s h => by rw [s.update_nil h]; rfl

theorem Feeds.andThen {a b : Wr Stream Unit} {x y : List UInt8} (ha : Feeds a x) (hb : Feeds b y) : Feeds (a ?; b) (x ++ y) := fun s h => by
  rw [Wr.andThen_ok (ha s h), hb _ (s.update_small x), Stream.update_update]

theorem Feeds.unwrap {a : Wr Stream Unit} {x : List UInt8} (ha : Feeds a x) : Feeds a.unwrap x := fun s h => by
  unfold Wr.unwrap
  rw [ha s h]

theorem feeds_forEach {α : Type} {f : α → Wr Stream Unit} {g : α → List UInt8} (h : ∀ a, Feeds (f a) (g a)) (l : List α) :
    Feeds (forEach f l) (l.flatMap g) := by
  induction l with
  | nil => exact feeds_done
  | cons a l ih => exact (h a).andThen ih

theorem took_update {s s' : Stream} {todo left : List UInt8} (h : sink.Took s todo left s') (hs : s.buf.length ≤ 128) :
    ∃ p, todo = p ++ left ∧ s' = s.update p := by
  induction h with
  | start s todo => exact ⟨[], rfl, (s.update_nil hs).symm⟩
  | @more s s' s'' buf todo left n h1 h2 h3 h4 _ ih =>
    cases h3
    obtain ⟨p, e1, e2⟩ := ih (s.update_small buf)
    obtain ⟨t, rfl⟩ := h2
    rw [Nat.min_self, List.drop_left] at e1
    exact ⟨buf ++ p, by rw [e1, List.append_assoc], by rw [e2, Stream.update_update]⟩

theorem feeds_of_delivers {w : Wr Stream Unit} {bs : List UInt8} (h : Delivers sink w bs) : Feeds w bs := fun s hs => by
  rcases h s with ⟨s', h1, h2⟩ | ⟨_, _, _, s₁, s₂, e, _, _, _, hb, hr⟩
  · obtain ⟨p, e1, e2⟩ := took_update h2 hs
    rw [List.append_nil] at e1
    rw [h1, e2, e1]
  · rcases hr with ⟨x, hx, _⟩ | ⟨hx, _⟩
    · simp [sink] at hx
    · simp only [sink, Prod.mk.injEq, Except.ok.injEq] at hx
      exact absurd (List.length_eq_zero_iff.mp hx.2) hb

theorem Feeds.run {w : Wr Stream Unit} {bs : List UInt8} (h : Feeds w bs) : Blake2b.run w = .ok (hash bs) := by
  unfold Blake2b.run
  rw [h Stream.new (by decide), hash_eq_stream]

theorem Feeds.of_eq {w : Wr Stream Unit} {bs bs' : List UInt8} (h : Feeds w bs) (e : bs = bs') : Feeds w bs' := e ▸ h

theorem feeds_emit {v : Ver} {α : Type} [Codec v α] [Writes v α] [Delivered v α] (a : α) : Feeds (emit v sink a) (enc v a) :=
  feeds_of_delivers (delivers a)

/-- C59: however a message is cut into pieces, feeding them to a hash state gives the hash of the message. -/
theorem _root_.Verif.C59_pieces (ps : List (List UInt8)) : (ps.foldl Stream.update Stream.new).finalize = hash ps.flatten := by
  rw [hash_eq_stream, Stream.foldl_update ps Stream.new (by decide)]

/-- C59: the state holds at most one block of 128 bytes; all others are compressed, and it counts every byte. -/
theorem _root_.Verif.C59_buffer (ps : List (List UInt8)) :
    (ps.foldl Stream.update Stream.new).buf.length ≤ 128 ∧ (ps.foldl Stream.update Stream.new).count % 128 = 0 ∧
    (ps.foldl Stream.update Stream.new).count + (ps.foldl Stream.update Stream.new).buf.length = ps.flatten.length ∧
    (ps.flatten ≠ [] → (ps.foldl Stream.update Stream.new).buf ≠ []) := by
  rw [Stream.foldl_update ps Stream.new (by decide), Stream.update_eq]
  obtain ⟨h1, h2, h3, h4⟩ := Stream.absorb_length (Stream.new.buf.length + ps.flatten.length) (Stream.new.push ps.flatten) (by simp [Stream.push])
  refine ⟨h1, h3 rfl, ?_, fun hne => h4 hne⟩
  rw [h2]
  show 0 + ([] ++ ps.flatten).length = _
  rw [Nat.zero_add, List.nil_append]

theorem run_updates (ps : List (List UInt8)) : updates ps = .ok (hash ps.flatten) := by
  have := (feeds_forEach (fun p => feeds_feed p) ps).run
  rw [List.flatMap_id'] at this
  exact this

/-- C59: the derived identifiers, Merkle nodes and leaves, checksums and seeds: one `update` for each part. -/
theorem _root_.Verif.C59_parts (id : Arr 32) (pre : List UInt8) (i : U64) (valid : Bool) (l r : Hash256) (leaf : List UInt8) :
    updates [id.1] = .ok (Ids.claimOutputId hash id) ∧
    updates [ascii "sia/id/v2siacoinclaimoutput|", id.1] = .ok (Ids.v2ClaimOutputId hash id) ∧
    updates [id.1, (specifier (ascii "foundation")).1] = .ok (Ids.foundationOutputId hash id) ∧
    updates [id.1, le8 i] = .ok (Ids.minerOutputId hash id i) ∧
    updates [pre, id.1, le8 i] = .ok (Ids.deriveV2ChildId hash id pre i) ∧
    updates [(specifier (ascii "storage proof")).1, id.1, [if valid then 1 else 0], le8 i] = .ok (Ids.deriveProofOutputId hash id valid i) ∧
    updates [ascii "id/v2filecontractoutput", id.1, le8 i] = .ok (Ids.deriveV2ProofOutputId hash id i) ∧
    updates [ascii "id/v2filecontractrenewal", id.1] = .ok (Ids.v2RenewalId hash id) ∧
    updates [[0], leaf] = .ok (sumLeaf hash leaf) ∧ updates [[1], l.1, r.1] = .ok (sumNode hash l r) := by
  simp only [run_updates, List.flatten_cons, List.flatten_nil, List.append_nil]
  exact ⟨rfl, rfl, rfl, rfl, rfl, rfl, rfl, rfl, rfl, rfl⟩

/-- C59: transaction identifiers, computed as the code does by encoding into a hash state. -/
theorem _root_.Verif.C59_transaction_ids (t : V1.Transaction) (t2 : V2.Transaction) (pre : Specifier) (i : U64) :
    v1Id t = .ok (t.id hash) ∧ v1ChildId t pre i = .ok (t.deriveChildId hash pre i) ∧ v2Id t2 = .ok (t2.id hash) :=
  ⟨(feeds_of_delivers t.delivers_noSigs).unwrap.run,
    ((feeds_feed _).andThen ((feeds_of_delivers t.delivers_noSigs).unwrap.andThen (feeds_feed _))).run,
    (feeds_of_delivers t2.delivers_semantics).unwrap.run⟩

theorem feeds_signed {w : Wr Stream Unit} {bs : List UInt8} (pre : List UInt8) (cs : ChainState) (h : Delivers sink w bs) :
    Feeds (feed pre ?; feed cs.replayPrefix ?; w.unwrap) (pre ++ (cs.replayPrefix ++ bs)) :=
  (feeds_feed _).andThen ((feeds_feed _).andThen (feeds_of_delivers h).unwrap)

/-- C59: the hashes signed in v2. -/
theorem _root_.Verif.C59_v2_sig_hashes (cs : ChainState) (t : V2.Transaction) (a : V2.Attestation) (c : V2.FileContract) (r : V2.FileContractRenewal) :
    inputSigHash t cs = .ok (t.inputSigHash hash cs) ∧ attestationSigHash a cs = .ok (a.sigHash hash cs) ∧
    contractSigHash c cs = .ok (c.sigHash hash cs) ∧ renewalSigHash r cs = .ok (r.sigHash hash cs) :=
  ⟨(feeds_signed _ _ t.delivers_semantics).run, (feeds_signed _ _ a.delivers_semantics).run, (feeds_signed _ _ c.delivers_semantics).run,
    (feeds_signed _ _ r.delivers_semantics).run⟩

theorem feeds_inputs {α : Type} [Codec .v1 α] [Writes .v1 α] [Delivered .v1 α] (cs : ChainState) (l : List α) :
    Feeds (feed (le8 (BitVec.ofNat 64 l.length)) ?; forEach (fun i => feed cs.replayPrefix ?; emit .v1 sink i) l)
      (V1.Transaction.prefixedInputs cs.replayPrefix l) :=
  (feeds_feed _).andThen (feeds_forEach (fun a => (feeds_feed _).andThen (feeds_emit a)) l)

theorem andThen_assoc (a b c : Wr Stream Unit) : ((a ?; b) ?; c) = (a ?; b ?; c) := by
  funext s
  unfold Wr.andThen
  cases h : (a s).out <;> simp only [h]
  · cases (b (a s).after).out <;> simp only [List.append_assoc]

/-- C59: the hash signed for a whole v1 transaction. -/
theorem _root_.Verif.C59_whole_sig_hash (t : V1.Transaction) (cs : ChainState) (parentId : Arr 32) (publicKeyIndex timelock : U64) :
    wholeSigHash t cs parentId publicKeyIndex timelock = .ok (t.wholeSigHash hash cs parentId publicKeyIndex timelock) := by
  have h := (feeds_inputs cs t.siacoinInputs).andThen ((feeds_emit (v := .v1) t.siacoinOutputs).andThen ((feeds_emit (v := .v1) t.fileContracts).andThen
    ((feeds_emit (v := .v1) t.fileContractRevisions).andThen ((feeds_emit (v := .v1) t.storageProofs).andThen ((feeds_inputs cs t.siafundInputs).andThen
    ((feeds_emit (v := .v1) t.siafundOutputs).andThen ((feeds_emit (v := .v1) t.minerFees).andThen ((feeds_emit (v := .v1) t.arbitraryData).andThen ((feeds_feed parentId.1).andThen
    ((feeds_emit (v := .v1) publicKeyIndex).andThen (feeds_emit (v := .v1) timelock)))))))))))
  rw [andThen_assoc, andThen_assoc] at h
  exact h.run

/-- Code that feeds the bytes, or is rejected. -/
def Tries (w : Wr Stream Unit) (r : Res (List UInt8)) : Prop :=
  (∃ bs, r = .ok bs ∧ Feeds w bs) ∨ (r = .err .custom ∧ ∀ s : Stream, s.buf.length ≤ 128 → ∃ p s', w s = ⟨p, s', .err (.io ())⟩)

theorem Tries.cons {α : Type} {f : α → Wr Stream Unit} {a : α} {l : List α} {r r' : Res (List UInt8)} (h : Tries (f a) r) (h' : Tries (forEach f l) r') :
    Tries (forEach f (a :: l)) (do let x ← r; let y ← r'; pure (x ++ y)) := by
  rcases h with ⟨x, rfl, hx⟩ | ⟨rfl, hx⟩
  · rcases h' with ⟨y, rfl, hy⟩ | ⟨rfl, hy⟩
    · exact .inl ⟨x ++ y, rfl, hx.andThen hy⟩
    · refine .inr ⟨rfl, fun s hs => ?_⟩
      obtain ⟨p, s', e⟩ := hy (s.update x) (s.update_small x)
      exact ⟨x ++ p, s', by rw [forEach, Wr.andThen_ok (hx s hs), e]⟩
  · refine .inr ⟨rfl, fun s hs => ?_⟩
    obtain ⟨p, s', e⟩ := hx s hs
    exact ⟨p, s', by rw [forEach, Wr.andThen_err e]⟩

theorem tries_reject : Tries reject (.err .custom) := .inr ⟨rfl, fun s _ => ⟨[], s, rfl⟩⟩

theorem tries_selectedInputs {α : Type} [Codec .v1 α] [Writes .v1 α] [Delivered .v1 α] (cs : ChainState) (l : List α) (is : List U64) :
    Tries (selectedInputs cs l is) (V1.Transaction.coveredBytes cs.replayPrefix l is) := by
  induction is with
  | nil => exact .inl ⟨[], rfl, feeds_done⟩
  | cons i is ih =>
    have head : Tries (if h : i.toNat < l.length then feed cs.replayPrefix ?; emit .v1 sink l[i.toNat] else reject)
        (if h : i.toNat < l.length then .ok (cs.replayPrefix ++ enc .v1 l[i.toNat]) else .err .custom) := by
      by_cases h : i.toNat < l.length
      · rw [dif_pos h, dif_pos h]
        exact .inl ⟨_, rfl, (feeds_feed _).andThen (feeds_emit _)⟩
      · rw [dif_neg h, dif_neg h]
        exact tries_reject
    have := Tries.cons (f := fun i : U64 => if h : i.toNat < l.length then feed cs.replayPrefix ?; emit .v1 sink l[i.toNat] else reject) head ih
    unfold V1.Transaction.coveredBytes
    by_cases h : i.toNat < l.length
    · rw [dif_pos h] at this ⊢
      rw [Res.ok_bind] at this
      simp only [List.append_assoc] at this
      exact this
    · rw [dif_neg h] at this ⊢
      exact this

theorem tries_selected {α : Type} [Codec .v1 α] [Writes .v1 α] [Delivered .v1 α] (l : List α) (is : List U64) :
    Tries (selected l is) (V1.Transaction.coveredBytes [] l is) := by
  induction is with
  | nil => exact .inl ⟨[], rfl, feeds_done⟩
  | cons i is ih =>
    have head : Tries (if h : i.toNat < l.length then emit .v1 sink l[i.toNat] else reject)
        (if h : i.toNat < l.length then .ok (enc .v1 l[i.toNat]) else .err .custom) := by
      by_cases h : i.toNat < l.length
      · rw [dif_pos h, dif_pos h]
        exact .inl ⟨_, rfl, feeds_emit _⟩
      · rw [dif_neg h, dif_neg h]
        exact tries_reject
    have := Tries.cons (f := fun i : U64 => if h : i.toNat < l.length then emit .v1 sink l[i.toNat] else reject) head ih
    unfold V1.Transaction.coveredBytes
    by_cases h : i.toNat < l.length
    · rw [dif_pos h] at this ⊢
      rw [Res.ok_bind] at this
      exact this
    · rw [dif_neg h] at this ⊢
      exact this

/-- The two ways to go on after a piece of `partial_sig_hash`. -/
theorem Tries.andThen {a b : Wr Stream Unit} {r r' : Res (List UInt8)} (h : Tries a r) (h' : Tries b r') :
    Tries (a ?; b) (do let x ← r; let y ← r'; pure (x ++ y)) := by
  rcases h with ⟨x, rfl, hx⟩ | ⟨rfl, hx⟩
  · rcases h' with ⟨y, rfl, hy⟩ | ⟨rfl, hy⟩
    · exact .inl ⟨x ++ y, rfl, hx.andThen hy⟩
    · refine .inr ⟨rfl, fun s hs => ?_⟩
      obtain ⟨p, s', e⟩ := hy (s.update x) (s.update_small x)
      exact ⟨x ++ p, s', by rw [Wr.andThen_ok (hx s hs), e]⟩
  · refine .inr ⟨rfl, fun s hs => ?_⟩
    obtain ⟨p, s', e⟩ := hx s hs
    exact ⟨p, s', Wr.andThen_err e⟩

theorem Tries.run {w : Wr Stream Unit} {r : Res (List UInt8)} (h : Tries w r) : Blake2b.run w = (do let x ← r; pure (hash x)) := by
  rcases h with ⟨x, rfl, hx⟩ | ⟨rfl, hx⟩
  · rw [hx.run]; rfl
  · obtain ⟨p, s', e⟩ := hx Stream.new (by decide)
    unfold Blake2b.run
    rw [e]
    rfl

theorem covered_cases {α : Type} [Codec .v1 α] [Writes .v1 α] [Delivered .v1 α] (l : List α) (is : List U64) (pre : List UInt8) :
    (∃ bs, V1.Transaction.coveredBytes pre l is = .ok bs) ∨ V1.Transaction.coveredBytes pre l is = .err .custom := by
  induction is with
  | nil => exact .inl ⟨[], rfl⟩
  | cons i is ih =>
    unfold V1.Transaction.coveredBytes
    by_cases h : i.toNat < l.length
    · rw [dif_pos h]
      rcases ih with ⟨bs, e⟩ | e
      · rw [e]; exact .inl ⟨_, rfl⟩
      · rw [e]; exact .inr rfl
    · rw [dif_neg h]; exact .inr rfl

/-- C59: the hash signed for selected fields of a v1 transaction: it is rejected for the same selections, and equal otherwise. -/
theorem _root_.Verif.C59_partial_sig_hash (t : V1.Transaction) (cs : ChainState) (c : V1.CoveredFields) :
    partialSigHash t cs c = t.partialSigHash hash cs c := by
  have h := (tries_selectedInputs cs t.siacoinInputs c.siacoinInputs).andThen ((tries_selected t.siacoinOutputs c.siacoinOutputs).andThen
    ((tries_selected t.fileContracts c.fileContracts).andThen ((tries_selected t.fileContractRevisions c.fileContractRevisions).andThen
    ((tries_selected t.storageProofs c.storageProofs).andThen ((tries_selectedInputs cs t.siafundInputs c.siafundInputs).andThen
    ((tries_selected t.siafundOutputs c.siafundOutputs).andThen ((tries_selected t.minerFees c.minerFees).andThen
    ((tries_selected t.arbitraryData c.arbitraryData).andThen (tries_selected t.signatures c.signatures)))))))))
  have h := h.run
  unfold partialSigHash V1.Transaction.partialSigHash
  rw [h]
  rcases covered_cases t.siacoinInputs c.siacoinInputs cs.replayPrefix with ⟨b0, e⟩ | e <;> rw [e]
  rotate_left
  · rfl
  rcases covered_cases t.siacoinOutputs c.siacoinOutputs [] with ⟨b1, e⟩ | e <;> rw [e]
  rotate_left
  · rfl
  rcases covered_cases t.fileContracts c.fileContracts [] with ⟨b2, e⟩ | e <;> rw [e]
  rotate_left
  · rfl
  rcases covered_cases t.fileContractRevisions c.fileContractRevisions [] with ⟨b3, e⟩ | e <;> rw [e]
  rotate_left
  · rfl
  rcases covered_cases t.storageProofs c.storageProofs [] with ⟨b4, e⟩ | e <;> rw [e]
  rotate_left
  · rfl
  rcases covered_cases t.siafundInputs c.siafundInputs cs.replayPrefix with ⟨b5, e⟩ | e <;> rw [e]
  rotate_left
  · rfl
  rcases covered_cases t.siafundOutputs c.siafundOutputs [] with ⟨b6, e⟩ | e <;> rw [e]
  rotate_left
  · rfl
  rcases covered_cases t.minerFees c.minerFees [] with ⟨b7, e⟩ | e <;> rw [e]
  rotate_left
  · rfl
  rcases covered_cases t.arbitraryData c.arbitraryData [] with ⟨b8, e⟩ | e <;> rw [e]
  rotate_left
  · rfl
  rcases covered_cases t.signatures c.signatures [] with ⟨b9, e⟩ | e <;> rw [e] <;> rfl

/-- C59: the leaves and hashes in addresses. -/
theorem _root_.Verif.C59_addresses (k : UnlockKey) (p : SpendPolicy) :
    keyLeaf k = .ok (hash ([0] ++ enc .v2 k)) ∧ policyHash p = .ok (hash (ascii "sia/address|" ++ enc .v2 p)) :=
  ⟨((feeds_feed _).andThen (feeds_emit k).unwrap).run, ((feeds_feed _).andThen (feeds_emit p).unwrap).run⟩

end Blake2b

/-! ## The violations with the real hash function -/

/-- C33 is violated with BLAKE2b: the accumulator's root of these four leaves is not their Merkle root. -/
theorem C33_not_merkle_root_blake2b :
    ∃ (l : List Hash256) (a : Accumulator), l.length = 4 ∧ Accumulator.new.addLeaves Blake2b.hash l = .ok a ∧
      ¬ IsMerkleRoot Blake2b.hash l (a.root Blake2b.hash) := by
  let l := [Sample.leaf 1, Sample.leaf 2, Sample.leaf 4, Sample.leaf 8]
  obtain ⟨a, ha, -, hr⟩ := C33_accumulator_exact Blake2b.hash l (by decide)
  refine ⟨l, a, rfl, ha, fun hm => ?_⟩
  have h1 := (hr (by simp [l]) _).mpr (.full 1 [Sample.leaf 1, Sample.leaf 2] [Sample.leaf 4] _ (Sample.leaf 8) rfl rfl
    (.full 0 [Sample.leaf 1] [] _ (Sample.leaf 2) rfl rfl (.leaf _)))
  have h2 : IsMerkleRoot Blake2b.hash l _ :=
    .node 1 [Sample.leaf 1, Sample.leaf 2] [Sample.leaf 4, Sample.leaf 8] _ _ rfl (by decide) (by decide)
      (.node 0 [Sample.leaf 1] [Sample.leaf 2] _ _ rfl (by decide) (by decide) (.leaf _) (.leaf _))
      (.node 0 [Sample.leaf 4] [Sample.leaf 8] _ _ rfl (by decide) (by decide) (.leaf _) (.leaf _))
  have := hm.unique h2
  rw [h1] at this
  exact absurd this (by decide +kernel)

/-- C32 is violated with BLAKE2b: the address of these unlock conditions with two keys is not the Merkle root of their leaves. -/
theorem C32_not_merkle_root_blake2b :
    ∃ (uc : UnlockConditions) (a : Address), uc.publicKeys.length = 2 ∧ uc.address Blake2b.hash = .ok a ∧
      ¬ IsMerkleRoot Blake2b.hash (uc.leaves Blake2b.hash) a := by
  let uc : UnlockConditions := ⟨0, [⟨Sample.ed25519, List.replicate 32 1⟩, ⟨Sample.ed25519, List.replicate 32 2⟩], 2⟩
  obtain ⟨a, h1, h2⟩ := C32_address_exact Blake2b.hash uc (by decide)
  refine ⟨uc, a, rfl, h1, fun hm => ?_⟩
  obtain ⟨w, x, y, z, hl⟩ : ∃ w x y z, uc.leafStrings = [w, x, y, z] := ⟨_, _, _, _, rfl⟩
  have hl : uc.leafStrings = [[0] ++ leBytes 8 0, [0] ++ enc .v2 (⟨Sample.ed25519, List.replicate 32 1⟩ : UnlockKey),
    [0] ++ enc .v2 (⟨Sample.ed25519, List.replicate 32 2⟩ : UnlockKey), [0] ++ leBytes 8 2] := rfl
  unfold UnlockConditions.leaves at h2 hm
  rw [hl] at h2 hm
  simp only [List.map_cons, List.map_nil] at h2 hm
  have e1 := h2.unique (.full 1 [_, _] [_] _ _ rfl rfl (.full 0 [_] [] _ _ rfl rfl (.leaf _)))
  have e2 := hm.unique (.node 1 [_, _] [_, _] _ _ rfl (by decide) (by decide)
      (.node 0 [_] [_] _ _ rfl (by decide) (by decide) (.leaf _) (.leaf _))
      (.node 0 [_] [_] _ _ rfl (by decide) (by decide) (.leaf _) (.leaf _)))
  rw [e1] at e2
  exact absurd e2 (by decide +kernel)

/-! ### Sectors -/

theorem merkle_replicate (H : Hasher) (x : Hash256) (R : Nat → Hash256) (n : Nat) (h0 : R 0 = x) (hs : ∀ k < n, R (k + 1) = H ([1] ++ (R k).1 ++ (R k).1)) :
    ∀ k ≤ n, IsMerkleRoot H (List.replicate (2 ^ k) x) (R k) := by
  intro k
  induction k with
  | zero => intro _; rw [h0]; exact .leaf x
  | succ k ih =>
    intro hk
    rw [hs k (by omega), show 2 ^ (k + 1) = 2 ^ k + 2 ^ k by omega, ← List.replicate_append_replicate]
    have hp : 0 < 2 ^ k := Nat.two_pow_pos k
    exact .node k _ _ _ _ List.length_replicate (by rw [List.length_replicate]; exact hp) (by rw [List.length_replicate]; exact Nat.le_refl _)
      (ih (by omega)) (ih (by omega))

theorem merkle_replicate_last (H : Hasher) (x y : Hash256) (R S : Nat → Hash256) (n : Nat) (h0 : R 0 = x) (h0' : S 0 = y)
    (hs : ∀ k < n, R (k + 1) = H ([1] ++ (R k).1 ++ (R k).1)) (hs' : ∀ k < n, S (k + 1) = H ([1] ++ (R k).1 ++ (S k).1)) :
    ∀ k ≤ n, IsMerkleRoot H (List.replicate (2 ^ k - 1) x ++ [y]) (S k) := by
  intro k
  induction k with
  | zero => intro _; rw [h0']; exact .leaf y
  | succ k ih =>
    intro hk
    have hp : 0 < 2 ^ k := Nat.two_pow_pos k
    rw [hs' k (by omega), show 2 ^ (k + 1) - 1 = 2 ^ k + (2 ^ k - 1) by omega, ← List.replicate_append_replicate, List.append_assoc]
    exact .node k _ _ _ _ List.length_replicate (by simp) (by simp; omega) (merkle_replicate H x R n h0 hs k (by omega)) (ih (by omega))

namespace Sample

/-- Merkle roots of 2^k segments of zeros. -/
def zeroRoots : List Hash256 := [
  ⟨[0xd3, 0x4e, 0x94, 0xd7, 0x4d, 0x0c, 0xb9, 0x66, 0x5a, 0x8b, 0xc4, 0x2e, 0x89, 0x54, 0xf5, 0x06, 0x06, 0xba, 0x7b, 0xe3, 0xda, 0xec, 0x7f, 0x5b, 0xdf, 0x1a, 0x35, 0xe2, 0x91, 0x94, 0x17, 0x70], rfl⟩,
  ⟨[0x5b, 0x3b, 0xc2, 0x2a, 0x61, 0x95, 0x74, 0xa6, 0x68, 0xc4, 0xe2, 0xa2, 0x2f, 0xa7, 0x22, 0x10, 0x61, 0x18, 0x13, 0xc6, 0xed, 0x44, 0xcf, 0x44, 0x57, 0x89, 0xee, 0x31, 0x61, 0x02, 0xbf, 0xe1], rfl⟩,
  ⟨[0x3d, 0x8e, 0x64, 0x4c, 0xaa, 0x3e, 0x7a, 0xc7, 0x20, 0xb1, 0xf7, 0xce, 0x42, 0xd8, 0x29, 0xec, 0xf2, 0xc0, 0xad, 0x7e, 0xf6, 0x56, 0x25, 0x8f, 0x4c, 0x1c, 0x90, 0x42, 0x20, 0x74, 0xba, 0x23], rfl⟩,
  ⟨[0xd6, 0x6f, 0x6f, 0xce, 0x29, 0x31, 0x0f, 0x5d, 0x2d, 0xb0, 0xd2, 0x39, 0x8e, 0x6d, 0x93, 0xb2, 0x3c, 0x9f, 0xa1, 0x98, 0x2b, 0x72, 0x49, 0xb0, 0x76, 0x64, 0x59, 0x0b, 0x7a, 0xeb, 0xc4, 0x9a], rfl⟩,
  ⟨[0xf0, 0x02, 0x2a, 0x57, 0x33, 0x26, 0xec, 0xc0, 0xe4, 0xc1, 0x8c, 0xf5, 0x6b, 0x9a, 0x31, 0xd9, 0x4d, 0xc7, 0x92, 0xf8, 0xec, 0x20, 0xec, 0xbb, 0xc5, 0x7d, 0x33, 0xc7, 0x5d, 0xb2, 0x4c, 0x54], rfl⟩,
  ⟨[0xe2, 0x40, 0xea, 0x5d, 0xa6, 0xc9, 0x21, 0x04, 0x62, 0x99, 0x4b, 0x84, 0x29, 0x4d, 0x86, 0x2f, 0x6d, 0x01, 0x2c, 0xfb, 0x12, 0xea, 0x0b, 0x70, 0x61, 0x84, 0xa9, 0x4d, 0x4c, 0x5f, 0x26, 0xbf], rfl⟩,
  ⟨[0x92, 0x13, 0x80, 0x4e, 0x19, 0x9c, 0xab, 0x34, 0x49, 0x18, 0x5a, 0x55, 0x17, 0xf5, 0x4e, 0x49, 0xc1, 0xd6, 0xb0, 0x89, 0x2b, 0x82, 0x69, 0xed, 0x4b, 0xaa, 0xb6, 0x2d, 0xbf, 0x3e, 0x8e, 0xbb], rfl⟩,
  ⟨[0xf0, 0x52, 0xbf, 0x6d, 0xb4, 0x44, 0x45, 0x32, 0xed, 0x0d, 0x8f, 0xdf, 0xc6, 0x7c, 0x0c, 0xe9, 0x68, 0x8f, 0xb4, 0x04, 0x2d, 0x46, 0x1a, 0x5b, 0xb3, 0x67, 0x50, 0x6d, 0xe5, 0xe7, 0x12, 0xa8], rfl⟩,
  ⟨[0x61, 0xb3, 0xd8, 0x24, 0xe7, 0xb4, 0x66, 0x2d, 0xf8, 0x67, 0x47, 0x7f, 0x09, 0x33, 0x5d, 0xfe, 0xcf, 0xc9, 0x90, 0xc9, 0xf0, 0xb3, 0x73, 0x1f, 0xbe, 0xc9, 0x81, 0x42, 0x8b, 0x38, 0x19, 0x0d], rfl⟩,
  ⟨[0x27, 0x2b, 0x12, 0x2c, 0x69, 0x43, 0xa7, 0xdd, 0x6b, 0x5e, 0x27, 0x97, 0xa7, 0x27, 0xde, 0x61, 0xf5, 0x3c, 0x27, 0x4f, 0x29, 0xd7, 0xd3, 0xe4, 0xe3, 0x0d, 0x40, 0x62, 0x0f, 0x83, 0xdc, 0x2b], rfl⟩,
  ⟨[0x5c, 0xe1, 0x8a, 0xb6, 0x2a, 0x07, 0xbb, 0x4d, 0x4d, 0xef, 0x25, 0x09, 0xf8, 0xbf, 0xa9, 0x82, 0xd5, 0xcf, 0xd0, 0x7d, 0xeb, 0x53, 0x32, 0x48, 0xab, 0xfd, 0x7b, 0x30, 0x56, 0x52, 0x47, 0x0c], rfl⟩,
  ⟨[0x39, 0xcb, 0x8a, 0xa6, 0xfe, 0xac, 0xe0, 0x19, 0x24, 0xb7, 0x32, 0x66, 0x4b, 0x81, 0xa8, 0xf4, 0x1d, 0x68, 0x8c, 0xbd, 0x78, 0x17, 0x15, 0x4c, 0x66, 0x3c, 0x16, 0x86, 0xa4, 0xcf, 0x6a, 0x0e], rfl⟩,
  ⟨[0x95, 0xab, 0x60, 0x87, 0x99, 0xeb, 0x9c, 0x48, 0x57, 0x12, 0xa4, 0xc9, 0x95, 0xd4, 0xe2, 0x2e, 0xa7, 0xb2, 0x00, 0x24, 0xfe, 0x81, 0x73, 0x0f, 0x5b, 0x4d, 0xeb, 0x49, 0x82, 0xe9, 0x7b, 0x78], rfl⟩,
  ⟨[0x65, 0x30, 0xf5, 0x43, 0x35, 0x04, 0xba, 0x84, 0x53, 0x32, 0xdd, 0x51, 0x74, 0x2b, 0x57, 0xf0, 0x66, 0x64, 0x56, 0xc9, 0x9b, 0x78, 0xf6, 0x7c, 0x72, 0xfa, 0xc3, 0x81, 0x98, 0x05, 0x27, 0xb1], rfl⟩,
  ⟨[0x53, 0xae, 0x21, 0xd1, 0x3d, 0xa9, 0x2c, 0x67, 0x41, 0xcf, 0x44, 0xe9, 0xb0, 0x8e, 0x0c, 0x06, 0x16, 0x48, 0x54, 0x02, 0xc3, 0x43, 0xe4, 0xf6, 0xc9, 0x2e, 0x5c, 0x85, 0x16, 0x18, 0x7b, 0xcf], rfl⟩,
  ⟨[0xf2, 0xc4, 0xd3, 0xe9, 0xce, 0x38, 0x03, 0x89, 0xb1, 0x08, 0x8d, 0x44, 0xdd, 0xb3, 0x02, 0x76, 0xfb, 0xff, 0x5f, 0x75, 0x80, 0x3c, 0x2b, 0xd1, 0x36, 0x78, 0xb6, 0x90, 0xf4, 0x18, 0x7d, 0x7e], rfl⟩,
  ⟨[0x50, 0xed, 0x59, 0xce, 0xcd, 0x5e, 0xd3, 0xca, 0x9e, 0x65, 0xce, 0xc0, 0x79, 0x72, 0x02, 0x09, 0x1d, 0xbb, 0xa4, 0x52, 0x72, 0xda, 0xfa, 0x3f, 0xaa, 0x4e, 0x27, 0x06, 0x4e, 0xed, 0xd5, 0x2c], rfl⟩]

/-- Merkle roots of 2^k segments of zeros but for the last byte. -/
def lastByteRoots : List Hash256 := [
  ⟨[0xc1, 0x8c, 0x7f, 0x5e, 0xc1, 0xfd, 0x32, 0x10, 0xbf, 0x67, 0x3a, 0xd6, 0x60, 0xfd, 0xdf, 0x78, 0x15, 0xe8, 0x4a, 0x1c, 0x62, 0x37, 0xc8, 0x7d, 0x64, 0x42, 0xf3, 0x49, 0xbe, 0xa7, 0x63, 0x8d], rfl⟩,
  ⟨[0xd6, 0x97, 0x31, 0x7b, 0x1f, 0x21, 0xe7, 0x56, 0xb5, 0xa3, 0x7b, 0xc0, 0x29, 0xff, 0x92, 0x19, 0x73, 0x2c, 0xc2, 0x3a, 0xe0, 0x90, 0xb8, 0x18, 0x79, 0x63, 0xc8, 0x5b, 0x88, 0x29, 0xf4, 0xf9], rfl⟩,
  ⟨[0xe5, 0xf8, 0x16, 0x00, 0xe6, 0x7b, 0xdd, 0xcb, 0x25, 0x80, 0x5d, 0xaf, 0xd9, 0x55, 0x50, 0xa6, 0x10, 0x07, 0xd9, 0x9f, 0xd1, 0xf1, 0x6d, 0xe0, 0xa2, 0x5e, 0x56, 0x0c, 0x34, 0xd8, 0x0e, 0x2b], rfl⟩,
  ⟨[0x2e, 0x61, 0xc8, 0xbc, 0x8f, 0x35, 0x87, 0xaa, 0xda, 0x6f, 0xe4, 0xf3, 0x79, 0x8b, 0xa0, 0xe1, 0x1b, 0x34, 0xb9, 0x9f, 0x55, 0x87, 0x48, 0x18, 0xa7, 0x3d, 0x17, 0x37, 0xec, 0x1b, 0xe2, 0xaf], rfl⟩,
  ⟨[0x0d, 0x8d, 0x6c, 0x3b, 0xa1, 0x4b, 0x56, 0x4f, 0x43, 0x2a, 0xc5, 0xbe, 0x2a, 0xf7, 0xdd, 0x25, 0x06, 0xfd, 0x33, 0x0b, 0x9e, 0xc3, 0xe3, 0x67, 0x4e, 0xd4, 0x7c, 0x3e, 0x17, 0x99, 0xaf, 0x78], rfl⟩,
  ⟨[0xab, 0xfe, 0x47, 0x00, 0x89, 0x66, 0x83, 0xd1, 0x27, 0xff, 0xd5, 0x53, 0xaf, 0xf7, 0x67, 0xc3, 0xb9, 0xda, 0x2c, 0x5f, 0xd6, 0x0f, 0x7c, 0x7f, 0xcf, 0xf4, 0xf7, 0xe1, 0x0a, 0x04, 0x2a, 0x09], rfl⟩,
  ⟨[0x13, 0x8b, 0x33, 0x81, 0x37, 0xe1, 0xf8, 0xf4, 0x9e, 0x12, 0xd5, 0xc8, 0x3d, 0xfd, 0x4c, 0x01, 0x39, 0x60, 0x1e, 0x69, 0xa3, 0x90, 0x2a, 0x66, 0xae, 0x67, 0xdd, 0x95, 0x0c, 0xca, 0xb5, 0xec], rfl⟩,
  ⟨[0xd5, 0xb6, 0x2c, 0x94, 0xe3, 0xab, 0x1e, 0x44, 0x20, 0xd0, 0x89, 0xf6, 0x32, 0xbc, 0x04, 0x25, 0xa4, 0xfa, 0x9e, 0xc8, 0x5a, 0xcd, 0xf8, 0xdb, 0xd5, 0x50, 0xa8, 0xed, 0x6d, 0x56, 0x9c, 0xe9], rfl⟩,
  ⟨[0x0e, 0x15, 0x62, 0xa5, 0x50, 0x14, 0xea, 0xde, 0xbc, 0xdc, 0x32, 0x8a, 0x2d, 0x47, 0xc7, 0x0b, 0x76, 0x4a, 0xe6, 0xc4, 0x38, 0x75, 0x2d, 0xee, 0x1b, 0x1d, 0x62, 0xc4, 0x26, 0x8f, 0x21, 0x79], rfl⟩,
  ⟨[0xbe, 0x08, 0xc9, 0x02, 0xa1, 0x59, 0x1b, 0xf3, 0x64, 0xac, 0x6d, 0xa1, 0x7a, 0xb8, 0xed, 0x60, 0xd8, 0x34, 0xc6, 0x0c, 0x0f, 0x13, 0x97, 0x3c, 0x5e, 0x39, 0x7f, 0xa6, 0x16, 0x78, 0x0f, 0x53], rfl⟩,
  ⟨[0x5b, 0x2f, 0x3d, 0x64, 0x38, 0x82, 0x95, 0x28, 0xd0, 0x7c, 0x7f, 0x6f, 0x21, 0xd4, 0x9a, 0xf6, 0xbc, 0x38, 0xff, 0x31, 0x1b, 0xc2, 0x21, 0x87, 0x3f, 0x71, 0xd1, 0xe6, 0xaf, 0x97, 0xa8, 0xb6], rfl⟩,
  ⟨[0x86, 0xe5, 0xed, 0x79, 0x23, 0x70, 0xbf, 0x2c, 0xf9, 0x8f, 0x24, 0x91, 0xdc, 0xf2, 0x20, 0x8e, 0xb5, 0xf5, 0xc9, 0x22, 0xa7, 0x0c, 0x67, 0x1a, 0x69, 0x4f, 0x10, 0xac, 0x50, 0x68, 0x75, 0x18], rfl⟩,
  ⟨[0x7d, 0xf4, 0x7f, 0x12, 0x95, 0xcb, 0xfc, 0x73, 0x87, 0x31, 0x9d, 0xaf, 0xd3, 0x6c, 0x8b, 0x2f, 0x45, 0x48, 0x82, 0x4e, 0x7d, 0x8c, 0x45, 0x1e, 0xe7, 0x57, 0x14, 0x28, 0xb9, 0x7a, 0x45, 0x83], rfl⟩,
  ⟨[0x09, 0xd7, 0x58, 0x48, 0x42, 0x84, 0x6a, 0xf5, 0x42, 0x1e, 0x8d, 0x3d, 0xc0, 0xf4, 0x7d, 0x37, 0x61, 0x02, 0xae, 0x26, 0x94, 0x83, 0x21, 0x49, 0x0c, 0x38, 0x9f, 0x9c, 0xf6, 0x2c, 0xa0, 0x36], rfl⟩,
  ⟨[0x51, 0x31, 0x65, 0x6c, 0x14, 0x44, 0x62, 0xfb, 0xd9, 0xdf, 0xb4, 0xc7, 0x5b, 0x7b, 0xb9, 0x8e, 0x84, 0xf2, 0x6a, 0x11, 0x31, 0xbd, 0x31, 0x65, 0xe6, 0x33, 0xe3, 0xc6, 0xf5, 0xa2, 0x6f, 0x7b], rfl⟩,
  ⟨[0xe9, 0x02, 0x29, 0x70, 0x3f, 0xf1, 0x98, 0xfb, 0x90, 0x91, 0x12, 0x85, 0xa8, 0x2e, 0x68, 0x5e, 0x37, 0x92, 0x1e, 0x98, 0x92, 0x3b, 0xf0, 0xee, 0x04, 0x9e, 0xe1, 0x26, 0xfe, 0x0a, 0xec, 0xf8], rfl⟩,
  ⟨[0xd0, 0xab, 0x66, 0x91, 0xd7, 0x67, 0x50, 0x61, 0x84, 0x52, 0xe9, 0x20, 0x38, 0x6e, 0x5f, 0x6f, 0x98, 0xfd, 0xd1, 0x21, 0x9a, 0x70, 0xa0, 0x6f, 0x06, 0xef, 0x62, 0x2a, 0xc6, 0xc6, 0x37, 0x3c], rfl⟩]

end Sample

/-- C34 is violated with BLAKE2b: the result for a sector of zeros but for the last byte is not its root. -/
theorem C34_not_root_blake2b : ∃ (sector : List UInt8) (r : Hash256), sector.length = 2 ^ 22 ∧
    Rhp.sectorRoot Blake2b.hash sector = .ok r ∧ ¬ IsSectorRoot Blake2b.hash sector r := by
  let R := fun k => Sample.zeroRoots.getD k (Arr.zero 32)
  let S := fun k => Sample.lastByteRoots.getD k (Arr.zero 32)
  have hR0 : R 0 = Blake2b.hash ([0] ++ List.replicate 64 0) := by decide +kernel
  have hS0 : S 0 = Blake2b.hash ([0] ++ (List.replicate 63 0 ++ [1])) := by decide +kernel
  have hR : ∀ k < 16, R (k + 1) = Blake2b.hash ([1] ++ (R k).1 ++ (R k).1) := by decide +kernel
  have hS : ∀ k < 16, S (k + 1) = Blake2b.hash ([1] ++ (R k).1 ++ (S k).1) := by decide +kernel
  have e16 : (2 : Nat) ^ 16 = 65536 := rfl
  have zero : IsMerkleRoot Blake2b.hash ((List.range 65536).map fun p => Blake2b.hash ([0] ++ segment (Sample.sector 0) (p / 4 + p % 4))) (R 16) := by
    have : ((List.range 65536).map fun p => Blake2b.hash ([0] ++ segment (Sample.sector 0) (p / 4 + p % 4))) =
        List.replicate (2 ^ 16) (Blake2b.hash ([0] ++ List.replicate 64 0)) := by
      rw [range_map_congr (g := fun _ => Blake2b.hash ([0] ++ List.replicate 64 0)) fun p hp => by
        rw [segment_replicate 0 _ (by omega)], List.map_const', List.length_range]
    rw [this]
    exact merkle_replicate Blake2b.hash _ R 16 hR0 hR 16 (Nat.le_refl _)
  have h0 := (C34_exact Blake2b.hash _ (Sample.sector_length 0) (R 16)).mpr zero
  have h1 := C34_rest_ignored Blake2b.hash _ _ (Sample.sector_length 0) Sample.lastByte_length lastByte_take
  refine ⟨Sample.lastByte, R 16, Sample.lastByte_length, by rw [← h1, h0], fun h2 => ?_⟩
  have e : (2 : Nat) ^ 22 = 64 * 65535 + 64 := rfl
  have same : ∀ p < 65535, segment Sample.lastByte p = List.replicate 64 0 := by
    intro p hp
    rw [← segment_replicate 0 p (by omega)]
    unfold segment
    have : (Sample.sector 0).take (64 * 65535) = Sample.lastByte.take (64 * 65535) := by
      rw [Sample.sector, Sample.lastByte, List.take_append_of_le_length (by rw [List.length_replicate]; omega),
        List.take_replicate, List.take_replicate, Nat.min_eq_left (by omega), Nat.min_eq_left (by omega)]
    have cut : ∀ (s : List UInt8), (s.drop (64 * p)).take 64 = ((s.take (64 * 65535)).drop (64 * p)).take 64 := by
      intro s
      rw [List.drop_take, List.take_take, Nat.min_eq_left]
      omega
    rw [cut, ← this, ← cut]
  have last1 : segment Sample.lastByte 65535 = List.replicate 63 0 ++ [1] := by
    unfold segment Sample.lastByte
    rw [List.drop_append_of_le_length (by rw [List.length_replicate]; omega), List.drop_replicate,
      show 2 ^ 22 - 1 - 64 * 65535 = 63 from rfl]
    rfl
  unfold IsSectorRoot at h2
  have leaves : ((List.range 65536).map fun p => Blake2b.hash ([0] ++ segment Sample.lastByte p)) =
      List.replicate (2 ^ 16 - 1) (Blake2b.hash ([0] ++ List.replicate 64 0)) ++ [Blake2b.hash ([0] ++ (List.replicate 63 0 ++ [1]))] := by
    rw [show (65536 : Nat) = 65535 + 1 from rfl, List.range_succ, List.map_append,
      range_map_congr (g := fun _ => Blake2b.hash ([0] ++ List.replicate 64 0)) fun p hp => by rw [same p hp],
      List.map_const', List.length_range]
    simp only [List.map_cons, List.map_nil, last1]
  rw [leaves] at h2
  have := h2.unique (merkle_replicate_last Blake2b.hash _ _ R S 16 hR0 hS0 hR hS 16 (Nat.le_refl _))
  exact absurd this (by decide +kernel)

/-! ## Concrete cases -/

/-- The published hash of the empty message and of "abc" (RFC 7693 appendix A is for 64 bytes of output; these are for 32). -/
example : (Blake2b.hash []).1 = [0x0e, 0x57, 0x51, 0xc0, 0x26, 0xe5, 0x43, 0xb2, 0xe8, 0xab, 0x2e, 0xb0, 0x60, 0x99, 0xda, 0xa1, 0xd1, 0xe5, 0xdf, 0x47, 0x77, 0x8f, 0x77, 0x87, 0xfa, 0xab, 0x45, 0xcd, 0xf1, 0x2f, 0xe3, 0xa8] ∧
    (Blake2b.hash (ascii "abc")).1 = [0xbd, 0xdd, 0x81, 0x3c, 0x63, 0x42, 0x39, 0x72, 0x31, 0x71, 0xef, 0x3f, 0xee, 0x98, 0x57, 0x9b, 0x94, 0x96, 0x4e, 0x3b, 0xb1, 0xcb, 0x3e, 0x42, 0x72, 0x62, 0xc8, 0xc0, 0x68, 0xd5, 0x23, 0x19] := by decide +kernel

example : (([List.replicate 100 1, List.replicate 100 2, [], List.replicate 57 3]).foldl Blake2b.Stream.update Blake2b.Stream.new).count = 256 := by decide +kernel

end Verif
