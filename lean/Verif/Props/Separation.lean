import Verif.Lemmas.Separation
import Verif.Props.Ed25519

/-!
# One signature, one message; one identifier, one transaction

The strings that are hashed to be signed or to name a transaction, compared across the kinds of messages and the two versions.
-/

namespace Verif

open Spec Ed25519 Layout

/-! ## C75: what one ed25519 signature can be a signature of -/

/-- A signature that the key of a seed accepts for the hashes of two strings: the strings are equal, or collide under blake2b-256, or give a
collision of SHA-512 modulo the order. -/
theorem binds (seed : Arr 32) (sig : Arr 64) (x y : List UInt8)
    (hx : PublicKey.verify ed25519 (ed25519.expand seed) (Blake2b.hash x) sig = .ok true)
    (hy : PublicKey.verify ed25519 (ed25519.expand seed) (Blake2b.hash y) sig = .ok true) :
    x = y ∨ Collide Blake2b.hash x y ∨ Collide (fun bs => leNat (Sha2.sha512 bs).1 % order)
      (sig.1.take 32 ++ (ed25519.expand seed).1 ++ (Blake2b.hash x).1) (sig.1.take 32 ++ (ed25519.expand seed).1 ++ (Blake2b.hash y).1) := by
  by_cases hs : x = y
  · exact .inl hs
  · by_cases hh : Blake2b.hash x = Blake2b.hash y
    · exact .inr (.inl ⟨hs, hh⟩)
    · exact .inr (.inr (C72_binds seed _ _ sig hx hy hh))

/-- C75.  A signature of an attestation, a contract or a renewal is not a signature of anything else that is signed in v2, nor of the same
in another era, unless blake2b-256 or SHA-512 collide on the strings named. -/
theorem C75_v2 (seed : Arr 32) (sig : Arr 64) (cs cs' : ChainState) (s s' : Signed) (hs : s.Sized) (hs' : s'.Sized)
    (hr : cs.replayPrefix = [] ↔ cs'.replayPrefix = []) (hp : s.purpose ≠ .input)
    (h : PublicKey.verify ed25519 (ed25519.expand seed) (s.sigHash Blake2b.hash cs) sig = .ok true)
    (h' : PublicKey.verify ed25519 (ed25519.expand seed) (s'.sigHash Blake2b.hash cs') sig = .ok true) :
    (cs.replayPrefix = cs'.replayPrefix ∧ s.unsigned = s'.unsigned) ∨
    Collide Blake2b.hash (signedMessage (replay cs) s) (signedMessage (replay cs') s') ∨
    Collide (fun bs => leNat (Sha2.sha512 bs).1 % order)
      (sig.1.take 32 ++ (ed25519.expand seed).1 ++ (s.sigHash Blake2b.hash cs).1)
      (sig.1.take 32 ++ (ed25519.expand seed).1 ++ (s'.sigHash Blake2b.hash cs').1) := by
  rw [C56_v2_signatures] at h h' ⊢
  rw [C56_v2_signatures]
  refine (binds seed sig _ _ h h').imp_left fun he => ?_
  rw [signed_string, signed_string] at he
  obtain ⟨h1, h2, h3⟩ := Signed.pre_parts hr he
  exact ⟨h2, Signed.message_inj h1 hs hs' hp h3⟩

/-- C75.  A signature of the inputs of a v2 transaction is not a signature of anything else that is signed in v2, nor in another era, nor of
a transaction with other effects whose resolutions are of the same kinds (C24 on other kinds), unless the hashes collide. -/
theorem C75_v2_input (seed : Arr 32) (sig : Arr 64) (cs cs' : ChainState) (t : V2.Transaction) (s' : Signed) (ht : t.Sized) (hs' : s'.Sized)
    (hr : cs.replayPrefix = [] ↔ cs'.replayPrefix = [])
    (h : PublicKey.verify ed25519 (ed25519.expand seed) (t.inputSigHash Blake2b.hash cs) sig = .ok true)
    (h' : PublicKey.verify ed25519 (ed25519.expand seed) (s'.sigHash Blake2b.hash cs') sig = .ok true) :
    (cs.replayPrefix = cs'.replayPrefix ∧ ∃ t', s' = .input t' ∧ (t.resolutionKinds = t'.resolutionKinds → t.effects = t'.effects)) ∨
    Collide Blake2b.hash (signedMessage (replay cs) (.input t)) (signedMessage (replay cs') s') ∨
    Collide (fun bs => leNat (Sha2.sha512 bs).1 % order)
      (sig.1.take 32 ++ (ed25519.expand seed).1 ++ (t.inputSigHash Blake2b.hash cs).1)
      (sig.1.take 32 ++ (ed25519.expand seed).1 ++ (s'.sigHash Blake2b.hash cs').1) := by
  have e : t.inputSigHash Blake2b.hash cs = Blake2b.hash (signedMessage (replay cs) (.input t)) := C56_v2_signatures Blake2b.hash cs (.input t)
  rw [e] at h ⊢
  rw [C56_v2_signatures] at h' ⊢
  refine (binds seed sig _ _ h h').imp_left fun he => ?_
  rw [signed_string, signed_string] at he
  obtain ⟨h1, h2, h3⟩ := Signed.pre_parts hr he
  cases s' with
  | input t' => exact ⟨h2, t', rfl, (V2.encodeSemantics_inj ht hs' h3).2.2.2.2.2.2.2⟩
  | attestation => cases h1
  | contract => cases h1
  | renewal => cases h1

/-- C75.  A signature of a whole v1 transaction is not one of another transaction, nor for another parent, key index or timelock, nor in another
era if the transaction has an input, unless the hashes collide. -/
theorem C75_v1 (seed : Arr 32) (sig : Arr 64) (cs cs' : ChainState) (t t' : V1.Transaction) (p p' : Arr 32) (k k' l l' : U64) (ht : t.Sized)
    (ht' : t'.Sized) (hr : cs.replayPrefix = [] ↔ cs'.replayPrefix = [])
    (h : PublicKey.verify ed25519 (ed25519.expand seed) (t.wholeSigHash Blake2b.hash cs p k l) sig = .ok true)
    (h' : PublicKey.verify ed25519 (ed25519.expand seed) (t'.wholeSigHash Blake2b.hash cs' p' k' l') sig = .ok true) :
    (t.unsigned = t'.unsigned ∧ p = p' ∧ k = k' ∧ l = l' ∧
      (t.siacoinInputs = [] ∧ t.siafundInputs = [] ∨ cs.replayPrefix = cs'.replayPrefix)) ∨
    Collide Blake2b.hash (wholeTransaction (replay cs) t p k l) (wholeTransaction (replay cs') t' p' k' l') ∨
    Collide (fun bs => leNat (Sha2.sha512 bs).1 % order)
      (sig.1.take 32 ++ (ed25519.expand seed).1 ++ (t.wholeSigHash Blake2b.hash cs p k l).1)
      (sig.1.take 32 ++ (ed25519.expand seed).1 ++ (t'.wholeSigHash Blake2b.hash cs' p' k' l').1) := by
  rw [C56_v1_whole] at h h' ⊢
  rw [C56_v1_whole]
  refine (binds seed sig _ _ h h').imp_left fun he => ?_
  rw [whole_string, whole_string] at he
  refine V1.wholePreimage_eras ht ht' ?_ he
  rcases V1.replayPrefix_cases cs with e | ⟨b, e⟩ <;> rcases V1.replayPrefix_cases cs' with e' | ⟨b', e'⟩ <;> simp [e, e'] at hr ⊢

/-- C75.  A signature of a whole v1 transaction is not a signature of anything that is signed in v2, in any eras, unless the hashes collide or
the transaction has 2^56 inputs. -/
theorem C75_v1_v2 (seed : Arr 32) (sig : Arr 64) (cs cs' : ChainState) (t : V1.Transaction) (p : Arr 32) (k l : U64) (s : Signed)
    (ht : t.siacoinInputs.length < 2 ^ 56)
    (h : PublicKey.verify ed25519 (ed25519.expand seed) (t.wholeSigHash Blake2b.hash cs p k l) sig = .ok true)
    (h' : PublicKey.verify ed25519 (ed25519.expand seed) (s.sigHash Blake2b.hash cs') sig = .ok true) :
    Collide Blake2b.hash (wholeTransaction (replay cs) t p k l) (signedMessage (replay cs') s) ∨
    Collide (fun bs => leNat (Sha2.sha512 bs).1 % order)
      (sig.1.take 32 ++ (ed25519.expand seed).1 ++ (t.wholeSigHash Blake2b.hash cs p k l).1)
      (sig.1.take 32 ++ (ed25519.expand seed).1 ++ (s.sigHash Blake2b.hash cs').1) := by
  rw [C56_v1_whole] at h ⊢
  rw [C56_v2_signatures] at h' ⊢
  refine (binds seed sig _ _ h h').resolve_left fun he => ?_
  rw [whole_string, signed_string] at he
  have he := congrArg (fun x => leVal (x.take 8)) he
  simp only [whole_take, signed_take] at he
  rw [Nat.mod_eq_of_lt (Nat.lt_trans ht (by decide)), leVal_leBytes_of_lt (Nat.lt_trans ht (by decide))] at he
  have : 2 ^ 56 ≤ leVal (ascii "sia/sig/") := by decide +kernel
  omega

/-- Two states after the ASIC hardfork in different eras, and things to sign. -/
example : ((Sample.chain 12).replayPrefix = [] ↔ (Sample.chain 32).replayPrefix = []) ∧
    (Sample.chain 12).replayPrefix ≠ (Sample.chain 32).replayPrefix ∧ Sample.v1txn.Sized ∧ Sample.v1txn.siacoinInputs ≠ [] ∧
    Sample.v1txn.siacoinInputs.length < 2 ^ 56 ∧ Sample.v2txn.Sized ∧ (Signed.contract Sample.v2fc).Sized ∧
    (Signed.contract Sample.v2fc).purpose ≠ .input :=
  ⟨by decide, by decide, Sample.sized_v1txn, by simp [Sample.v1txn], by simp [Sample.v1txn], Sample.sized_v2txn, trivial, by decide⟩

/-- The signer's own signature is one that is accepted. -/
example (seed : Arr 32) (cs : ChainState) : ∃ sig, PublicKey.verify ed25519 (ed25519.expand seed)
    ((Signed.contract Sample.v2fc).sigHash Blake2b.hash cs) sig = .ok true := by
  have h := C48_ed25519 seed ((Signed.contract Sample.v2fc).sigHash Blake2b.hash cs)
  have e : PrivateKey.publicKey (PrivateKey.fromSeed ed25519 seed) = ed25519.expand seed := Subtype.ext (List.drop_left' seed.2)
  rw [e] at h
  exact ⟨_, h⟩

/-! ## C76: signatures of selected fields -/

namespace Sample

/-- An output of nothing to an address whose bytes 17 to 24 are the number 4. -/
def padding : SiacoinOutput := ⟨⟨0⟩, ⟨List.replicate 17 0 ++ [4, 0, 0, 0, 0, 0, 0, 0] ++ List.replicate 7 0, by decide⟩⟩

/-- A v2 transaction that spends an output and pays another. -/
def payment (i : V2.SiacoinInput) (o : SiacoinOutput) : V2.Transaction :=
  ⟨[i], [padding, o], [], [], [], [], [], [], [], none, ⟨0⟩⟩

end Sample

/-- C76 does not hold: whatever siacoin output a v2 transaction is to spend and wherever the coins are to go, there is a v1 storage proof such that
a signature that covers it alone is a signature of the inputs of a v2 transaction which does that, under every hash function, in every era. -/
theorem C76_not_v2 (i : V2.SiacoinInput) (o : SiacoinOutput) (cs : ChainState) (hr : cs.replayPrefix ≠ []) :
    ∃ (t : V2.Transaction) (t' : V1.Transaction) (c : V1.CoveredFields), t.siacoinInputs = [i] ∧ o ∈ t.siacoinOutputs ∧ t.Sized ∧ t'.AllSized ∧
      V1.InRange t' c ∧ ∀ H : Hasher, t'.partialSigHash H cs c = .ok (t.inputSigHash H cs) := by
  obtain ⟨b, hb⟩ := (V1.replayPrefix_cases cs).resolve_left hr
  have parts : ∃ x y, (Signed.input (Sample.payment i o)).pre cs = x ++ (leBytes 8 4 ++ y) ∧ x.length = 96 ∧ y.length = 32 * 4 := by
    refine ⟨(ascii "sia/sig/input|" ++ [b] ++ leBytes 8 1) ++ i.parent.id.1 ++ (leBytes 8 2 ++ List.replicate 33 0),
      List.replicate 7 0 ++ (leBytes 16 o.value.val.toNat ++ o.address.1) ++ List.replicate 73 0, ?_, ?_, ?_⟩
    · have h1 : enc .v2 Sample.padding = List.replicate 33 0 ++ (leBytes 8 4 ++ List.replicate 7 0) := by decide +kernel
      have h2 : enc .v2 o = leBytes 16 o.value.val.toNat ++ o.address.1 := rfl
      have h3 : (Sample.payment i o).encodeSemantics = (leBytes 8 1 ++ (i.parent.id.1 ++ [])) ++ (enc .v2 [Sample.padding, o] ++
          List.replicate 73 0) := by
        have : (List.replicate 73 0 : List UInt8) = leBytes 8 0 ++ (leBytes 8 0 ++ (leBytes 8 0 ++ (leBytes 8 0 ++ (leBytes 8 0 ++
            (leBytes 8 0 ++ (leBytes 8 0 ++ ([0] ++ leBytes 16 0))))))) := by decide
        rw [this]
        rfl
      rw [Signed.pre, hb]
      show ascii "sia/sig/input|" ++ ([b] ++ (Sample.payment i o).encodeSemantics) = _
      rw [h3, enc_list]
      simp only [List.length_cons, List.length_nil, List.flatMap_cons, List.flatMap_nil, h1, h2, List.append_assoc, List.append_nil]
    · simp only [List.length_append, i.parent.id.2]
      rfl
    · simp only [List.length_append, o.address.2, leBytes_length]
      rfl
  obtain ⟨x, y, e, hx, hy⟩ := parts
  obtain ⟨sp, hl, hsp⟩ := V1.proof_of_parts x y 4 (by decide) hx hy
  rw [← e] at hsp
  refine ⟨Sample.payment i o, V1.proofTxn sp, V1.proofField, rfl, by simp [Sample.payment], ?_, V1.proofTxn_sized (by omega),
    V1.proofTxn_inRange sp, fun H => ?_⟩
  · constructor <;> simp [Sample.payment]
  · rw [V1.proofTxn_sigHash, hsp]
    rfl

/-- C76 does not hold between v1 signatures either: any transaction, given one more input, has the same string signed for it whole as a transaction
with nothing but a storage proof has for that proof, whatever the parent, key index and timelock. -/
theorem C76_not_whole (t : V1.Transaction) (cs : ChainState) (p : Arr 32) (k l : U64) (hr : cs.replayPrefix ≠ [])
    (hl : (wholeTransaction (replay cs) t p k l).length < 2 ^ 63) :
    ∃ (i : V1.SiacoinInput) (t' : V1.Transaction) (c : V1.CoveredFields), t'.AllSized ∧ V1.InRange t' c ∧ ∀ H : Hasher,
      t'.partialSigHash H cs c = .ok ({ t with siacoinInputs := i :: t.siacoinInputs }.wholeSigHash H cs p k l) := by
  obtain ⟨b, hb⟩ := (V1.replayPrefix_cases cs).resolve_left hr
  rw [whole_string] at hl
  have main : ∃ (i : V1.SiacoinInput) (n : Nat) (x y : List UInt8), n < 2 ^ 64 ∧ x.length = 96 ∧ y.length = 32 * n ∧
      V1.wholePreimage { t with siacoinInputs := i :: t.siacoinInputs } cs.replayPrefix p k l = x ++ (leBytes 8 n ++ y) := by
    unfold V1.wholePreimage V1.Transaction.prefixedInputs at hl ⊢
    simp only [List.append_assoc, List.length_cons, List.flatMap_cons] at hl ⊢
    rw [List.length_append, leBytes_length] at hl
    generalize (t.siacoinInputs.flatMap fun a => cs.replayPrefix ++ enc .v1 a) ++ _ = r at hl ⊢
    refine ⟨⟨Arr.zero 32, ⟨0, [⟨Arr.zero 16, List.replicate 15 0 ++ (leBytes 8 ((r.length + 39) / 32) ++
      List.replicate (32 * ((r.length + 39) / 32) - 8 - r.length) 0)⟩], 0⟩⟩, (r.length + 39) / 32, ?_⟩
    have hn : (r.length + 39) / 32 < 2 ^ 64 := by omega
    have hm : 8 + r.length ≤ 32 * ((r.length + 39) / 32) := by omega
    generalize (r.length + 39) / 32 = n at hn hm ⊢
    generalize hk : List.replicate 15 0 ++ (leBytes 8 n ++ List.replicate (32 * n - 8 - r.length) 0) = key
    have hi : enc .v1 (⟨Arr.zero 32, ⟨0, [⟨Arr.zero 16, key⟩], 0⟩⟩ : V1.SiacoinInput) = List.replicate 32 0 ++ (leBytes 8 0 ++
        (leBytes 8 1 ++ (List.replicate 16 0 ++ (leBytes 8 (key.length % 2 ^ 64) ++ (key ++ leBytes 8 0))))) := by
      have h1 : enc .v1 (⟨Arr.zero 32, ⟨0, [⟨Arr.zero 16, key⟩], 0⟩⟩ : V1.SiacoinInput) = List.replicate 32 0 ++ (leBytes 8 0 ++
        ((leBytes 8 1 ++ ((List.replicate 16 0 ++ enc .v1 key) ++ [])) ++ leBytes 8 0)) := rfl
      rw [h1, enc_bytes]
      simp only [List.append_assoc, List.nil_append]
    refine ⟨leBytes 8 (BitVec.ofNat 64 (t.siacoinInputs.length + 1)).toNat ++ (cs.replayPrefix ++ (List.replicate 32 0 ++ (leBytes 8 0 ++
      (leBytes 8 1 ++ (List.replicate 16 0 ++ (leBytes 8 (key.length % 2 ^ 64) ++ List.replicate 15 0)))))),
      List.replicate (32 * n - 8 - r.length) 0 ++ (leBytes 8 0 ++ r), hn, ?_, ?_, ?_⟩
    · simp [hb]
    · simp
      omega
    · rw [hi]
      conv => lhs; rw [← hk]
      simp only [List.append_assoc]
      rw [hk]
  obtain ⟨i, n, x, y, hn, hx, hy, e⟩ := main
  obtain ⟨sp, hl, hsp⟩ := V1.proof_of_parts x y n hn hx hy
  rw [← e] at hsp
  refine ⟨i, V1.proofTxn sp, V1.proofField, V1.proofTxn_sized (by omega), V1.proofTxn_inRange sp, fun H => ?_⟩
  rw [V1.proofTxn_sigHash, hsp]
  rfl

example : (wholeTransaction (replay (Sample.chain 32)) Sample.v1txn (Sample.h 1) 0 0).length < 2 ^ 63 ∧ (Sample.chain 32).replayPrefix ≠ [] := by
  decide +kernel

/-- C76, partial.  What is signed for a selection that starts with a contract revision differs from everything signed in v2 if the parent id does not
start with `sia/sig/`, and from what is signed for a whole transaction if the first eight bytes of the parent id are not its number of inputs.
Missing: the other selections (`C76_not_v2`, `C76_not_whole`). -/
theorem C76_revision_partial (t : V1.Transaction) (c : V1.CoveredFields) (cs cs' : ChainState) (h : V1.InRange t c) (i : U64) (is : List U64)
    (r : V1.FileContractRevision) (h0 : c.siacoinInputs = []) (h1 : c.siacoinOutputs = []) (h2 : c.fileContracts = [])
    (hi : c.fileContractRevisions = i :: is) (hr : t.fileContractRevisions[i.toNat]? = some r) :
    (r.parentId.1.take 8 ≠ text "sia/sig/" → ∀ s, selectedFields (replay cs) t c ≠ signedMessage (replay cs') s) ∧
    ∀ (t' : V1.Transaction) (p : Arr 32) (k l : U64), t'.siacoinInputs.length < 2 ^ 64 → leNat (r.parentId.1.take 8) ≠ t'.siacoinInputs.length →
      selectedFields (replay cs) t c ≠ wholeTransaction (replay cs') t' p k l := by
  have e : (selectedFields (replay cs) t c).take 8 = r.parentId.1.take 8 := by
    rw [selected_string cs t c h]
    have : ∃ x, V1.partialPreimage cs.replayPrefix t c = r.parentId.1 ++ x := by
      obtain ⟨z, hz⟩ : ∃ z, enc .v1 r = r.parentId.1 ++ z := ⟨_, rfl⟩
      unfold V1.partialPreimage
      rw [h0, h1, h2, hi]
      simp only [V1.pickBytes, V1.pick, List.map_nil, List.flatMap_nil, List.nil_append, List.map_cons, List.flatMap_cons, hr, hz,
        List.append_assoc]
      exact ⟨_, rfl⟩
    obtain ⟨x, hx⟩ := this
    rw [hx, List.take_append_of_le_length (by rw [r.parentId.2]; decide)]
  have ht : ascii "sia/sig/" = text "sia/sig/" := by decide +kernel
  refine ⟨fun hne s he => hne ?_, fun t' p k l hn hne he => hne ?_⟩
  · rw [← e, he, signed_string, signed_take, ht]
  · rw [← e, he, whole_string, whole_take, Nat.mod_eq_of_lt hn]
    exact (leNat_eq _).trans (leVal_leBytes_of_lt (show _ < 256 ^ 8 from hn))

/-- A selection of the first revision. -/
example : ∃ (t : V1.Transaction) (c : V1.CoveredFields) (r : V1.FileContractRevision), V1.InRange t c ∧ c.fileContractRevisions = [0] ∧
    c.siacoinInputs = [] ∧ c.siacoinOutputs = [] ∧ c.fileContracts = [] ∧ t.fileContractRevisions[(0 : U64).toNat]? = some r ∧
    r.parentId.1.take 8 ≠ text "sia/sig/" ∧ leNat (r.parentId.1.take 8) ≠ Sample.v1txn.siacoinInputs.length := by
  refine ⟨{ Sample.noTxn with fileContractRevisions := [⟨Sample.h 7, Sample.uc, 1, 2, Sample.h 3, 4, 5, [], [], Sample.h 6⟩] },
    { Sample.noFields with fileContractRevisions := [0] }, _, ?_, rfl, rfl, rfl, rfl, rfl, ?_, ?_⟩
  · constructor <;> simp [Sample.noTxn, Sample.noFields]
  · decide +kernel
  · decide +kernel

/-- C76 holds of the partial signature hash that starts with a constant and the selection: in one era the hashed strings are equal exactly if the
selections are and the transactions agree on what they select, and they are never those of a v2 signature or of a whole transaction with less
than 2^56 inputs. -/
theorem C76_repaired :
    ∃ pre : ChainState → V1.Transaction → V1.CoveredFields → List UInt8,
      (∀ (H : Hasher) (cs : ChainState) (t : V1.Transaction) (c : V1.CoveredFields), V1.InRange t c →
        t.partialSigHashTagged H cs c = .ok (H (pre cs t c))) ∧
      (∀ (cs cs' : ChainState) (t t' : V1.Transaction) (c c' : V1.CoveredFields), t.AllSized → t'.AllSized → c.Sized → c'.Sized →
        V1.InRange t c → V1.InRange t' c' → cs.replayPrefix = cs'.replayPrefix →
        (pre cs t c = pre cs' t' c' ↔ c = c' ∧ V1.AgreeOn c t t')) ∧
      (∀ (cs cs' : ChainState) (t : V1.Transaction) (c : V1.CoveredFields) (s : Signed), pre cs t c ≠ signedMessage (replay cs') s) ∧
      (∀ (cs cs' : ChainState) (t t' : V1.Transaction) (c : V1.CoveredFields) (p : Arr 32) (k l : U64), t'.siacoinInputs.length < 2 ^ 56 →
        pre cs t c ≠ wholeTransaction (replay cs') t' p k l) := by
  obtain ⟨pre, h1, h2⟩ := C44_repaired
  refine ⟨fun cs t c => ascii "sia/sig/partial|" ++ pre cs t c, fun H cs t c hc => h1 (fun bs => H (ascii "sia/sig/partial|" ++ bs)) cs t c hc,
    fun cs cs' t t' c c' ht ht' hc hc' r r' hr => ?_, fun cs cs' t c s he => ?_, fun cs cs' t t' c p k l hn he => ?_⟩
  · rw [List.append_cancel_left_eq]
    exact h2 cs cs' t t' c c' ht ht' hc hc' r r' hr
  · rw [signed_string] at he
    have he := congrArg (List.take 9) he
    rw [Signed.pre, List.take_append_of_le_length (by decide), List.take_append_of_le_length (by cases s.purpose <;> decide)] at he
    revert he
    cases s.purpose <;> decide
  · rw [whole_string] at he
    have he := congrArg (fun x => leVal (x.take 8)) he
    simp only [whole_take] at he
    rw [Nat.mod_eq_of_lt (Nat.lt_trans hn (by decide)), leVal_leBytes_of_lt (Nat.lt_trans hn (by decide)),
      List.take_append_of_le_length (by decide)] at he
    have : 2 ^ 56 ≤ leVal ((ascii "sia/sig/partial|").take 8) := by decide +kernel
    omega

/-! ## C77: the ids of transactions of the two versions -/

namespace Sample

/-- A siafund output id with the number 56 in the third quarter. -/
def crossId : SiafundOutputID := ⟨List.replicate 16 0 ++ [56, 0, 0, 0, 0, 0, 0, 0] ++ List.replicate 8 0, by decide⟩

/-- A key of 56 bytes, ending in the number 55. -/
def crossKey : UnlockKey := ⟨Arr.zero 16, List.replicate 48 0 ++ [55, 0, 0, 0, 0, 0, 0, 0]⟩

/-- A v1 transaction that spends a siacoin output. -/
def crossV1 (id : SiacoinOutputID) : V1.Transaction :=
  { noTxn with siacoinInputs := [⟨id, ⟨0, [crossKey], 0⟩⟩] }

/-- A v2 transaction that spends a siacoin and a siafund output and has 55 bytes of arbitrary data. -/
def crossV2 (i : V2.SiacoinInput) (f : V2.SiafundInput) : V2.Transaction :=
  ⟨[i], [], [{ f with parent := { f.parent with id := crossId } }], [], [], [], [], [], List.replicate 55 0, none, ⟨0⟩⟩

end Sample

/-- C77 does not hold: for every siacoin output there is a v1 and a v2 transaction spending it which have the same id, under every hash function. -/
theorem C77_not_separate (i : V2.SiacoinInput) :
    ∃ (t : V1.Transaction) (t' : V2.Transaction), t.Sized ∧ t'.Sized ∧ t.siacoinInputs.map (·.parentId) = [i.parent.id] ∧
      t'.siacoinInputs = [i] ∧ t'.siafundInputs ≠ [] ∧ t.siafundInputs = [] ∧ ∀ H : Hasher, t.id H = t'.id H := by
  let f : V2.SiafundInput := ⟨⟨⟨0, []⟩, Arr.zero 32, ⟨0, Arr.zero 32⟩, ⟨0⟩⟩, Arr.zero 32, ⟨.above 0, [], []⟩⟩
  refine ⟨Sample.crossV1 i.parent.id, Sample.crossV2 i f, ?_, ?_, rfl, rfl, by simp [Sample.crossV2], rfl, fun H => ?_⟩
  · constructor <;> simp [Sample.crossV1, Sample.noTxn, V1.SizedConditions, Sample.crossKey]
  · constructor <;> simp [Sample.crossV2]
  · have h1 : (Sample.crossV1 i.parent.id).encodeNoSigs = (leBytes 8 1 ++ ((i.parent.id.1 ++ enc .v1 (⟨0, [Sample.crossKey], 0⟩ : UnlockConditions)) ++ [])) ++
        List.replicate 64 0 := by
      have : (List.replicate 64 0 : List UInt8) = leBytes 8 0 ++ (leBytes 8 0 ++ (leBytes 8 0 ++ (leBytes 8 0 ++ (leBytes 8 0 ++
          (leBytes 8 0 ++ (leBytes 8 0 ++ leBytes 8 0)))))) := by decide
      rw [this]
      rfl
    have h2 : (Sample.crossV2 i f).encodeSemantics = (leBytes 8 1 ++ (i.parent.id.1 ++ [])) ++ (leBytes 8 0 ++ ((leBytes 8 1 ++ (Sample.crossId.1 ++ [])) ++
        (List.replicate 40 0 ++ (leBytes 8 55 ++ List.replicate 72 0)))) := by
      have h40 : (List.replicate 40 0 : List UInt8) = leBytes 8 0 ++ (leBytes 8 0 ++ (leBytes 8 0 ++ (leBytes 8 0 ++ leBytes 8 0))) := by decide
      have h72 : (List.replicate 72 0 : List UInt8) = List.replicate 55 0 ++ ([0] ++ leBytes 16 0) := by decide
      rw [h40, h72]
      have h55 : enc .v2 (List.replicate 55 0 : List UInt8) = leBytes 8 55 ++ List.replicate 55 0 := by decide
      show (leBytes 8 1 ++ (i.parent.id.1 ++ [])) ++ (leBytes 8 0 ++ ((leBytes 8 1 ++ (Sample.crossId.1 ++ [])) ++ (leBytes 8 0 ++ (leBytes 8 0 ++
        (leBytes 8 0 ++ (leBytes 8 0 ++ (leBytes 8 0 ++ (enc .v2 (List.replicate 55 0 : List UInt8) ++ ([0] ++ leBytes 16 0))))))))) = _
      rw [h55]
      simp only [List.append_assoc]
    have h3 : enc .v1 (⟨0, [Sample.crossKey], 0⟩ : UnlockConditions) ++ List.replicate 64 0 = leBytes 8 0 ++ (leBytes 8 1 ++ (Sample.crossId.1 ++
        (List.replicate 40 0 ++ (leBytes 8 55 ++ List.replicate 72 0)))) := by decide +kernel
    show H _ = H _
    rw [h1, h2]
    simp only [List.append_assoc, List.nil_append]
    rw [h3]

/-- C77, partial.  A v1 and a v2 transaction for which the same string is hashed spend equally many siacoin outputs, the same one first.  Missing: that
there are none (`C77_not_separate`). -/
theorem C77_same_spent_partial (t : V1.Transaction) (t' : V2.Transaction) (ht : t.Sized) (ht' : t'.Sized) (h : v1Unsigned t = v2Effects t') :
    t.siacoinInputs.length = t'.siacoinInputs.length ∧
      t.siacoinInputs.head?.map (·.parentId) = t'.siacoinInputs.head?.map (·.parent.id) := by
  rw [v1_id_string, v2_id_string] at h
  unfold V1.Transaction.encodeNoSigs V2.Transaction.encodeSemantics at h
  rw [enc_list, V2.lenThen_eq, List.append_assoc, List.append_assoc] at h
  obtain ⟨h1, h⟩ := List.append_inj h (by simp)
  have h1 := congrArg leVal h1
  rw [leVal_leBytes_of_lt (Nat.mod_lt _ (by decide)), leVal_leBytes_of_lt (BitVec.isLt _), BitVec.toNat_ofNat,
    Nat.mod_eq_of_lt ht.siacoinInputs.1, Nat.mod_eq_of_lt ht'.siacoinInputs] at h1
  refine ⟨h1, ?_⟩
  cases ha : t.siacoinInputs with
  | nil =>
    cases hb : t'.siacoinInputs with
    | nil => rfl
    | cons b bs => simp [ha, hb] at h1
  | cons a as =>
    cases hb : t'.siacoinInputs with
    | nil => simp [ha, hb] at h1
    | cons b bs =>
      rw [ha, hb] at h
      simp only [List.flatMap_cons] at h
      rw [show enc .v1 a = a.parentId.1 ++ _ from rfl] at h
      simp only [List.append_assoc] at h
      have h := congrArg (List.take 32) h
      rw [List.take_left' a.parentId.2, enc_arr, List.take_left' b.parent.id.2] at h
      simp only [List.head?_cons, Option.map_some]
      exact congrArg some (Subtype.ext h)

/-- C77.  So if a v1 and a v2 transaction have the same id, they spend the same siacoin output first, or neither spends any, or blake2b-256 collides
on what is hashed for them. -/
theorem C77_double_spend_partial (t : V1.Transaction) (t' : V2.Transaction) (ht : t.Sized) (ht' : t'.Sized)
    (h : t.id Blake2b.hash = t'.id Blake2b.hash) :
    (t.siacoinInputs = [] ∧ t'.siacoinInputs = []) ∨ (∃ id, t.siacoinInputs.head?.map (·.parentId) = some id ∧
      t'.siacoinInputs.head?.map (·.parent.id) = some id) ∨ Collide Blake2b.hash (v1Unsigned t) (v2Effects t') := by
  obtain ⟨e1, e2⟩ := C56_transaction_ids Blake2b.hash t t'
  rw [e1, e2] at h
  by_cases hs : v1Unsigned t = v2Effects t'
  · obtain ⟨h1, h2⟩ := C77_same_spent_partial t t' ht ht' hs
    cases ha : t.siacoinInputs with
    | nil =>
      refine .inl ⟨rfl, List.eq_nil_of_length_eq_zero ?_⟩
      rw [← h1, ha]
      rfl
    | cons a as => exact .inr (.inl ⟨a.parentId, rfl, by rw [← h2, ha]; rfl⟩)
  · exact .inr (.inr ⟨hs, h⟩)

example : Sample.v1txn.Sized ∧ Sample.v2txn.Sized := ⟨Sample.sized_v1txn, Sample.sized_v2txn⟩

/-- C77 holds of the v2 id that starts with a constant: the strings are never those of a v1 transaction with less than 2^56 siacoin inputs, and are
equal for two v2 transactions exactly if all that C24 asks for is. -/
theorem C77_repaired :
    ∃ pre : V2.Transaction → List UInt8, (∀ (H : Hasher) (t : V2.Transaction), t.idTagged H = H (pre t)) ∧
      (∀ (t : V1.Transaction) (t' : V2.Transaction), t.siacoinInputs.length < 2 ^ 56 → v1Unsigned t ≠ pre t') ∧
      (∀ (t t' : V2.Transaction), t.Sized → t'.Sized → (pre t = pre t' ↔ t.effects = t'.effects ∧ t.claimAddresses = t'.claimAddresses)) := by
  obtain ⟨pre, h1, h2⟩ := C24_repaired
  have e : ∀ t : V2.Transaction, pre t = t.encodeCovering := fun t => eq_of_hashes fun H => (h1 H t).symm
  refine ⟨fun t => ascii "sia/id/transaction|" ++ pre t, fun H t => by show _ = H (_ ++ pre t); rw [e]; rfl, fun t t' hn he => ?_, fun t t' ht ht' => ?_⟩
  · rw [v1_id_string] at he
    unfold V1.Transaction.encodeNoSigs at he
    rw [enc_list, List.append_assoc, Nat.mod_eq_of_lt (Nat.lt_trans hn (by decide))] at he
    exact count_ne hn (by decide) (by decide +kernel) he
  · rw [List.append_cancel_left_eq]
    exact h2 t t' ht ht'

end Verif
