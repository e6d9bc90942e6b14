import Verif.Lemmas.Layout
import Verif.Model.Helpers
import Verif.Spec.Helpers
import Verif.Props.Merkle
import Verif.Props.Text
import Verif.Props.Number
import Verif.Props.Codec

/-!
# C61: standard unlock conditions, chain index texts and other small constructors
-/

namespace Verif

theorem encode_ofPublicKey (k : PublicKey) : [0] ++ enc .v2 (UnlockKey.ofPublicKey k) = Standard.keyLeaf k := by
  have h : enc .v2 (UnlockKey.ofPublicKey k) = (specifier (ascii "ed25519")).1 ++ (leBytes 8 (BitVec.ofNat 64 k.1.length).toNat ++ k.1.flatMap (enc .v2)) := rfl
  rw [h, k.2]
  have e : k.1.flatMap (enc .v2) = k.1 := by
    have : ∀ l : List UInt8, l.flatMap (enc .v2) = l := by
      intro l
      induction l with
      | nil => rfl
      | cons x l ih => rw [List.flatMap_cons, ih]; rfl
    exact this _
  rw [e, ← List.append_assoc, ← List.append_assoc]
  congr 1

/-- C61.  The address of the standard unlock conditions of a key: the hash of exactly these strings, for every hash function. -/
theorem C61_standard_address (H : Hasher) (k : PublicKey) : (UnlockConditions.standard k).address H = .ok (H (Standard.root H k)) := by
  obtain ⟨r, h1, h2⟩ := C32_address_partial H (UnlockConditions.standard k) (Nat.le_refl 1)
  rw [h1]
  congr 1
  refine h2.unique ?_
  have e : (UnlockConditions.standard k).leaves H = [H Standard.timelockLeaf, H (Standard.keyLeaf k)] ++ [H Standard.signaturesLeaf] := by
    simp only [UnlockConditions.leaves, UnlockConditions.leafStrings, UnlockConditions.standard, List.map_cons, List.map_nil, List.map_append,
      encode_ofPublicKey]
    rfl
  rw [e]
  exact .node 1 _ _ _ _ rfl Nat.one_pos (by simp) (.node 0 [_] [_] _ _ rfl Nat.one_pos (by simp) (.leaf _) (.leaf _)) (.leaf _)

/-- C61.  Two keys with the same standard address are a collision of the hash function, at one of three places. -/
theorem C61_standard_commits (H : Hasher) (k k' : PublicKey) (hk : k ≠ k')
    (h : (UnlockConditions.standard k).address H = (UnlockConditions.standard k').address H) :
    ∃ s s', s ≠ s' ∧ H s = H s' ∧ (s, s') ∈ [(Standard.keyLeaf k, Standard.keyLeaf k'), (Standard.node H k, Standard.node H k'),
      (Standard.root H k, Standard.root H k')] := by
  rw [C61_standard_address, C61_standard_address, Res.ok.injEq] at h
  have key : Standard.keyLeaf k ≠ Standard.keyLeaf k' := fun e => hk (Subtype.ext (List.append_cancel_left e))
  by_cases h1 : H (Standard.keyLeaf k) = H (Standard.keyLeaf k')
  · exact ⟨_, _, key, h1, by simp⟩
  · have n : Standard.node H k ≠ Standard.node H k' := fun e =>
      h1 (Subtype.ext (List.append_cancel_left (List.cons.inj e).2))
    by_cases h2 : H (Standard.node H k) = H (Standard.node H k')
    · exact ⟨_, _, n, h2, by simp⟩
    · exact ⟨Standard.root H k, Standard.root H k', fun e => h2 (Subtype.ext (List.append_cancel_right (List.cons.inj e).2)), h, by simp⟩

/-- C61.  A public key and its unlock key have the same text, and that text is read as the unlock key. -/
theorem C61_unlock_key_text (k : PublicKey) :
    showUnlockKey (UnlockKey.ofPublicKey k) = some (showKey k) ∧ parseUnlockKey (showKey k) = .ok (UnlockKey.ofPublicKey k) := by
  have h : showUnlockKey (UnlockKey.ofPublicKey k) = some (showKey k) := by
    have e : showSpecifier (specifier (ascii "ed25519")) = some (ascii "ed25519") := by decide +kernel
    rw [showUnlockKey, UnlockKey.ofPublicKey, e]
    have e2 : keyPrefix = ascii "ed25519" ++ [58] := by decide +kernel
    rw [showKey, e2]
  exact ⟨h, (C20_round_trip _ _ h).1 (by simp only [UnlockKey.ofPublicKey]; decide +kernel)⟩

/-- C61.  The text of a chain index: the height in decimal without leading zeros, a colon, the identifier in lower-case hex. -/
theorem C61_chain_index_text (i : ChainIndex) : ∃ d : List Char, Digits d ∧ decimal d = i.height.toNat ∧ (d.head? = some '0' → i.height = 0) ∧
    ∃ t, HexText t i.id.1 ∧ LowerCase t ∧ i.show = d.map (fun c => UInt8.ofNat c.toNat) ++ [58] ++ t := by
  obtain ⟨h1, h2, h3⟩ := showNat_spec i.height.toNat
  refine ⟨_, h1, h2, fun h => BitVec.eq_of_toNat_eq (h3 h), _, (hexEncode_text i.id.1).1, (hexEncode_text i.id.1).2, ?_⟩
  simp [ChainIndex.show, ascii]

theorem digitBytes_noColon {d : List Char} (h : Digits d) : (58 : UInt8) ∉ d.map (fun c => UInt8.ofNat c.toNat) := by
  intro m
  obtain ⟨c, hc, e⟩ := List.mem_map.mp m
  have : ∀ c ∈ digitChars, UInt8.ofNat c.toNat ≠ 58 := by decide
  exact this c (h.2 c hc) e

/-- C61.  Parsed as an identifier, the text of a chain index gives its identifier: the height is dropped. -/
theorem C61_chain_index_as_id (i : ChainIndex) : parseId i.show = .ok i.id := by
  obtain ⟨d, hd, _, _, t, ht, _, e⟩ := C61_chain_index_text i
  exact (C17_accepts _ _).mpr ⟨t, .inl ⟨_, digitBytes_noColon hd, e⟩, ht⟩

theorem ascii_digits_inj : ∀ d d' : List Char, (∀ c ∈ d, c ∈ digitChars) → (∀ c ∈ d', c ∈ digitChars) →
    d.map (fun c => UInt8.ofNat c.toNat) = d'.map (fun c => UInt8.ofNat c.toNat) → d = d'
  | [], [], _, _, _ => rfl
  | c :: d, c' :: d', h, h', e => by
    have key : ∀ c ∈ digitChars, ∀ c' ∈ digitChars, UInt8.ofNat c.toNat = UInt8.ofNat c'.toNat → c = c' := by decide
    rw [List.map_cons, List.map_cons, List.cons.injEq] at e
    rw [key c (h c (by simp)) c' (h' c' (by simp)) e.1,
      ascii_digits_inj d d' (fun x hx => h x (by simp [hx])) (fun x hx => h' x (by simp [hx])) e.2]

/-- C61.  Different chain indices have different texts. -/
theorem C61_chain_index_injective (i j : ChainIndex) (h : i.show = j.show) : i = j := by
  have hid : i.id = j.id := by
    have := C61_chain_index_as_id i
    rw [h, C61_chain_index_as_id j] at this
    exact (Except.ok.inj this).symm
  have hh : i.height.toNat = j.height.toNat := by
    unfold ChainIndex.show at h
    rw [hid] at h
    have e := List.append_cancel_right h
    have hi := showNat_spec i.height.toNat
    have hj := showNat_spec j.height.toNat
    simp only [ascii, String.toList_ofList] at e
    rw [← hi.2.1, ← hj.2.1, ascii_digits_inj _ _ hi.1.2 hj.1.2 e]
  cases i; cases j
  simp only at hid hh
  rw [hid, BitVec.eq_of_toNat_eq hh]

/-- C61.  An address from a slice: the slice itself if it has 32 bytes, otherwise a panic. -/
theorem C61_address_of_slice (s : List UInt8) : (∀ a, Address.ofSlice s = .ok a ↔ a.1 = s) ∧ (Address.ofSlice s = .panic ↔ s.length ≠ 32) := by
  unfold Address.ofSlice
  by_cases h : s.length = 32
  · rw [dif_pos h]
    refine ⟨fun a => ?_, by simp [h]⟩
    rw [Res.ok.injEq]
    exact ⟨fun e => e ▸ rfl, fun e => Subtype.ext e.symm⟩
  · rw [dif_neg h]
    refine ⟨fun a => ⟨fun e => (by cases e), fun e => absurd (e ▸ a.2) h⟩, by simp [h]⟩

/-- C61.  What `UnlockConditions::new` makes, on the wire: the timelock, the keys, the number of signatures, in this order. -/
theorem C61_new_conditions (timelock n : U64) (ks : List UnlockKey) :
    enc .v1 (UnlockConditions.new timelock ks n) = le64 timelock.toNat ++ (Layout.many Layout.unlockKey ks ++ le64 n.toNat) := by
  rw [lay_unlockConditions]
  simp [Layout.unlockConditions, UnlockConditions.new]

/-- C61.  What `whole_transaction()` makes, on the wire: the flag and ten empty lists. -/
theorem C61_whole_wire : enc .v1 V1.CoveredFields.whole = 1 :: List.replicate 80 0 := by decide +kernel

/-- Different timelocks and numbers of signatures. -/
example : enc .v1 (UnlockConditions.new 258 [] 3) = [2, 1, 0, 0, 0, 0, 0, 0, 0, 0, 0, 0, 0, 0, 0, 0, 3, 0, 0, 0, 0, 0, 0, 0] := by decide +kernel

/-- C61.  `partial_sig_hash` does not look at the whole-transaction flag: for the covered fields made by `whole_transaction()` it is the hash of
nothing, the same for every transaction, every chain state. -/
theorem C61_whole_fields (H : Hasher) (cs : ChainState) (t : V1.Transaction) : t.partialSigHash H cs V1.CoveredFields.whole = .ok (H []) := rfl

/-- C61.  The threshold constructor panics exactly when a direct child is unlock conditions, and otherwise builds the threshold. -/
theorem C61_threshold (n : UInt8) (ps : List SpendPolicy) :
    (∀ q, SpendPolicy.mkThreshold n ps = .ok q ↔ q = .threshold n ps ∧ ∀ uc, .unlockConditions uc ∉ ps) ∧
    (SpendPolicy.mkThreshold n ps = .panic ↔ ∃ uc, .unlockConditions uc ∈ ps) := by
  have h : ps.any (fun | .unlockConditions _ => true | _ => false) = true ↔ ∃ uc, .unlockConditions uc ∈ ps := by
    rw [List.any_eq_true]
    constructor
    · rintro ⟨p, hp, h⟩
      cases p with
      | unlockConditions uc => exact ⟨uc, hp⟩
      | _ => cases h
    · rintro ⟨uc, h⟩
      exact ⟨_, h, rfl⟩
  unfold SpendPolicy.mkThreshold
  split
  · next ha =>
    obtain ⟨uc, hu⟩ := h.mp ha
    exact ⟨fun q => ⟨nofun, fun hq => absurd hu (hq.2 uc)⟩, fun _ => ⟨uc, hu⟩, fun _ => rfl⟩
  · next ha =>
    have hn : ∀ uc, .unlockConditions uc ∉ ps := fun uc hu => ha (h.mpr ⟨uc, hu⟩)
    refine ⟨fun q => ⟨fun e => ⟨(Res.ok.inj e).symm, hn⟩, fun e => by rw [e.1]⟩, nofun, fun ⟨uc, hu⟩ => absurd hu (hn uc)⟩

/-- C61.  What the constructor refuses, the decoder accepts: thresholds over unlock conditions come in by the wire. -/
theorem C61_threshold_decodes (lim : Lim) (n : UInt8) (uc : UnlockConditions) (h : fits lim (SpendPolicy.threshold n [.unlockConditions uc])) :
    SpendPolicy.mkThreshold n [.unlockConditions uc] = .panic ∧
    (dec .v2 : Dec SpendPolicy) lim (enc .v2 (SpendPolicy.threshold n [.unlockConditions uc])) = .ok (.threshold n [.unlockConditions uc], []) := by
  refine ⟨(C61_threshold n _).2.mpr ⟨uc, by simp⟩, ?_⟩
  have := (inferInstance : Lawful .v2 SpendPolicy)
  have e := (roundTrips : RoundTrips .v2 SpendPolicy) lim _ [] h
  rwa [List.append_nil] at e

example : fits Sample.lim (SpendPolicy.threshold 1 [.unlockConditions Sample.uc]) := by
  simp [fits, policyFits, Sample.lim, Sample.uc, Struct.fields]

/-- Two transactions that move different amounts have the same hash to sign under `whole_transaction()`. -/
example (H : Hasher) (cs : ChainState) :
    (({Sample.v1txn with siacoinOutputs := []} : V1.Transaction).partialSigHash H cs V1.CoveredFields.whole) = Sample.v1txn.partialSigHash H cs V1.CoveredFields.whole ∧
    Sample.v1txn.siacoinOutputs ≠ [] := ⟨rfl, by decide⟩

/-- A key of 32 different bytes and the text of a chain index. -/
example : (ChainIndex.show ⟨1500000, (Sample.h 3)⟩).length = 72 ∧ parseId (ChainIndex.show ⟨1500000, (Sample.h 3)⟩) = .ok (Sample.h 3) :=
  ⟨by decide +kernel, C61_chain_index_as_id _⟩

/-- A hash function with collisions: every key has the same standard address. -/
example (k k' : PublicKey) : (UnlockConditions.standard k).address (fun _ => (Sample.h 3)) = (UnlockConditions.standard k').address (fun _ => (Sample.h 3)) := by
  rw [C61_standard_address, C61_standard_address]

example : Address.ofSlice (List.replicate 31 7) = .panic ∧ ∃ a, Address.ofSlice (List.replicate 32 7) = .ok a :=
  ⟨(C61_address_of_slice _).2.mpr (by decide), ⟨⟨_, rfl⟩, ((C61_address_of_slice _).1 _).mpr rfl⟩⟩

end Verif
