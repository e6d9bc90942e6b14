import Verif.Props.Samples
import Verif.Lemmas.Panic
import Verif.Lemmas.Wire

/-!
# C01-C10: the binary codecs
-/

namespace Verif

open Sample (lim)

/-! ## C01 v2 round trip -/

/-- C01. -/
theorem C01_v2_transaction_round_trip : RoundTrips .v2 V2.Transaction := roundTrips

/-- C01 for every other type with a v2 codec. -/
theorem C01_v2_parts_round_trip :
    RoundTrips .v2 UInt8 ∧ RoundTrips .v2 Bool ∧ RoundTrips .v2 U64 ∧ RoundTrips .v2 String ∧
    RoundTrips .v2 Duration ∧ RoundTrips .v2 Currency ∧ RoundTrips .v2 Work ∧ RoundTrips .v2 ChainIndex ∧
    RoundTrips .v2 SiacoinOutput ∧ RoundTrips .v2 SiafundOutput ∧ RoundTrips .v2 StateElement ∧
    RoundTrips .v2 UnlockKey ∧ RoundTrips .v2 UnlockConditions ∧ RoundTrips .v2 SpendPolicy ∧
    RoundTrips .v2 SatisfiedPolicy ∧ RoundTrips .v2 V2.Attestation ∧ RoundTrips .v2 V2.FileContract ∧
    RoundTrips .v2 V2.SiacoinElement ∧ RoundTrips .v2 V2.SiafundElement ∧
    RoundTrips .v2 V2.FileContractElement ∧ RoundTrips .v2 V2.ChainIndexElement ∧
    RoundTrips .v2 V2.SiacoinInput ∧ RoundTrips .v2 V2.SiafundInput ∧ RoundTrips .v2 V2.FileContractRevision ∧
    RoundTrips .v2 V2.FileContractRenewal ∧ RoundTrips .v2 V2.StorageProof ∧
    RoundTrips .v2 V2.FileContractResolution ∧ RoundTrips .v2 ElementAccumulator ∧ RoundTrips .v2 DateTime :=
  ⟨roundTrips, roundTrips, roundTrips, roundTrips, roundTrips, roundTrips, roundTrips, roundTrips, roundTrips,
    roundTrips, roundTrips, roundTrips, roundTrips, roundTrips, roundTrips, roundTrips, roundTrips, roundTrips,
    roundTrips, roundTrips, roundTrips, roundTrips, roundTrips, roundTrips, roundTrips, roundTrips, roundTrips,
    roundTrips, roundTrips⟩

example : fits lim Sample.v2txn := Sample.fits_v2txn
example : (dec .v2 : Dec V2.Transaction) lim (enc .v2 Sample.v2txn ++ [1, 2, 3]) = .ok (Sample.v2txn, [1, 2, 3]) :=
  C01_v2_transaction_round_trip _ _ _ Sample.fits_v2txn

/-! ## C02 v1 round trip -/

/-- C02. -/
theorem C02_v1_transaction_round_trip : RoundTrips .v1 V1.Transaction := roundTrips

/-- C02 for the parts of a v1 transaction. -/
theorem C02_v1_parts_round_trip :
    RoundTrips .v1 UInt8 ∧ RoundTrips .v1 Bool ∧ RoundTrips .v1 U64 ∧ RoundTrips .v1 Currency ∧
    RoundTrips .v1 Work ∧ RoundTrips .v1 SiacoinOutput ∧ RoundTrips .v1 SiafundOutput ∧
    RoundTrips .v1 UnlockKey ∧ RoundTrips .v1 UnlockConditions ∧ RoundTrips .v1 V1.SiacoinInput ∧
    RoundTrips .v1 V1.SiafundInput ∧ RoundTrips .v1 V1.FileContract ∧ RoundTrips .v1 V1.FileContractRevision ∧
    RoundTrips .v1 V1.StorageProof ∧ RoundTrips .v1 V1.CoveredFields ∧ RoundTrips .v1 V1.TransactionSignature :=
  ⟨roundTrips, roundTrips, roundTrips, roundTrips, roundTrips, roundTrips, roundTrips, roundTrips, roundTrips,
    roundTrips, roundTrips, roundTrips, roundTrips, roundTrips, roundTrips, roundTrips⟩

example : fits lim Sample.v1txn := Sample.fits_v1txn

/-! ## C03 block round trip -/

/-- C03. -/
theorem C03_block_round_trip : RoundTrips .v1 Block := roundTrips

example : fits lim Sample.block := Sample.fits_block

/-- Sub-second precision of the timestamp is lost, so the restriction to whole seconds is needed. -/
theorem C03_subsecond_lost :
    ∃ b : Block, b.timestamp = ⟨0, 1⟩ ∧ (dec .v1 : Dec Block) lim (enc .v1 b) = .ok ({ b with timestamp := ⟨0, 0⟩ }, []) :=
  ⟨⟨Sample.h 0, 0, ⟨0, 1⟩, [], []⟩, rfl, by decide +kernel⟩

/-! ## C04 chain state round trip -/

/-- C04: encoding a state succeeds and decoding what it wrote gives the state back. -/
theorem C04_state_round_trip (m : Mode) (lim : Lim) (s : State) (h : stateFits lim s) :
    ∃ e, s.encode m = .ok e ∧ ∀ rest, State.decode m lim (e ++ rest) = .ok (s, rest) :=
  ⟨_, State.encode_ok h.1, fun rest => (State.reads_state h (State.encode_ok h.1)).rt rest⟩

/-- C04: the element accumulator. -/
theorem C04_element_accumulator_round_trip : RoundTrips .v2 ElementAccumulator := roundTrips

example : stateFits lim Sample.state := Sample.fits_state
example : fits lim Sample.accumulator := Sample.fits_accumulator

/-- The normal form is needed: states that differ in a timestamp beyond the written ones are encoded alike. -/
theorem C04_normal_form_needed : ∃ s s' : State, s ≠ s' ∧ s.encode .checked = s'.encode .checked ∧
    s.encode .checked ≠ .panic :=
  ⟨Sample.state, { Sample.state with prevTimestamps := ⟨Sample.state.prevTimestamps.1.take 10 ++ [⟨7, 0⟩], rfl⟩ },
    by decide +kernel, by decide +kernel, by decide +kernel⟩

/-! ## C05 policy round trip -/

/-- C05. -/
theorem C05_policy_round_trip : RoundTrips .v2 SpendPolicy := roundTrips

/-- C05: what happens beyond 255 sub-policies.  Only the first `len % 256` survive; the bytes of the others are
left in the stream. -/
theorem C05_threshold_overflow (lim : Lim) (n : UInt8) (ps : List SpendPolicy) (rest : List UInt8)
    (hp : ∀ d, lim.stack = d + 1 → ∀ p ∈ ps, policyFits lim d p) (hs : lim.stack ≠ 0) (hc : 255 ≤ lim.cap) :
    (dec .v2 : Dec SpendPolicy) lim (enc .v2 (SpendPolicy.threshold n ps) ++ rest) =
      .ok (.threshold n (ps.take (ps.length % 256)),
        (ps.drop (ps.length % 256)).flatMap (fun p => (enc .v2 p).tail) ++ rest) := by
  rw [SpendPolicy.enc_threshold_take, List.append_assoc, C05_policy_round_trip]
  · rfl
  · obtain ⟨d, hd⟩ := Nat.exists_eq_succ_of_ne_zero hs
    have hm := Nat.mod_lt ps.length (show 256 > 0 by decide)
    show policyFits lim lim.stack _
    rw [hd]
    refine ⟨by rw [List.length_take]; omega, by rw [List.length_take]; omega, fun p h => ?_⟩
    exact hp d hd p (List.mem_of_mem_take h)

/-- C05 is false without the bound on the number of sub-policies. -/
theorem C05_unbounded_false : ¬ ∀ (lim : Lim) (p : SpendPolicy) (rest : List UInt8), 256 ≤ lim.cap → 2 ≤ lim.stack →
    (dec .v2 : Dec SpendPolicy) lim (enc .v2 p ++ rest) = .ok (p, rest) := by
  intro h
  have h1 := h ⟨256, 2⟩ (.threshold 1 (List.replicate 256 (.above 0))) [] (by decide) (by decide)
  rw [C05_threshold_overflow] at h1
  · simp only [Res.ok.injEq, Prod.mk.injEq, SpendPolicy.threshold.injEq, List.length_replicate] at h1
    exact absurd (congrArg List.length h1.1.2) (by simp only [List.length_take, List.length_replicate]; decide)
  · intro d hd p hp
    have : d = 1 := by simp at hd; omega
    rw [(List.mem_replicate.mp hp).2, this]
    trivial
  · decide
  · decide

example : fits lim Sample.policy := Sample.fits_policy

/-! ## C06 self-delimiting and injective -/

/-- C06, v2 codecs. -/
theorem C06_v2_self_delimiting :
    SelfDelimiting .v2 UInt8 ∧ SelfDelimiting .v2 Bool ∧ SelfDelimiting .v2 U64 ∧ SelfDelimiting .v2 String ∧
    SelfDelimiting .v2 Duration ∧ SelfDelimiting .v2 Currency ∧ SelfDelimiting .v2 Work ∧
    SelfDelimiting .v2 ChainIndex ∧ SelfDelimiting .v2 SiacoinOutput ∧ SelfDelimiting .v2 SiafundOutput ∧
    SelfDelimiting .v2 StateElement ∧ SelfDelimiting .v2 UnlockKey ∧ SelfDelimiting .v2 UnlockConditions ∧
    SelfDelimiting .v2 SpendPolicy ∧ SelfDelimiting .v2 SatisfiedPolicy ∧ SelfDelimiting .v2 V2.Attestation ∧
    SelfDelimiting .v2 V2.FileContract ∧ SelfDelimiting .v2 V2.SiacoinElement ∧
    SelfDelimiting .v2 V2.SiafundElement ∧ SelfDelimiting .v2 V2.FileContractElement ∧
    SelfDelimiting .v2 V2.ChainIndexElement ∧ SelfDelimiting .v2 V2.SiacoinInput ∧
    SelfDelimiting .v2 V2.SiafundInput ∧ SelfDelimiting .v2 V2.FileContractRevision ∧
    SelfDelimiting .v2 V2.FileContractRenewal ∧ SelfDelimiting .v2 V2.StorageProof ∧
    SelfDelimiting .v2 V2.FileContractResolution ∧ SelfDelimiting .v2 V2.Transaction ∧
    SelfDelimiting .v2 ElementAccumulator ∧ SelfDelimiting .v2 DateTime :=
  ⟨selfDelimiting, selfDelimiting, selfDelimiting, selfDelimiting, selfDelimiting, selfDelimiting,
    selfDelimiting, selfDelimiting, selfDelimiting, selfDelimiting, selfDelimiting, selfDelimiting,
    selfDelimiting, selfDelimiting, selfDelimiting, selfDelimiting, selfDelimiting, selfDelimiting,
    selfDelimiting, selfDelimiting, selfDelimiting, selfDelimiting, selfDelimiting, selfDelimiting,
    selfDelimiting, selfDelimiting, selfDelimiting, selfDelimiting, selfDelimiting, selfDelimiting⟩

/-- C06, v1 codecs. -/
theorem C06_v1_self_delimiting :
    SelfDelimiting .v1 UInt8 ∧ SelfDelimiting .v1 Bool ∧ SelfDelimiting .v1 U64 ∧ SelfDelimiting .v1 Currency ∧
    SelfDelimiting .v1 Work ∧ SelfDelimiting .v1 SiacoinOutput ∧ SelfDelimiting .v1 SiafundOutput ∧
    SelfDelimiting .v1 UnlockKey ∧ SelfDelimiting .v1 UnlockConditions ∧ SelfDelimiting .v1 V1.SiacoinInput ∧
    SelfDelimiting .v1 V1.SiafundInput ∧ SelfDelimiting .v1 V1.FileContract ∧
    SelfDelimiting .v1 V1.FileContractRevision ∧ SelfDelimiting .v1 V1.StorageProof ∧
    SelfDelimiting .v1 V1.CoveredFields ∧ SelfDelimiting .v1 V1.TransactionSignature ∧
    SelfDelimiting .v1 V1.Transaction ∧ SelfDelimiting .v1 DateTime ∧ SelfDelimiting .v1 Block :=
  ⟨selfDelimiting, selfDelimiting, selfDelimiting, selfDelimiting, selfDelimiting, selfDelimiting,
    selfDelimiting, selfDelimiting, selfDelimiting, selfDelimiting, selfDelimiting, selfDelimiting,
    selfDelimiting, selfDelimiting, selfDelimiting, selfDelimiting, selfDelimiting, selfDelimiting,
    selfDelimiting⟩

/-- C06, chain states. -/
theorem C06_state_self_delimiting (m : Mode) (lim : Lim) (a b : State) (ea eb x y : List UInt8) (ha : stateFits lim a)
    (hb : stateFits lim b) (hea : a.encode m = .ok ea) (heb : b.encode m = .ok eb) (h : ea ++ x = eb ++ y) :
    a = b ∧ x = y := by
  have h1 := (State.reads_state ha hea).rt x
  rw [h, (State.reads_state hb heb).rt y] at h1
  simp at h1
  exact ⟨h1.1.symm, h1.2.symm⟩

example : fits lim Sample.v2txn ∧ fits lim { Sample.v2txn with minerFee := ⟨8⟩ } :=
  ⟨Sample.fits_v2txn, Sample.fits_v2txn⟩
example : stateFits lim Sample.state ∧ ∃ e, Sample.state.encode .checked = .ok e :=
  ⟨Sample.fits_state, _, State.encode_ok Sample.fits_state.1⟩

/-! ## C07 truncation -/

/-- C07, v2 codecs. -/
theorem C07_v2_truncation_fails :
    TruncationFails .v2 UInt8 ∧ TruncationFails .v2 Bool ∧ TruncationFails .v2 U64 ∧
    TruncationFails .v2 String ∧ TruncationFails .v2 Duration ∧ TruncationFails .v2 Currency ∧
    TruncationFails .v2 Work ∧ TruncationFails .v2 ChainIndex ∧ TruncationFails .v2 SiacoinOutput ∧
    TruncationFails .v2 SiafundOutput ∧ TruncationFails .v2 StateElement ∧ TruncationFails .v2 UnlockKey ∧
    TruncationFails .v2 UnlockConditions ∧ TruncationFails .v2 SpendPolicy ∧
    TruncationFails .v2 SatisfiedPolicy ∧ TruncationFails .v2 V2.Attestation ∧
    TruncationFails .v2 V2.FileContract ∧ TruncationFails .v2 V2.SiacoinElement ∧
    TruncationFails .v2 V2.SiafundElement ∧ TruncationFails .v2 V2.FileContractElement ∧
    TruncationFails .v2 V2.ChainIndexElement ∧ TruncationFails .v2 V2.SiacoinInput ∧
    TruncationFails .v2 V2.SiafundInput ∧ TruncationFails .v2 V2.FileContractRevision ∧
    TruncationFails .v2 V2.FileContractRenewal ∧ TruncationFails .v2 V2.StorageProof ∧
    TruncationFails .v2 V2.FileContractResolution ∧ TruncationFails .v2 V2.Transaction ∧
    TruncationFails .v2 ElementAccumulator ∧ TruncationFails .v2 DateTime :=
  ⟨truncationFails, truncationFails, truncationFails, truncationFails, truncationFails, truncationFails,
    truncationFails, truncationFails, truncationFails, truncationFails, truncationFails, truncationFails,
    truncationFails, truncationFails, truncationFails, truncationFails, truncationFails, truncationFails,
    truncationFails, truncationFails, truncationFails, truncationFails, truncationFails, truncationFails,
    truncationFails, truncationFails, truncationFails, truncationFails, truncationFails, truncationFails⟩

/-- C07, v1 codecs. -/
theorem C07_v1_truncation_fails :
    TruncationFails .v1 UInt8 ∧ TruncationFails .v1 Bool ∧ TruncationFails .v1 U64 ∧
    TruncationFails .v1 Currency ∧ TruncationFails .v1 Work ∧ TruncationFails .v1 SiacoinOutput ∧
    TruncationFails .v1 SiafundOutput ∧ TruncationFails .v1 UnlockKey ∧ TruncationFails .v1 UnlockConditions ∧
    TruncationFails .v1 V1.SiacoinInput ∧ TruncationFails .v1 V1.SiafundInput ∧
    TruncationFails .v1 V1.FileContract ∧ TruncationFails .v1 V1.FileContractRevision ∧
    TruncationFails .v1 V1.StorageProof ∧ TruncationFails .v1 V1.CoveredFields ∧
    TruncationFails .v1 V1.TransactionSignature ∧ TruncationFails .v1 V1.Transaction ∧
    TruncationFails .v1 DateTime ∧ TruncationFails .v1 Block :=
  ⟨truncationFails, truncationFails, truncationFails, truncationFails, truncationFails, truncationFails,
    truncationFails, truncationFails, truncationFails, truncationFails, truncationFails, truncationFails,
    truncationFails, truncationFails, truncationFails, truncationFails, truncationFails, truncationFails,
    truncationFails⟩

/-- C07, chain states. -/
theorem C07_state_truncation_fails (m : Mode) (lim : Lim) (s : State) (e p q : List UInt8) (hs : stateFits lim s)
    (he : s.encode m = .ok e) (h : e = p ++ q) (hq : q ≠ []) : ∃ err, State.decode m lim p = .err err :=
  (State.reads_state hs he).trunc p q h.symm hq

example : fits lim Sample.v1txn ∧ enc .v1 Sample.v1txn = (enc .v1 Sample.v1txn).take 100 ++ (enc .v1 Sample.v1txn).drop 100 ∧
    (enc .v1 Sample.v1txn).drop 100 ≠ [] := ⟨Sample.fits_v1txn, by simp, by decide +kernel⟩

/-! ## C08 locality -/

/-- C08, v2 codecs. -/
theorem C08_v2_local :
    DecodesLocally .v2 UInt8 ∧ DecodesLocally .v2 Bool ∧ DecodesLocally .v2 U64 ∧ DecodesLocally .v2 String ∧
    DecodesLocally .v2 Duration ∧ DecodesLocally .v2 Currency ∧ DecodesLocally .v2 Work ∧
    DecodesLocally .v2 ChainIndex ∧ DecodesLocally .v2 SiacoinOutput ∧ DecodesLocally .v2 SiafundOutput ∧
    DecodesLocally .v2 StateElement ∧ DecodesLocally .v2 UnlockKey ∧ DecodesLocally .v2 UnlockConditions ∧
    DecodesLocally .v2 SpendPolicy ∧ DecodesLocally .v2 SatisfiedPolicy ∧ DecodesLocally .v2 V2.Attestation ∧
    DecodesLocally .v2 V2.FileContract ∧ DecodesLocally .v2 V2.SiacoinElement ∧
    DecodesLocally .v2 V2.SiafundElement ∧ DecodesLocally .v2 V2.FileContractElement ∧
    DecodesLocally .v2 V2.ChainIndexElement ∧ DecodesLocally .v2 V2.SiacoinInput ∧
    DecodesLocally .v2 V2.SiafundInput ∧ DecodesLocally .v2 V2.FileContractRevision ∧
    DecodesLocally .v2 V2.FileContractRenewal ∧ DecodesLocally .v2 V2.StorageProof ∧
    DecodesLocally .v2 V2.FileContractResolution ∧ DecodesLocally .v2 V2.Transaction ∧
    DecodesLocally .v2 ElementAccumulator ∧ DecodesLocally .v2 DateTime :=
  ⟨decodesLocally, decodesLocally, decodesLocally, decodesLocally, decodesLocally, decodesLocally,
    decodesLocally, decodesLocally, decodesLocally, decodesLocally, decodesLocally, decodesLocally,
    decodesLocally, decodesLocally, decodesLocally, decodesLocally, decodesLocally, decodesLocally,
    decodesLocally, decodesLocally, decodesLocally, decodesLocally, decodesLocally, decodesLocally,
    decodesLocally, decodesLocally, decodesLocally, decodesLocally, decodesLocally, decodesLocally⟩

/-- C08, v1 codecs. -/
theorem C08_v1_local :
    DecodesLocally .v1 UInt8 ∧ DecodesLocally .v1 Bool ∧ DecodesLocally .v1 U64 ∧ DecodesLocally .v1 Currency ∧
    DecodesLocally .v1 Work ∧ DecodesLocally .v1 SiacoinOutput ∧ DecodesLocally .v1 SiafundOutput ∧
    DecodesLocally .v1 UnlockKey ∧ DecodesLocally .v1 UnlockConditions ∧ DecodesLocally .v1 V1.SiacoinInput ∧
    DecodesLocally .v1 V1.SiafundInput ∧ DecodesLocally .v1 V1.FileContract ∧
    DecodesLocally .v1 V1.FileContractRevision ∧ DecodesLocally .v1 V1.StorageProof ∧
    DecodesLocally .v1 V1.CoveredFields ∧ DecodesLocally .v1 V1.TransactionSignature ∧
    DecodesLocally .v1 V1.Transaction ∧ DecodesLocally .v1 DateTime ∧ DecodesLocally .v1 Block :=
  ⟨decodesLocally, decodesLocally, decodesLocally, decodesLocally, decodesLocally, decodesLocally,
    decodesLocally, decodesLocally, decodesLocally, decodesLocally, decodesLocally, decodesLocally,
    decodesLocally, decodesLocally, decodesLocally, decodesLocally, decodesLocally, decodesLocally,
    decodesLocally⟩

/-- C08, chain states. -/
theorem C08_state_local (m : Mode) (lim : Lim) (bs rest : List UInt8) (s : State)
    (h : State.decode m lim bs = .ok (s, rest)) :
    ∃ used, bs = used ++ rest ∧ ∀ other, State.decode m lim (used ++ other) = .ok (s, other) :=
  State.local_decode m lim bs s rest h

example : ∃ t, (dec .v2 : Dec V2.Transaction) lim (enc .v2 Sample.v2txn ++ [5]) = .ok (t, [5]) :=
  ⟨_, C01_v2_transaction_round_trip _ _ _ Sample.fits_v2txn⟩

/-! ## C09 canonical decoding -/

/-- C09: the v2 codecs that accept only encodings. -/
theorem C09_v2_canonical :
    DecodesCanonically .v2 UInt8 ∧ DecodesCanonically .v2 Bool ∧ DecodesCanonically .v2 U64 ∧
    DecodesCanonically .v2 String ∧ DecodesCanonically .v2 Duration ∧ DecodesCanonically .v2 Currency ∧
    DecodesCanonically .v2 Work ∧ DecodesCanonically .v2 ChainIndex ∧ DecodesCanonically .v2 SiacoinOutput ∧
    DecodesCanonically .v2 SiafundOutput ∧ DecodesCanonically .v2 StateElement ∧
    DecodesCanonically .v2 UnlockKey ∧ DecodesCanonically .v2 UnlockConditions ∧
    DecodesCanonically .v2 SpendPolicy ∧ DecodesCanonically .v2 SatisfiedPolicy ∧
    DecodesCanonically .v2 V2.Attestation ∧ DecodesCanonically .v2 V2.FileContract ∧
    DecodesCanonically .v2 V2.SiacoinElement ∧ DecodesCanonically .v2 V2.SiafundElement ∧
    DecodesCanonically .v2 V2.FileContractElement ∧ DecodesCanonically .v2 V2.ChainIndexElement ∧
    DecodesCanonically .v2 V2.SiacoinInput ∧ DecodesCanonically .v2 V2.SiafundInput ∧
    DecodesCanonically .v2 V2.FileContractRevision ∧ DecodesCanonically .v2 V2.FileContractRenewal ∧
    DecodesCanonically .v2 V2.StorageProof ∧ DecodesCanonically .v2 V2.FileContractResolution ∧
    DecodesCanonically .v2 ElementAccumulator ∧ DecodesCanonically .v2 DateTime :=
  ⟨decodesCanonically, decodesCanonically, decodesCanonically, decodesCanonically, decodesCanonically,
    decodesCanonically, decodesCanonically, decodesCanonically, decodesCanonically, decodesCanonically,
    decodesCanonically, decodesCanonically, decodesCanonically, decodesCanonically, decodesCanonically,
    decodesCanonically, decodesCanonically, decodesCanonically, decodesCanonically, decodesCanonically,
    decodesCanonically, decodesCanonically, decodesCanonically, decodesCanonically, decodesCanonically,
    decodesCanonically, decodesCanonically, decodesCanonically, decodesCanonically⟩

/-- C09: the v1 codecs that accept only encodings. -/
theorem C09_v1_canonical :
    DecodesCanonically .v1 UInt8 ∧ DecodesCanonically .v1 Bool ∧ DecodesCanonically .v1 U64 ∧
    DecodesCanonically .v1 DateTime ∧ DecodesCanonically .v1 Work ∧ DecodesCanonically .v1 UnlockKey ∧
    DecodesCanonically .v1 UnlockConditions ∧ DecodesCanonically .v1 V1.SiacoinInput ∧
    DecodesCanonically .v1 V1.SiafundInput ∧ DecodesCanonically .v1 V1.StorageProof ∧
    DecodesCanonically .v1 V1.CoveredFields ∧ DecodesCanonically .v1 V1.TransactionSignature :=
  ⟨decodesCanonically, decodesCanonically, decodesCanonically, decodesCanonically, decodesCanonically,
    decodesCanonically, decodesCanonically, decodesCanonically, decodesCanonically, decodesCanonically,
    decodesCanonically, decodesCanonically⟩

/-- C09, chain states: the accepted bytes are what the encoder writes for the result. -/
theorem C09_state_canonical (m : Mode) (lim : Lim) (bs rest : List UInt8) (s : State)
    (h : State.decode m lim bs = .ok (s, rest)) : ∃ e, s.encode m = .ok e ∧ bs = e ++ rest :=
  State.canon_decode h

/-- C09, v2 transactions: an accepted byte string is the encoding of the result if its version byte and bit field are
those of that encoding. -/
theorem C09_v2_transaction_header (lim : Lim) (bs rest : List UInt8) (t : V2.Transaction)
    (h : (dec .v2 : Dec V2.Transaction) lim bs = .ok (t, rest)) (hh : bs.take 9 = (enc .v2 t).take 9) :
    bs = enc .v2 t ++ rest :=
  V2.Transaction.canonical_of_header h hh

/-- C09: the remaining codecs accept other byte strings too. -/
theorem C09_non_canonical : ¬ DecodesCanonically .v1 Currency ∧ ¬ DecodesCanonically .v1 SiafundOutput ∧
    ¬ DecodesCanonically .v1 SiacoinOutput ∧ ¬ DecodesCanonically .v2 U16 ∧ ¬ DecodesCanonically .v2 U32 := by
  refine ⟨fun h => ?_, fun h => ?_, fun h => ?_, fun h => ?_, fun h => ?_⟩
  · exact absurd (h lim ([1, 0, 0, 0, 0, 0, 0, 0, 0]) [] ⟨0⟩ (by decide +kernel)) (by decide +kernel)
  · exact absurd (h lim ([0, 0, 0, 0, 0, 0, 0, 0] ++ List.replicate 32 1 ++ [1, 0, 0, 0, 0, 0, 0, 0, 3]) [] ⟨0, Sample.h 1⟩
      (by decide +kernel)) (by decide +kernel)
  · exact absurd (h lim ([1, 0, 0, 0, 0, 0, 0, 0, 0] ++ List.replicate 32 1) [] ⟨⟨0⟩, Sample.h 1⟩
      (by decide +kernel)) (by decide +kernel)
  · exact absurd (h lim [1, 0, 1, 0, 0, 0, 0, 0] [] 1 (by decide +kernel)) (by decide +kernel)
  · exact absurd (h lim [1, 0, 0, 0, 1, 0, 0, 0] [] 1 (by decide +kernel)) (by decide +kernel)

/-- C09: v1 transactions and blocks inherit the padded amounts. -/
theorem C09_v1_transaction_non_canonical : ¬ DecodesCanonically .v1 V1.Transaction := by
  intro h
  have h1 := h lim (List.replicate 56 0 ++ [1, 0, 0, 0, 0, 0, 0, 0] ++ [1, 0, 0, 0, 0, 0, 0, 0, 0] ++ List.replicate 16 0) []
    ⟨[], [], [], [], [], [], [], [⟨0⟩], [], []⟩ (by decide +kernel)
  exact absurd h1 (by decide +kernel)

/-- C09: so do v1 contracts, revisions and blocks, with a padded amount in the payout, a proof output or a miner payout. -/
theorem C09_v1_others_non_canonical : ¬ DecodesCanonically .v1 V1.FileContract ∧ ¬ DecodesCanonically .v1 V1.FileContractRevision ∧
    ¬ DecodesCanonically .v1 Block := by
  refine ⟨fun h => ?_, fun h => ?_, fun h => ?_⟩
  · exact absurd (h lim (List.replicate 56 0 ++ [1, 0, 0, 0, 0, 0, 0, 0, 0] ++ List.replicate 56 0) []
      ⟨0, Sample.h 0, 0, 0, ⟨0⟩, [], [], Sample.h 0, 0⟩ (by decide +kernel)) (by decide +kernel)
  · exact absurd (h lim (List.replicate 120 0 ++ [1, 0, 0, 0, 0, 0, 0, 0] ++ [1, 0, 0, 0, 0, 0, 0, 0, 0] ++ List.replicate 72 0) []
      ⟨Sample.h 0, ⟨0, [], 0⟩, 0, 0, Sample.h 0, 0, 0, [⟨⟨0⟩, Sample.h 0⟩], [], Sample.h 0⟩ (by decide +kernel)) (by decide +kernel)
  · exact absurd (h lim (List.replicate 48 0 ++ [1, 0, 0, 0, 0, 0, 0, 0] ++ [1, 0, 0, 0, 0, 0, 0, 0, 0] ++ List.replicate 40 0) []
      ⟨Sample.h 0, 0, ⟨0, 0⟩, [⟨⟨0⟩, Sample.h 0⟩], []⟩ (by decide +kernel)) (by decide +kernel)

/-- C09: a v1 siafund output's claim start is read and ignored, whatever it is. -/
theorem C09_siafund_claim_start_ignored (lim : Lim) (o : SiafundOutput) (c : Currency) (rest : List UInt8) :
    (dec .v1 : Dec SiafundOutput) lim
      (enc .v1 (Currency.mk (o.value.setWidth 128)) ++ enc .v1 o.address ++ enc .v1 c ++ rest) = .ok (o, rest) := by
  have r1 := (Lawful.reads (v := .v1) lim (Currency.mk (o.value.setWidth 128)) trivial).rt
  have r2 := (Lawful.reads (v := .v1) lim o.address trivial).rt
  have r3 := (Lawful.reads (v := .v1) lim c trivial).rt
  rw [List.append_assoc, List.append_assoc, dec_siafundOutput_v1, Dec.bind_ok (r1 _)]
  have ht : (Currency.mk (o.value.setWidth 128)).toU64? = some o.value := Currency.toU64?_ofU64 o.value
  rw [ht]
  exact (Dec.bind_ok (r2 _)).trans (Dec.bind_ok (r3 _))

/-- C09: a v2 transaction's unknown bits are ignored, whatever they are. -/
theorem C09_v2_unknown_bits_ignored (lim : Lim) (f k : U64) (rest : List UInt8) :
    (dec .v2 : Dec V2.Transaction) lim (2 :: enc .v2 (f ||| k <<< 11) ++ rest) =
      (dec .v2 : Dec V2.Transaction) lim (2 :: enc .v2 f ++ rest) := by
  have hm : ∀ j, j < 11 → (f ||| k <<< 11) &&& BitVec.ofNat 64 (2 ^ j) = f &&& BitVec.ofNat 64 (2 ^ j) := by
    intro j hj
    apply BitVec.eq_of_getLsbD_eq
    intro i hi
    simp only [BitVec.getLsbD_and, BitVec.getLsbD_or, BitVec.getLsbD_shiftLeft, BitVec.getLsbD_ofNat, Nat.testBit_two_pow]
    by_cases h : j = i
    · simp [show i < 11 by omega]
    · simp [h]
  have hr : V2.Transaction.decodeRest .v2 (f ||| k <<< 11) = V2.Transaction.decodeRest .v2 f := by
    unfold V2.Transaction.decodeRest V2.Transaction.decodeField
    rw [show (1 : U64) = BitVec.ofNat 64 (2 ^ 0) from rfl, show (2 : U64) = BitVec.ofNat 64 (2 ^ 1) from rfl,
      show (4 : U64) = BitVec.ofNat 64 (2 ^ 2) from rfl, show (8 : U64) = BitVec.ofNat 64 (2 ^ 3) from rfl,
      show (16 : U64) = BitVec.ofNat 64 (2 ^ 4) from rfl, show (32 : U64) = BitVec.ofNat 64 (2 ^ 5) from rfl,
      show (64 : U64) = BitVec.ofNat 64 (2 ^ 6) from rfl, show (128 : U64) = BitVec.ofNat 64 (2 ^ 7) from rfl,
      show (256 : U64) = BitVec.ofNat 64 (2 ^ 8) from rfl, show (512 : U64) = BitVec.ofNat 64 (2 ^ 9) from rfl,
      show (1024 : U64) = BitVec.ofNat 64 (2 ^ 10) from rfl]
    simp only [hm _ (show 0 < 11 by decide), hm _ (show 1 < 11 by decide), hm _ (show 2 < 11 by decide),
      hm _ (show 3 < 11 by decide), hm _ (show 4 < 11 by decide), hm _ (show 5 < 11 by decide),
      hm _ (show 6 < 11 by decide), hm _ (show 7 < 11 by decide), hm _ (show 8 < 11 by decide),
      hm _ (show 9 < 11 by decide), hm _ (show 10 < 11 by decide)]
  have h2 : ∀ g : U64, (dec .v2 : Dec V2.Transaction) lim (2 :: enc .v2 g ++ rest) =
      V2.Transaction.decodeRest .v2 g lim rest := by
    intro g
    rw [V2.Transaction.dec_transaction, List.cons_append, Dec.bind_ok (dec_u8_cons _ _)]
    exact Dec.bind_ok ((Lawful.reads (v := .v2) lim g trivial).rt rest)
  rw [h2, h2, hr]

/-- C09: so v2 transactions have several accepted encodings. -/
theorem C09_v2_transaction_non_canonical : ¬ DecodesCanonically .v2 V2.Transaction := by
  intro h
  have h1 := h lim (2 :: enc .v2 ((0 : U64) ||| (1 : U64) <<< 11) ++ []) [] ⟨[], [], [], [], [], [], [], [], [], none, ⟨0⟩⟩ (by
    rw [C09_v2_unknown_bits_ignored]; rfl)
  exact absurd h1 (by decide +kernel)

/-- C09: whatever the v2 decoders accept, re-encoding and decoding again gives the same value. -/
theorem C09_v2_reencodes_stably :
    ReencodesStably .v2 UInt8 ∧ ReencodesStably .v2 Bool ∧ ReencodesStably .v2 U64 ∧
    ReencodesStably .v2 String ∧ ReencodesStably .v2 Duration ∧ ReencodesStably .v2 Currency ∧
    ReencodesStably .v2 Work ∧ ReencodesStably .v2 ChainIndex ∧ ReencodesStably .v2 SiacoinOutput ∧
    ReencodesStably .v2 SiafundOutput ∧ ReencodesStably .v2 StateElement ∧ ReencodesStably .v2 UnlockKey ∧
    ReencodesStably .v2 UnlockConditions ∧ ReencodesStably .v2 SpendPolicy ∧
    ReencodesStably .v2 SatisfiedPolicy ∧ ReencodesStably .v2 V2.Attestation ∧
    ReencodesStably .v2 V2.FileContract ∧ ReencodesStably .v2 V2.SiacoinElement ∧
    ReencodesStably .v2 V2.SiafundElement ∧ ReencodesStably .v2 V2.FileContractElement ∧
    ReencodesStably .v2 V2.ChainIndexElement ∧ ReencodesStably .v2 V2.SiacoinInput ∧
    ReencodesStably .v2 V2.SiafundInput ∧ ReencodesStably .v2 V2.FileContractRevision ∧
    ReencodesStably .v2 V2.FileContractRenewal ∧ ReencodesStably .v2 V2.StorageProof ∧
    ReencodesStably .v2 V2.FileContractResolution ∧ ReencodesStably .v2 V2.Transaction ∧
    ReencodesStably .v2 ElementAccumulator ∧ ReencodesStably .v2 DateTime :=
  ⟨reencodesStably, reencodesStably, reencodesStably, reencodesStably, reencodesStably, reencodesStably,
    reencodesStably, reencodesStably, reencodesStably, reencodesStably, reencodesStably, reencodesStably,
    reencodesStably, reencodesStably, reencodesStably, reencodesStably, reencodesStably, reencodesStably,
    reencodesStably, reencodesStably, reencodesStably, reencodesStably, reencodesStably, reencodesStably,
    reencodesStably, reencodesStably, reencodesStably, reencodesStably, reencodesStably, reencodesStably⟩

/-- C09: whatever the v1 decoders accept, re-encoding and decoding again gives the same value. -/
theorem C09_v1_reencodes_stably :
    ReencodesStably .v1 UInt8 ∧ ReencodesStably .v1 Bool ∧ ReencodesStably .v1 U64 ∧
    ReencodesStably .v1 Currency ∧ ReencodesStably .v1 Work ∧ ReencodesStably .v1 SiacoinOutput ∧
    ReencodesStably .v1 SiafundOutput ∧ ReencodesStably .v1 UnlockKey ∧ ReencodesStably .v1 UnlockConditions ∧
    ReencodesStably .v1 V1.SiacoinInput ∧ ReencodesStably .v1 V1.SiafundInput ∧
    ReencodesStably .v1 V1.FileContract ∧ ReencodesStably .v1 V1.FileContractRevision ∧
    ReencodesStably .v1 V1.StorageProof ∧ ReencodesStably .v1 V1.CoveredFields ∧
    ReencodesStably .v1 V1.TransactionSignature ∧ ReencodesStably .v1 V1.Transaction ∧
    ReencodesStably .v1 DateTime ∧ ReencodesStably .v1 Block :=
  ⟨reencodesStably, reencodesStably, reencodesStably, reencodesStably, reencodesStably, reencodesStably,
    reencodesStably, reencodesStably, reencodesStably, reencodesStably, reencodesStably, reencodesStably,
    reencodesStably, reencodesStably, reencodesStably, reencodesStably, reencodesStably, reencodesStably,
    reencodesStably⟩

example : (dec .v2 : Dec SatisfiedPolicy) lim (enc .v2 Sample.sp ++ []) = .ok (Sample.sp, []) :=
  roundTrips lim Sample.sp [] (by simp [fits, Struct.fields, Sample.sp, lim, policyFits, Sample.policy])
example : ((enc .v2 Sample.v2txn).take 9) = (enc .v2 Sample.v2txn ++ [7]).take 9 := by decide +kernel

/-! ## C10 panics -/

/-- C10 for the v2 codecs, given memory and stack.  Missing: machines with limits (see the theorems below), timestamps and chain states. -/
theorem C10_no_panic_v2_partial :
    NeverPanics .v2 UInt8 ∧ NeverPanics .v2 Bool ∧ NeverPanics .v2 U64 ∧ NeverPanics .v2 String ∧
    NeverPanics .v2 Duration ∧ NeverPanics .v2 Currency ∧ NeverPanics .v2 Work ∧ NeverPanics .v2 ChainIndex ∧
    NeverPanics .v2 SiacoinOutput ∧ NeverPanics .v2 SiafundOutput ∧ NeverPanics .v2 StateElement ∧
    NeverPanics .v2 UnlockKey ∧ NeverPanics .v2 UnlockConditions ∧ NeverPanics .v2 SpendPolicy ∧
    NeverPanics .v2 SatisfiedPolicy ∧ NeverPanics .v2 V2.Attestation ∧ NeverPanics .v2 V2.FileContract ∧
    NeverPanics .v2 V2.SiacoinElement ∧ NeverPanics .v2 V2.SiafundElement ∧
    NeverPanics .v2 V2.FileContractElement ∧ NeverPanics .v2 V2.ChainIndexElement ∧
    NeverPanics .v2 V2.SiacoinInput ∧ NeverPanics .v2 V2.SiafundInput ∧
    NeverPanics .v2 V2.FileContractRevision ∧ NeverPanics .v2 V2.FileContractRenewal ∧
    NeverPanics .v2 V2.StorageProof ∧ NeverPanics .v2 V2.FileContractResolution ∧
    NeverPanics .v2 V2.Transaction ∧ NeverPanics .v2 ElementAccumulator :=
  ⟨neverPanics, neverPanics, neverPanics, neverPanics, neverPanics, neverPanics, neverPanics, neverPanics,
    neverPanics, neverPanics, neverPanics, neverPanics, neverPanics, neverPanics, neverPanics, neverPanics,
    neverPanics, neverPanics, neverPanics, neverPanics, neverPanics, neverPanics, neverPanics, neverPanics,
    neverPanics, neverPanics, neverPanics, neverPanics, neverPanics⟩

/-- C10 for the v1 codecs, given memory and stack.  Missing: machines with limits, blocks. -/
theorem C10_no_panic_v1_partial :
    NeverPanics .v1 UInt8 ∧ NeverPanics .v1 Bool ∧ NeverPanics .v1 U64 ∧ NeverPanics .v1 Currency ∧
    NeverPanics .v1 Work ∧ NeverPanics .v1 SiacoinOutput ∧ NeverPanics .v1 SiafundOutput ∧
    NeverPanics .v1 UnlockKey ∧ NeverPanics .v1 UnlockConditions ∧ NeverPanics .v1 V1.SiacoinInput ∧
    NeverPanics .v1 V1.SiafundInput ∧ NeverPanics .v1 V1.FileContract ∧
    NeverPanics .v1 V1.FileContractRevision ∧ NeverPanics .v1 V1.StorageProof ∧
    NeverPanics .v1 V1.CoveredFields ∧ NeverPanics .v1 V1.TransactionSignature ∧ NeverPanics .v1 V1.Transaction :=
  ⟨neverPanics, neverPanics, neverPanics, neverPanics, neverPanics, neverPanics, neverPanics, neverPanics,
    neverPanics, neverPanics, neverPanics, neverPanics, neverPanics, neverPanics, neverPanics, neverPanics,
    neverPanics⟩

/-- C10 for the codecs without vectors, timestamps or recursion: no panic on any machine. -/
theorem C10_no_panic_anywhere_partial :
    NeverPanicsAnywhere .v2 UInt8 ∧ NeverPanicsAnywhere .v2 Bool ∧ NeverPanicsAnywhere .v2 U64 ∧
    NeverPanicsAnywhere .v2 Duration ∧ NeverPanicsAnywhere .v2 Currency ∧ NeverPanicsAnywhere .v2 Work ∧
    NeverPanicsAnywhere .v2 SiacoinOutput ∧ NeverPanicsAnywhere .v2 SiafundOutput ∧
    NeverPanicsAnywhere .v2 ChainIndex ∧ NeverPanicsAnywhere .v2 ElementAccumulator :=
  ⟨neverPanicsAnywhere, neverPanicsAnywhere, neverPanicsAnywhere, neverPanicsAnywhere, neverPanicsAnywhere,
    neverPanicsAnywhere, neverPanicsAnywhere, neverPanicsAnywhere, neverPanicsAnywhere, neverPanicsAnywhere⟩

/-- C10: the block decoder panics exactly on inputs whose timestamp is out of range. -/
theorem C10_block_panics_iff (lim : Lim) (bs : List UInt8) (h1 : 2 ^ 64 ≤ lim.cap) (h2 : bs.length < lim.stack) :
    (dec .v1 : Dec Block) lim bs = .panic ↔ BadTimestampAt bs 40 :=
  block_panic bs h1 h2

/-- C10: the state decoder panics exactly on inputs with one of the written timestamps out of range or, in an
overflow-checked build, with the maximal height. -/
theorem C10_state_panics_iff (m : Mode) (lim : Lim) (bs : List UInt8) (h1 : 2 ^ 64 ≤ lim.cap)
    (h2 : bs.length < lim.stack) :
    State.decode m lim bs = .panic ↔ 40 ≤ bs.length ∧
      (if u64At bs 0 = 2 ^ 64 - 1 then m = .checked
       else ∃ j, j ≤ u64At bs 0 ∧ j < 11 ∧ BadTimestampAt bs (40 + 8 * j)) :=
  state_panic bs h1 h2

/-- C10 is false for blocks: 48 bytes suffice on any machine. -/
theorem C10_block_panics : ∃ bs : List UInt8, ∀ lim, (dec .v1 : Dec Block) lim bs = .panic :=
  ⟨List.replicate 47 0 ++ [127], fun _ => rfl⟩

/-- C10 is false for chain states in an overflow-checked build. -/
theorem C10_state_panics : ∃ bs : List UInt8, ∀ lim, State.decode .checked lim bs = .panic :=
  ⟨List.replicate 8 255 ++ List.replicate 32 0, fun _ => rfl⟩

/-- C10 is false for vectors: a length prefix alone makes the decoder reserve that many elements. -/
theorem C10_vec_panics (lim : Lim) (h : lim.cap < 2 ^ 64 - 1) :
    (dec .v1 : Dec V1.Transaction) lim (List.replicate 8 255) = .panic ∧
    (dec .v2 : Dec V2.Transaction) lim (2 :: 1 :: List.replicate 7 0 ++ List.replicate 8 255) = .panic := by
  have hv : ∀ {v : Ver} {α : Type} [Codec v α], (dec v : Dec (List α)) lim (List.replicate 8 255) = .panic := by
    intro v α _
    rw [dec_list]
    refine (Dec.bind_ok (a := (BitVec.ofNat 64 (2 ^ 64 - 1) : U64)) (r := []) (by rfl)).trans ?_
    refine Dec.bind_eq_panic.mpr (Or.inl ?_)
    exact if_neg (by rw [BitVec.toNat_ofNat]; omega)
  constructor
  · exact Dec.bind_eq_panic.mpr (Or.inl (Dec.bind_eq_panic.mpr (Or.inl hv)))
  · rw [V2.Transaction.dec_transaction, List.cons_append, Dec.bind_ok (dec_u8_cons _ _)]
    refine (Dec.bind_ok (a := (1 : U64)) (r := List.replicate 8 255) (by rfl)).trans ?_
    exact Dec.bind_eq_panic.mpr (Or.inl hv)

/-- C10 is false for policies: on every machine some input exceeds the stack. -/
theorem C10_policy_panics (lim : Lim) : ∃ bs, (dec .v2 : Dec SpendPolicy) lim bs = .panic := by
  have h : ∀ k, ∃ bs, SpendPolicy.decodePolicy k lim bs = .panic := by
    intro k
    induction k with
    | zero => exact ⟨[], rfl⟩
    | succ k ih =>
      obtain ⟨bs, hbs⟩ := ih
      refine ⟨5 :: 1 :: 1 :: bs, ?_⟩
      rw [decodePolicy_succ, Dec.bind_ok (dec_u8_cons _ _)]
      refine (Dec.bind_ok (dec_u8_cons _ _)).trans ?_
      refine (Dec.bind_ok (dec_u8_cons _ _)).trans ?_
      refine Dec.bind_eq_panic.mpr ?_
      by_cases hc : 1 ≤ lim.cap
      · refine Or.inr ⟨(), bs, by simp [Dec.reserve, hc], ?_⟩
        exact Dec.bind_eq_panic.mpr (Or.inl (Dec.bind_eq_panic.mpr (Or.inl hbs)))
      · exact Or.inl (by simp [Dec.reserve, hc])
  obtain ⟨bs, hbs⟩ := h lim.stack
  refine ⟨1 :: bs, ?_⟩
  rw [dec_policy', Dec.bind_ok (dec_u8_cons _ _)]
  exact hbs

example : ∃ lim : Lim, 2 ^ 64 ≤ lim.cap ∧ ([1, 2, 3] : List UInt8).length < lim.stack := ⟨⟨2 ^ 64, 4⟩, by decide, by decide⟩

end Verif
