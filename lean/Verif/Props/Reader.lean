import Verif.Props.Samples
import Verif.Props.Codec
import Verif.Lemmas.Reader

/-!
# C62: decoding from a reader that is slow or fails
-/

namespace Verif

/-- C62 for every type with a v2 decoder except `Work` and `State`: for every reader, decoding gives what the bytes the reader gave mean, however
they are cut into pieces, reads no byte more, and returns the reader's own error if it fails. -/
theorem C62_v2_types :
    ReportsFailures .v2 UInt8 ∧ ReportsFailures .v2 Bool ∧ ReportsFailures .v2 U16 ∧ ReportsFailures .v2 U32 ∧
    ReportsFailures .v2 U64 ∧ ReportsFailures .v2 Int16 ∧ ReportsFailures .v2 Int32 ∧ ReportsFailures .v2 Int64 ∧
    ReportsFailures .v2 String ∧ ReportsFailures .v2 DateTime ∧ ReportsFailures .v2 Duration ∧
    ReportsFailures .v2 Currency ∧ ReportsFailures .v2 ChainIndex ∧
    ReportsFailures .v2 SiacoinOutput ∧ ReportsFailures .v2 SiafundOutput ∧ ReportsFailures .v2 StateElement ∧
    ReportsFailures .v2 UnlockKey ∧ ReportsFailures .v2 UnlockConditions ∧ ReportsFailures .v2 SpendPolicy ∧
    ReportsFailures .v2 SatisfiedPolicy ∧ ReportsFailures .v2 V2.Attestation ∧ ReportsFailures .v2 V2.FileContract ∧
    ReportsFailures .v2 V2.SiacoinElement ∧ ReportsFailures .v2 V2.SiafundElement ∧
    ReportsFailures .v2 V2.FileContractElement ∧ ReportsFailures .v2 V2.ChainIndexElement ∧
    ReportsFailures .v2 V2.SiacoinInput ∧ ReportsFailures .v2 V2.SiafundInput ∧
    ReportsFailures .v2 V2.FileContractRevision ∧ ReportsFailures .v2 V2.FileContractRenewal ∧
    ReportsFailures .v2 V2.StorageProof ∧ ReportsFailures .v2 V2.FileContractResolution ∧
    ReportsFailures .v2 V2.Transaction ∧ ReportsFailures .v2 ElementAccumulator := by
  refine ⟨?_, ?_, ?_, ?_, ?_, ?_, ?_, ?_, ?_, ?_, ?_, ?_, ?_, ?_, ?_, ?_, ?_, ?_, ?_, ?_, ?_, ?_, ?_, ?_, ?_, ?_, ?_, ?_, ?_, ?_, ?_, ?_, ?_, ?_⟩ <;> exact fun _ _ _ => follows

/-- C62 for every type with a v1 decoder. -/
theorem C62_v1_types :
    ReportsFailures .v1 UInt8 ∧ ReportsFailures .v1 Bool ∧ ReportsFailures .v1 U16 ∧ ReportsFailures .v1 U32 ∧
    ReportsFailures .v1 U64 ∧ ReportsFailures .v1 Int16 ∧ ReportsFailures .v1 Int32 ∧ ReportsFailures .v1 Int64 ∧
    ReportsFailures .v1 String ∧ ReportsFailures .v1 Currency ∧ ReportsFailures .v1 Work ∧
    ReportsFailures .v1 SiacoinOutput ∧ ReportsFailures .v1 SiafundOutput ∧ ReportsFailures .v1 UnlockKey ∧
    ReportsFailures .v1 UnlockConditions ∧ ReportsFailures .v1 V1.SiacoinInput ∧ ReportsFailures .v1 V1.SiafundInput ∧
    ReportsFailures .v1 V1.FileContract ∧ ReportsFailures .v1 V1.FileContractRevision ∧
    ReportsFailures .v1 V1.StorageProof ∧ ReportsFailures .v1 V1.CoveredFields ∧
    ReportsFailures .v1 V1.TransactionSignature ∧ ReportsFailures .v1 V1.Transaction ∧ ReportsFailures .v1 Block := by
  refine ⟨?_, ?_, ?_, ?_, ?_, ?_, ?_, ?_, ?_, ?_, ?_, ?_, ?_, ?_, ?_, ?_, ?_, ?_, ?_, ?_, ?_, ?_, ?_, ?_⟩ <;> exact fun _ _ _ => follows

/-- C62 for vectors, options and byte arrays of whatever is decodable. -/
theorem C62_containers (v : Ver) (α : Type) [Codec v α] [Reads v α] (h : ReportsFailures v α) (n : Nat) :
    ReportsFailures v (List α) ∧ ReportsFailures v (Option α) ∧ ReportsFailures v (Arr n) := by
  have : Followed v α := ⟨fun {σ ε} S => h σ ε S⟩
  exact ⟨fun _ _ _ => follows, fun _ _ _ => follows, fun _ _ _ => follows⟩

/-- The v2 decoder of `Work` replaces every failure of the reader by a custom error (sia/src/types/work.rs 23-29); otherwise it follows the bytes.
Missing from the full claim: the reader's error is lost. -/
theorem C62_work_partial (σ ε : Type) (S : Source σ ε) : Follows S (fun bs => decide (bs.length < 32)) (get .v2 S : Rd σ ε Work) (dec .v2) :=
  (follows_exact_custom 32).map _

/-- So the full claim is false for `Work`: a broken connection is reported as an invalid value. -/
theorem C62_not_work : ¬ ReportsFailures .v2 Work := by
  intro h
  have e : ((get .v2 Source.breaking : Rd _ _ Work) ⟨0, 0⟩ []).out = .err (.own .custom) := by decide +kernel
  have eb : ((get .v2 Source.breaking : Rd _ _ Work) ⟨0, 0⟩ []).bytes = [] := by decide +kernel
  rcases h _ _ Source.breaking ⟨0, 0⟩ [] with ⟨bs, s', a, h1, _⟩ | ⟨bs, s', x, h1, _, _, h2⟩ | ⟨bs, s', h1, _⟩ | ⟨bs, s₁, s₂, x, h1, _, st, _⟩
  · rw [h1] at e; cases e
  · rw [h1] at e eb
    cases e
    cases eb
    have := h2 (List.replicate 32 0)
    revert this
    decide +kernel
  · rw [h1] at e; cases e
  · rw [h1] at e
    simp only [Bool.false_eq_true, if_false, Returned.err.injEq] at e
    obtain ⟨n, _, ⟨y, _, hx⟩ | ⟨_, hx⟩⟩ := st <;> rw [hx] at e <;> cases e

/-- C62 for `State`: the failures of the reader are reported except in the three work fields, where a custom error replaces them.
Missing from the full claim: the errors of the reader there. -/
theorem C62_state_partial (m : Mode) (σ ε : Type) (S : Source σ ε) : Follows S State.inWork (State.get m S) (State.decode m) := follows_state m

/-- The full claim is false for `State`. -/
theorem C62_not_state : ¬ ∀ (m : Mode) (σ ε : Type) (S : Source σ ε), Follows S (fun _ => false) (State.get m S) (State.decode m) := by
  intro h
  have e : (State.get .checked Source.breaking ⟨0, 0⟩ (List.replicate 232 0)).out = .err (.own .custom) := by decide +kernel
  have eb : (State.get .checked Source.breaking ⟨0, 0⟩ (List.replicate 232 0)).bytes = List.replicate 232 0 := by decide +kernel
  rcases h .checked _ _ Source.breaking ⟨0, 0⟩ (List.replicate 232 0) with ⟨bs, s', a, h1, _⟩ | ⟨bs, s', x, h1, _, _, h2⟩ | ⟨bs, s', h1, _⟩ | ⟨bs, s₁, s₂, x, h1, _, st, _⟩
  · rw [h1] at e; cases e
  · rw [h1] at e eb
    cases e
    cases eb
    have := h2 (List.replicate 184 0)
    revert this
    decide +kernel
  · rw [h1] at e; cases e
  · rw [h1] at e
    simp only [Bool.false_eq_true, if_false, Returned.err.injEq] at e
    obtain ⟨n, _, ⟨y, _, hx⟩ | ⟨_, hx⟩⟩ := st <;> rw [hx] at e <;> cases e

/-- What a decoder of byte strings gives, as reading code returns it: end of input is `UnexpectedEof`. -/
def Res.returned {ε α : Type} : Res (α × List UInt8) → Returned ε α
  | .ok (a, _) => .ok a
  | .err e => .err (if e = .io then .eof else .own e)
  | .panic => .panic

theorem Follows.streams {σ ε α : Type} {S : Source σ ε} {hides : List UInt8 → Bool} {r : Rd σ ε α} {d : Dec α} (h : Follows S hides r d) (lim : Lim)
    {s : σ} {bs : List UInt8} (hs : S.Streams s bs) :
    (r lim s).out = (d lim bs).returned ∧ ∀ a rest, d lim bs = .ok (a, rest) → S.Streams (r lim s).after rest ∧ bs = (r lim s).bytes ++ rest := by
  rcases h lim s with ⟨c, s', a, e, gv, hd⟩ | ⟨c, s', x, e, ne, gv, hd⟩ | ⟨c, s', e, gv, hd⟩ | ⟨c, s₁, s₂, x, e, gv, st, hd⟩
  · obtain ⟨rest, rfl, hr⟩ := hs.gave gv
    rw [e, hd]
    refine ⟨rfl, fun b q hq => ?_⟩
    cases hq
    exact ⟨hr, rfl⟩
  · obtain ⟨rest, rfl, hr⟩ := hs.gave gv
    rw [e, hd]
    exact ⟨by simp [Res.returned, ne], nofun⟩
  · obtain ⟨rest, rfl, hr⟩ := hs.gave gv
    rw [e, hd]
    exact ⟨rfl, nofun⟩
  · obtain ⟨rest, rfl, hr⟩ := hs.gave gv
    obtain ⟨rfl, rfl⟩ := hr.stops st
    rw [e, List.append_nil, hd]
    refine ⟨?_, nofun⟩
    split <;> rfl

/-- C62.  However a reader cuts a byte string into pieces, decoding returns what decoding the byte string in memory does, and a value is returned
with the reader standing at the first byte after it. -/
theorem C62_pieces (v : Ver) (α : Type) [Codec v α] [Reads v α] (h : ReportsFailures v α) (σ ε : Type) (S : Source σ ε) (s : σ) (bs : List UInt8)
    (hs : S.Streams s bs) (lim : Lim) :
    ((get v S : Rd σ ε α) lim s).out = ((dec v : Dec α) lim bs).returned ∧
    ∀ (a : α) (rest : List UInt8), dec v lim bs = .ok (a, rest) →
      S.Streams ((get v S : Rd σ ε α) lim s).after rest ∧ bs = ((get v S : Rd σ ε α) lim s).bytes ++ rest :=
  (h σ ε S).streams lim hs

/-- The same for states, although errors of readers are not kept: a reader that streams has none. -/
theorem C62_state_pieces (m : Mode) (σ ε : Type) (S : Source σ ε) (s : σ) (bs : List UInt8) (hs : S.Streams s bs) (lim : Lim) :
    (State.get m S lim s).out = (State.decode m lim bs).returned ∧
    ∀ a rest, State.decode m lim bs = .ok (a, rest) → S.Streams (State.get m S lim s).after rest ∧ bs = (State.get m S lim s).bytes ++ rest :=
  (follows_state m).streams lim hs

/-- C62.  Values written one after another are read back one after another, from any reader that gives the bytes, and what follows them is not touched. -/
theorem C62_sequence (v : Ver) (α : Type) [Codec v α] [Reads v α] [Fits α] (h : ReportsFailures v α) (hr : RoundTrips v α) (lim : Lim) (l : List α)
    (hl : ∀ a ∈ l, fits lim a) (rest : List UInt8) (σ ε : Type) (S : Source σ ε) (s : σ) (hs : S.Streams s (l.flatMap (enc v) ++ rest)) :
    ∃ s', Rd.times (get v S : Rd σ ε α) l.length lim s = ⟨l.flatMap (enc v), s', .ok l⟩ ∧ S.Streams s' rest := by
  induction l generalizing s with
  | nil => exact ⟨s, rfl, hs⟩
  | cons a l ih =>
    rw [List.flatMap_cons, List.append_assoc] at hs
    have hd := hr lim a (l.flatMap (enc v) ++ rest) (hl a (by simp))
    obtain ⟨h1, h2⟩ := C62_pieces v α h σ ε S s _ hs lim
    obtain ⟨h2, h3⟩ := h2 _ _ hd
    rw [hd] at h1
    obtain ⟨s', e, hs'⟩ := ih (fun b hb => hl b (by simp [hb])) _ h2
    refine ⟨s', ?_, hs'⟩
    show Rd.bind _ _ lim s = _
    have hg : (get v S : Rd σ ε α) lim s = ⟨enc v a, ((get v S : Rd σ ε α) lim s).after, .ok a⟩ := by
      have := List.append_cancel_right h3
      rw [this]
      rcases hx : (get v S : Rd σ ε α) lim s with ⟨x, y, z⟩
      rw [hx] at h1
      simp only at h1
      rw [h1]
      rfl
    rw [Rd.bind, hg]
    simp only
    show (⟨enc v a ++ (Rd.bind _ _ lim _).bytes, (Rd.bind _ _ lim _).after, (Rd.bind _ _ lim _).out⟩ : Got σ ε (List α)) = _
    have hb : Rd.bind (Rd.times (get v S : Rd σ ε α) l.length) (fun as => pure (a :: as)) lim ((get v S : Rd σ ε α) lim s).after =
        ⟨l.flatMap (enc v), s', .ok (a :: l)⟩ := by
      rw [Rd.bind, e]
      show (⟨_ ++ [], s', .ok (a :: l)⟩ : Got σ ε (List α)) = _
      rw [List.append_nil]
    rw [hb, List.flatMap_cons]

/-! ## Readers -/

/-- A byte slice, and a reader with pieces of any sizes, give their bytes. -/
theorem C62_readers (bs : List UInt8) (sizes : List Nat) : Source.slice.Streams bs bs ∧ Source.pieces.Streams (bs, sizes) bs := by
  constructor
  · refine ⟨Eq, ?_, rfl⟩
    rintro s _ n rfl hn
    exact ⟨s.take n, s.drop n, _, rfl, by rw [List.length_take]; omega, (List.take_append_drop n s).symm,
      fun h => (List.take_eq_nil_iff.mp h).resolve_left hn, rfl⟩
  · refine ⟨fun s b => s.1 = b, ?_, rfl⟩
    rintro ⟨s, ks⟩ _ n rfl hn
    cases ks with
    | nil =>
      exact ⟨s.take 1, s.drop 1, _, rfl, by rw [List.length_take]; omega, (List.take_append_drop 1 s).symm,
        fun h => (List.take_eq_nil_iff.mp h).resolve_left (by omega), rfl⟩
    | cons k ks =>
      exact ⟨s.take (min n (k + 1)), s.drop (min n (k + 1)), _, rfl, by rw [List.length_take]; omega,
        (List.take_append_drop _ s).symm, fun h => (List.take_eq_nil_iff.mp h).resolve_left (by omega), rfl⟩

/-- A v2 transaction arriving in pieces of 1, 2, 3 and then single bytes, followed by other bytes. -/
example : ((get .v2 Source.pieces : Rd _ _ V2.Transaction) Sample.lim (enc .v2 Sample.v2txn ++ [1, 2, 3], [0, 1, 2])).out = .ok Sample.v2txn := by
  have h := (C62_pieces .v2 V2.Transaction (fun _ _ _ => follows) _ _ _ _ _ (C62_readers (enc .v2 Sample.v2txn ++ [1, 2, 3]) [0, 1, 2]).2 Sample.lim).1
  rw [C01_v2_transaction_round_trip _ _ _ Sample.fits_v2txn] at h
  exact h

/-- A connection that breaks after 20 bytes of a transaction: its error is returned, after exactly those bytes. -/
example : (match (get .v2 Source.breaking : Rd _ _ V2.Transaction) Sample.lim ((enc .v2 Sample.v2txn).take 20) with
    | ⟨bs, [], .err (.io ())⟩ => decide (bs.length = 20)
    | _ => false) = true := by decide +kernel

theorem Source.Gave.calls {σ ε : Type} {S : Source σ ε} {s s' : σ × Nat} {bs : List UInt8} (h : S.counted.Gave s bs s') : s'.2 ≤ s.2 + bs.length := by
  induction h with
  | start => simp
  | more room read some _ ih =>
    rename_i s _ _ bs rest n _
    simp only [Source.counted, Prod.mk.injEq] at read
    rw [← read.1] at ih
    have : bs.length ≠ 0 := by simpa using some
    simp only [List.length_append, List.length_take] at ih ⊢
    omega

theorem Follows.calls {σ ε α : Type} {S : Source σ ε} {hides : List UInt8 → Bool} {r : Rd (σ × Nat) ε α} {d : Dec α} (h : Follows S.counted hides r d)
    (lim : Lim) (s : σ) : (r lim (s, 0)).after.2 ≤ (r lim (s, 0)).bytes.length + 1 := by
  rcases h lim (s, 0) with ⟨c, s', a, e, gv, _⟩ | ⟨c, s', x, e, _, gv, _⟩ | ⟨c, s', e, gv, _⟩ | ⟨c, s₁, s₂, x, e, gv, st, _⟩
  · have := gv.calls; rw [e]; simp only at this ⊢; omega
  · have := gv.calls; rw [e]; simp only at this ⊢; omega
  · have := gv.calls; rw [e]; simp only at this ⊢; omega
  · have := gv.calls
    rw [e]
    obtain ⟨n, _, ⟨y, hr, _⟩ | ⟨hr, _⟩⟩ := st <;>
    · simp only [Source.counted, Prod.mk.injEq] at hr
      rw [← hr.1]
      simp only at this ⊢
      omega

/-- C62.  However long the lengths a stream claims, no decoder calls `read` more often than it gets bytes, but for the last call: decoding ends soon
after the input does. -/
theorem C62_calls (v : Ver) (α : Type) [Codec v α] [Reads v α] (h : ReportsFailures v α) (σ ε : Type) (S : Source σ ε) (s : σ) (lim : Lim) :
    ((get v S.counted : Rd (σ × Nat) ε α) lim (s, 0)).after.2 ≤ ((get v S.counted : Rd (σ × Nat) ε α) lim (s, 0)).bytes.length + 1 :=
  (h _ _ S.counted).calls lim s

/-- The same for states and work, whose decoders hide errors. -/
theorem C62_calls_hiding (m : Mode) (σ ε : Type) (S : Source σ ε) (s : σ) (lim : Lim) :
    (State.get m S.counted lim (s, 0)).after.2 ≤ (State.get m S.counted lim (s, 0)).bytes.length + 1 ∧
    ((get .v2 S.counted : Rd (σ × Nat) ε Work) lim (s, 0)).after.2 ≤ ((get .v2 S.counted : Rd (σ × Nat) ε Work) lim (s, 0)).bytes.length + 1 :=
  ⟨(C62_state_partial m _ _ S.counted).calls lim s, (C62_work_partial _ _ S.counted).calls lim s⟩

/-- A vector that claims 2^40 elements and ends after two: five calls, two for the length (the reader gives five bytes at first), two for the elements and the one that finds the end. -/
example : ((get .v2 Source.pieces.counted : Rd _ _ (List U64)) ⟨2 ^ 50, 0⟩ (([0, 0, 0, 0, 0, 1, 0, 0] ++ List.replicate 16 7, [4, 9, 9, 9]), 0)).after.2 = 5 := by decide +kernel

end Verif
