import Verif.Props.Samples
import Verif.Lemmas.Writer

/-!
# C43: writer failures surface as errors
-/

namespace Verif

/-- C43 for every type with a v2 encoder except `State`: for every value, every writer and every point at which it
fails, encoding returns the writer's error, does not panic, and what was written is the part of the encoding before
the refused piece. -/
theorem C43_v2_types :
    SurfacesFailures .v2 UInt8 ∧ SurfacesFailures .v2 Bool ∧ SurfacesFailures .v2 U16 ∧ SurfacesFailures .v2 U32 ∧
    SurfacesFailures .v2 U64 ∧ SurfacesFailures .v2 Int16 ∧ SurfacesFailures .v2 Int32 ∧ SurfacesFailures .v2 Int64 ∧
    SurfacesFailures .v2 String ∧ SurfacesFailures .v2 DateTime ∧ SurfacesFailures .v2 Duration ∧
    SurfacesFailures .v2 Currency ∧ SurfacesFailures .v2 Work ∧ SurfacesFailures .v2 ChainIndex ∧
    SurfacesFailures .v2 SiacoinOutput ∧ SurfacesFailures .v2 SiafundOutput ∧ SurfacesFailures .v2 StateElement ∧
    SurfacesFailures .v2 UnlockKey ∧ SurfacesFailures .v2 UnlockConditions ∧ SurfacesFailures .v2 SpendPolicy ∧
    SurfacesFailures .v2 SatisfiedPolicy ∧ SurfacesFailures .v2 V2.Attestation ∧ SurfacesFailures .v2 V2.FileContract ∧
    SurfacesFailures .v2 V2.SiacoinElement ∧ SurfacesFailures .v2 V2.SiafundElement ∧
    SurfacesFailures .v2 V2.FileContractElement ∧ SurfacesFailures .v2 V2.ChainIndexElement ∧
    SurfacesFailures .v2 V2.SiacoinInput ∧ SurfacesFailures .v2 V2.SiafundInput ∧
    SurfacesFailures .v2 V2.FileContractRevision ∧ SurfacesFailures .v2 V2.FileContractRenewal ∧
    SurfacesFailures .v2 V2.StorageProof ∧ SurfacesFailures .v2 V2.FileContractResolution ∧
    SurfacesFailures .v2 V2.Transaction ∧ SurfacesFailures .v2 ElementAccumulator := by
  refine ⟨?_, ?_, ?_, ?_, ?_, ?_, ?_, ?_, ?_, ?_, ?_, ?_, ?_, ?_, ?_, ?_, ?_, ?_, ?_, ?_, ?_, ?_, ?_, ?_, ?_, ?_, ?_, ?_,
    ?_, ?_, ?_, ?_, ?_, ?_, ?_⟩ <;> exact fun _ _ S a => delivers a

/-- C43 for every type with a v1 encoder. -/
theorem C43_v1_types :
    SurfacesFailures .v1 UInt8 ∧ SurfacesFailures .v1 Bool ∧ SurfacesFailures .v1 U16 ∧ SurfacesFailures .v1 U32 ∧
    SurfacesFailures .v1 U64 ∧ SurfacesFailures .v1 Int16 ∧ SurfacesFailures .v1 Int32 ∧ SurfacesFailures .v1 Int64 ∧
    SurfacesFailures .v1 String ∧ SurfacesFailures .v1 Currency ∧ SurfacesFailures .v1 Work ∧
    SurfacesFailures .v1 SiacoinOutput ∧ SurfacesFailures .v1 SiafundOutput ∧ SurfacesFailures .v1 UnlockKey ∧
    SurfacesFailures .v1 UnlockConditions ∧ SurfacesFailures .v1 V1.SiacoinInput ∧ SurfacesFailures .v1 V1.SiafundInput ∧
    SurfacesFailures .v1 V1.FileContract ∧ SurfacesFailures .v1 V1.FileContractRevision ∧
    SurfacesFailures .v1 V1.StorageProof ∧ SurfacesFailures .v1 V1.CoveredFields ∧
    SurfacesFailures .v1 V1.TransactionSignature ∧ SurfacesFailures .v1 V1.Transaction ∧ SurfacesFailures .v1 Block := by
  refine ⟨?_, ?_, ?_, ?_, ?_, ?_, ?_, ?_, ?_, ?_, ?_, ?_, ?_, ?_, ?_, ?_, ?_, ?_, ?_, ?_, ?_, ?_, ?_, ?_⟩ <;>
    exact fun _ _ S a => delivers a

/-- C43 for vectors, options and byte arrays of whatever is encodable. -/
theorem C43_containers (v : Ver) (α : Type) [Codec v α] [Writes v α] (h : SurfacesFailures v α) (n : Nat) :
    SurfacesFailures v (List α) ∧ SurfacesFailures v (Option α) ∧ SurfacesFailures v (Arr n) := by
  have : Delivered v α := ⟨fun {σ ε} S a => h σ ε S a⟩
  exact ⟨fun _ _ S a => delivers a, fun _ _ S a => delivers a, fun _ _ S a => delivers a⟩

/-- C43 for the encoders used for identifiers and signature hashes. -/
theorem C43_hashed (σ ε : Type) (S : Sink σ ε) :
    (∀ t : V1.Transaction, Delivers S (t.putNoSigs S) t.encodeNoSigs) ∧
    (∀ a : V2.Attestation, Delivers S (a.putSemantics S) a.encodeSemantics) ∧
    (∀ c : V2.FileContract, Delivers S (c.putSemantics S) c.encodeSemantics) ∧
    (∀ e : V2.ChainIndexElement, Delivers S (e.putSemantics S) e.encodeSemantics) ∧
    (∀ r : V2.FileContractRevision, Delivers S (r.putSemantics S) r.encodeSemantics) ∧
    (∀ r : V2.FileContractRenewal, Delivers S (r.putSemantics S) r.encodeSemantics) ∧
    (∀ p : V2.StorageProof, Delivers S (p.putSemantics S) p.encodeSemantics) ∧
    (∀ r : V2.FileContractResolution, Delivers S (r.putSemantics S) r.encodeSemantics) ∧
    (∀ t : V2.Transaction, Delivers S (t.putSemantics S) t.encodeSemantics) :=
  ⟨V1.Transaction.delivers_noSigs, V2.Attestation.delivers_semantics, V2.FileContract.delivers_semantics,
    V2.ChainIndexElement.delivers_semantics, V2.FileContractRevision.delivers_semantics,
    V2.FileContractRenewal.delivers_semantics, V2.StorageProof.delivers_semantics,
    V2.FileContractResolution.delivers_semantics, V2.Transaction.delivers_semantics⟩

/-- Writing into a vector or a hash state cannot fail, so the `unwrap`s around the hashing encoders never panic; the
vector ends up with the encoding appended. -/
theorem C43_memory (buf : List UInt8) :
    (∀ t : V2.Transaction, emit .v2 Sink.vector t buf = ⟨enc .v2 t, buf ++ enc .v2 t, .ok⟩) ∧
    (∀ t : V2.Transaction, t.putSemantics Sink.vector buf = ⟨t.encodeSemantics, buf ++ t.encodeSemantics, .ok⟩) ∧
    (∀ t : V1.Transaction, emit .v1 Sink.vector t buf = ⟨enc .v1 t, buf ++ enc .v1 t, .ok⟩) ∧
    (∀ t : V1.Transaction, t.putNoSigs Sink.vector buf = ⟨t.encodeNoSigs, buf ++ t.encodeNoSigs, .ok⟩) ∧
    (∀ b : Block, emit .v1 Sink.vector b buf = ⟨enc .v1 b, buf ++ enc .v1 b, .ok⟩) :=
  ⟨fun t => (delivers t).vector buf, fun t => t.delivers_semantics.vector buf, fun t => (delivers t).vector buf,
    fun t => t.delivers_noSigs.vector buf, fun b => (delivers b).vector buf⟩

/-- Every failure point of a writer with limited room: exactly the first `room` bytes are written and the error is
returned, whether the writer takes all it can at once or one byte at a time. -/
theorem C43_room (room : Nat) :
    (∀ (S : Sink Nat Unit), S = Sink.bounded ∨ S = Sink.trickle →
      (∀ t : V2.Transaction, emit .v2 S t room = if (enc .v2 t).length ≤ room
        then ⟨enc .v2 t, room - (enc .v2 t).length, .ok⟩ else ⟨(enc .v2 t).take room, 0, .err (.io ())⟩) ∧
      (∀ t : V1.Transaction, emit .v1 S t room = if (enc .v1 t).length ≤ room
        then ⟨enc .v1 t, room - (enc .v1 t).length, .ok⟩ else ⟨(enc .v1 t).take room, 0, .err (.io ())⟩) ∧
      (∀ b : Block, emit .v1 S b room = if (enc .v1 b).length ≤ room
        then ⟨enc .v1 b, room - (enc .v1 b).length, .ok⟩ else ⟨(enc .v1 b).take room, 0, .err (.io ())⟩)) := by
  rintro S (rfl | rfl)
  · exact ⟨fun t => (delivers t).bounded room, fun t => (delivers t).bounded room, fun t => (delivers t).bounded room⟩
  · exact ⟨fun t => (delivers t).trickle room, fun t => (delivers t).trickle room, fun t => (delivers t).trickle room⟩

/-- A failure in the middle of the sample transaction. -/
example : 100 < (enc .v2 Sample.v2txn).length := by decide +kernel

/-- C43 for `State`, with the panic: as for the other types, except that a failure while a timestamp is written (the
bytes from offset 40 on, eight for each of the timestamps written) is a panic. -/
theorem C43_state_partial (m : Mode) (s : State) (bs : List UInt8) (h : s.encode m = .ok bs) (σ ε : Type)
    (S : Sink σ ε) (w : σ) :
    (∃ w', s.put m S w = ⟨bs, w', .ok⟩ ∧ S.Took w bs [] w') ∨
    (∃ p buf q w₁ w₂ e, bs = p ++ (buf ++ q) ∧
      s.put m S w = ⟨p, w₂,
        if 40 ≤ p.length ∧ p.length < 40 + 8 * min 11 ((s.index.height.toNat + 1) % 2 ^ 64) then .panic else .err e⟩ ∧
      S.Took w bs (buf ++ q) w₁ ∧ S.Refuses w₁ buf e w₂) :=
  State.put_cases h S w

example : ∃ bs, Sample.state.encode .checked = .ok bs := ⟨_, State.encode_ok Sample.fits_state.1⟩

/-- C43 is false for `State`: a writer with room for the chain index only makes encoding panic. -/
theorem C43_not_state : ¬ ∀ (m : Mode) (s : State) (bs : List UInt8), s.encode m = .ok bs →
    ∀ (σ ε : Type) (S : Sink σ ε), Delivers S (s.put m S) bs := by
  intro h
  have h1 : ∃ bs, Sample.state.encode .checked = .ok bs := ⟨_, State.encode_ok Sample.fits_state.1⟩
  obtain ⟨bs, hbs⟩ := h1
  have h2 : (Sample.state.put .checked Sink.bounded 40).out = .panic := by decide +kernel
  rcases h _ _ _ hbs _ _ Sink.bounded 40 with ⟨s', h3, _⟩ | ⟨p, buf, q, s₁, s₂, e, _, h3, _⟩
  · rw [h3] at h2; cases h2
  · rw [h3] at h2; cases h2

/-- C43 for `State` with `?` in place of the `unwrap`. -/
theorem C43_state_repaired (m : Mode) (s : State) (bs : List UInt8) (h : s.encode m = .ok bs) (σ ε : Type)
    (S : Sink σ ε) : Delivers S (s.putRepaired m S) bs :=
  State.delivers_repaired h S

theorem Sink.Took.calls {σ ε : Type} {S : Sink σ ε} {s s' : σ × Nat} {todo left : List UInt8} (h : S.counted.Took s todo left s') :
    s'.2 + left.length ≤ s.2 + todo.length := by
  induction h with
  | start => simp
  | more some front take nonzero _ ih =>
    rename_i s _ _ buf todo left n _
    simp only [Sink.counted, Prod.mk.injEq] at take
    rw [← take.1] at ih
    have : buf.length ≠ 0 := by simpa using some
    have := front.length_le
    simp only [List.length_drop] at ih ⊢
    omega

/-- C43.  No encoder calls `write` more often than the writer takes bytes, but for the last call, which fails. -/
theorem C43_calls (v : Ver) (α : Type) [Codec v α] [Writes v α] (h : SurfacesFailures v α) (σ ε : Type) (S : Sink σ ε) (a : α) (s : σ) :
    (emit v S.counted a (s, 0)).after.2 ≤ (emit v S.counted a (s, 0)).taken.length + 1 ∧
    ((emit v S.counted a (s, 0)).out = .ok → (emit v S.counted a (s, 0)).after.2 ≤ (enc v a).length) := by
  rcases h _ _ S.counted a (s, 0) with ⟨s', e, t⟩ | ⟨p, buf, q, s₁, s₂, x, hb, e, t, hr⟩
  · have := t.calls
    rw [e]
    simp only [List.length_nil] at this ⊢
    exact ⟨by omega, fun _ => by omega⟩
  · have := t.calls
    rw [e]
    refine ⟨?_, nofun⟩
    rw [hb] at this
    obtain ⟨_, ⟨y, hr, _⟩ | ⟨hr, _⟩⟩ := hr <;>
    · simp only [Sink.counted, Prod.mk.injEq] at hr
      rw [← hr.1]
      simp only [List.length_append] at this ⊢
      omega

example : (emit .v2 Sink.bounded.counted (⟨[1, 2, 3], rfl⟩ : Arr 3) (2, 0)).after.2 = 2 := by decide +kernel

end Verif
