import Verif.Lemmas.Mended
import Verif.Props.Text
import Verif.Props.Reader
import Verif.Props.Serde

/-!
# C42, C47, C62: what repaired code would do
-/

namespace Verif

open Serde

/-! ## C47 -/

/-- C47 for `address!` with its checksum compared: it accepts exactly the texts the run-time parser does, with the same result. -/
theorem C47_address_repaired (H : Hasher) (s : List UInt8) (a : Address) : addressLitChecked H s = some a ↔ parseAddress H s = .ok a := by
  have h6 : ((H a.1).1.take 6).length = 6 := by rw [List.length_take, (H a.1).2]; rfl
  have key : ∀ bs, decodeHexLoop s 38 0 = some bs ↔ 76 ≤ s.length ∧ HexText (s.take 76) bs := fun bs => by
    simpa using decodeHexLoop_iff s 38 0 bs
  rw [C18_accepts]
  unfold addressLitChecked
  constructor
  · intro h
    split at h
    · cases h
    · next hl =>
      cases hd : decodeHexLoop s 38 0 with
      | none => rw [hd] at h; cases h
      | some data =>
        rw [hd] at h
        simp only at h
        split at h
        · next hc =>
          obtain ⟨-, hx⟩ := (key data).mp hd
          rw [List.take_of_length_le (by omega)] at hx
          have hn : data.length = 38 := by have := hx.length; omega
          have ht : (data.take 32).length = 32 := by rw [List.length_take]; omega
          have ha := (toArr_iff ht a).mp (Option.some.inj h)
          rw [← ha, hc, List.take_append_drop]
          exact hx
        · cases h
  · intro hx
    have hl : s.length = 76 := by
      have := hx.length
      rw [List.length_append, a.2, h6] at this
      exact this
    rw [if_neg (by omega), (key _).mpr ⟨by omega, by rw [List.take_of_length_le (by omega)]; exact hx⟩]
    simp only
    rw [List.take_left' a.2, List.drop_left' a.2, if_pos rfl, (toArr_iff a.2 a).mpr rfl]

/-- A literal with a wrong checksum, which `address!` accepts, is refused; one with the right checksum is accepted. -/
example : addressLit (ascii (String.join (List.replicate 38 "a7"))) = some (Sample.h 0xa7) ∧
    addressLitChecked Sample.byteSum (ascii (String.join (List.replicate 38 "a7"))) = none ∧
    addressLitChecked Sample.byteSum (ascii (String.join (List.replicate 32 "a7") ++ "e00000000000")) = some (Sample.h 0xa7) := by
  refine ⟨?_, ?_, ?_⟩ <;> decide +kernel

/-! ## C62 -/

/-- C62 for a v2 decoder of `Work` that returns the error of the reader, as the v1 decoder does: it follows the reader, and apart from the kind of
error it returns what the decoder of the code does. -/
theorem C62_work_repaired : ReportsFailures .v1 Work ∧ (dec .v1 : Dec Work).mapErr .custom = dec .v2 :=
  ⟨fun _ _ _ => follows, mapErr_work⟩

/-- C62 for `State` with such work fields: whatever the reader does, decoding gives what its bytes mean or the reader's own error. -/
theorem C62_state_repaired (m : Mode) (σ ε : Type) (S : Source σ ε) : Follows S (fun _ => false) (State.getKeeping m S) (State.decodeKeeping m) :=
  follows_keeping m

/-- It returns what `State::decode` returns on all bytes, apart from the kind of error. -/
theorem C62_state_same_repaired (m : Mode) : (State.decodeKeeping m).mapErr .custom = (State.decode m).mapErr .custom := State.mapErr_decodeKeeping m

/-- A reader that breaks in a work field: its error is now returned. -/
example : (State.getKeeping .checked Source.breaking ⟨0, 0⟩ (List.replicate 232 0)).out = .err (.io ()) ∧
    (State.get .checked Source.breaking ⟨0, 0⟩ (List.replicate 232 0)).out = .err (.own .custom) := by
  constructor <;> decide +kernel

/-- Zeros decode to the same state with both. -/
example : (State.decodeKeeping .checked ⟨0, 0⟩ (List.replicate 416 0)) = State.decode .checked ⟨0, 0⟩ (List.replicate 416 0) := by decide +kernel

/-! ## C42 -/

/-- The text of every unlock key, with the algorithm in hex where it has no text, is read back. -/
theorem C42_key_repaired (k : UnlockKey) : parseUnlockKeyFully (showUnlockKeyFully k) = .ok k := parse_show_fully k

/-- Keys with a text keep it. -/
theorem C42_key_same_repaired (k : UnlockKey) (h : k.Textual) : showUnlockKey k = some (showUnlockKeyFully k) := show_fully_textual h

/-- C42 with these texts: the JSON of every policy with whole-second timestamps in range and not nested deeper than the stack allows is read back, in
whatever order the members of its objects are. -/
theorem C42_repaired (E : Env) (p : SpendPolicy) (h : p.Timely E.stack) :
    ∃ j, (policyFully E).ser p = .ok j ∧ ∀ j', j.Reordered j' → (policyFully E).de j' = .ok p :=
  (gives_policyFullyAt _ p h : (policyFully E).Gives p).reordered

/-- Policies that survive JSON in the code keep their JSON. -/
theorem C42_same_repaired (E : Env) (p : SpendPolicy) (h : p.JsonFits E.stack) : (policyFully E).ser p = (policy E).ser p := ser_policyFully _ p h

/-- The keys the code cannot write or read back, nested in a threshold. -/
example : ∃ j, (policyFully Sample.env).ser (.threshold 1 [.unlockConditions ⟨0, [Sample.colonKey, Sample.rawKey], 1⟩, .after ⟨1, 0⟩]) = .ok j ∧
    ∀ j', j.Reordered j' → (policyFully Sample.env).de j' = .ok (.threshold 1 [.unlockConditions ⟨0, [Sample.colonKey, Sample.rawKey], 1⟩, .after ⟨1, 0⟩]) :=
  C42_repaired _ _ (by
    show SpendPolicy.Timely (42 + 1) _
    simp [SpendPolicy.Timely])

example : showUnlockKeyFully Sample.rawKey = ascii "ff000000000000000000000000000000:01" ∧
    showUnlockKeyFully Sample.colonKey = ascii "613a6200000000000000000000000000:01" := by
  constructor <;> decide +kernel

end Verif
