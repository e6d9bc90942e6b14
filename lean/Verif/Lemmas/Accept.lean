import Verif.Lemmas.Reads
import Verif.Model.Resolution
import Verif.Props.Amount
import Verif.Props.Serde
import Verif.Props.Text
import Verif.Spec.Accept

/-!
# The readers against what a JSON document says
-/

namespace Verif

/-- The reader reads exactly the documents that say so. -/
def Exact {α : Type} (s : Serde α) (R : Json → α → Prop) : Prop := ∀ j a, s.de j = .ok a ↔ R j a

/-- A field of a shape and a member of a document describe the same; `g` is the value of the field. -/
def SameField {α β : Type} (f : JField β) (g : α → β) (e : Says.Member α) : Prop :=
  f.name = e.name ∧ (∀ v a, f.type.de v = .ok (g a) ↔ e.says v a) ∧ ∀ a, (∃ skip, f.opt = some (g a, skip)) ↔ e.absent a

/-- The fields of a shape and the members of a document, one by one. -/
def Matches {α : Type} : {β : Type} → Shape β → (α → β) → List (Says.Member α) → Prop
  | _, .one f, g, ms => ∃ e, ms = [e] ∧ SameField f g e
  | _, .cons f s, g, ms => ∃ e rest, ms = e :: rest ∧ SameField f (fun a => (g a).1) e ∧ Matches s (fun a => (g a).2) rest

namespace Serde

open Says (Member)

variable {α β γ : Type}

theorem same_req {n : String} {s : Serde β} {g : α → β} {R : Json → β → Prop} (h : Exact s R) : SameField (.req n s) g (Says.member n g R) :=
  ⟨rfl, fun v a => h v (g a), fun a => by simp [JField.req, Says.member]⟩

theorem same_vec {n : String} {s : Serde (List β)} {g : α → List β} {R : Json → List β → Prop} (h : Exact s R) :
    SameField (.vec n s) g (Says.orEmpty n g R) :=
  ⟨rfl, fun v a => h v (g a), fun a => by simp [JField.vec, Says.orEmpty, eq_comm]⟩

theorem same_opt {n : String} {s : Serde (Option β)} {g : α → Option β} {R : Json → Option β → Prop} (h : Exact s R) :
    SameField (.opt? n s) g (Says.orNone n g R) :=
  ⟨rfl, fun v a => h v (g a), fun a => by simp [JField.opt?, Says.orNone, eq_comm]⟩

theorem matches_one {f : JField β} {g : α → β} {e : Member α} (h : SameField f g e) : Matches (.one f) g [e] := ⟨e, rfl, h⟩

theorem matches_cons {f : JField β} {s : Shape γ} {g : α → β × γ} {e : Member α} {ms : List (Member α)} (h : SameField f (fun a => (g a).1) e)
    (h' : Matches s (fun a => (g a).2) ms) : Matches (.cons f s) g (e :: ms) := ⟨e, ms, rfl, h, h'⟩

theorem reads_same {f : JField β} {g : α → β} {e : Member α} (h : SameField f g e) (m : List (String × Json)) (a : α) : f.Reads m (g a) ↔
    (∃ v, valuesOf e.name m = [v] ∧ e.says v a) ∨ (valuesOf e.name m = [] ∧ e.absent a) := by
  obtain ⟨h1, h2, h3⟩ := h
  rw [JField.Reads, h1, ← h3]
  simp only [h2]

theorem reads_matches {s : Shape β} : ∀ {g : α → β} {ms : List (Member α)}, Matches s g ms → ∀ (m : List (String × Json)) (a : α), s.Reads m (g a) ↔
    ∀ e ∈ ms, (∃ v, valuesOf e.name m = [v] ∧ e.says v a) ∨ (valuesOf e.name m = [] ∧ e.absent a) := by
  induction s with
  | one f =>
    rintro g ms ⟨e, rfl, h⟩ m a
    simp only [Shape.Reads, reads_same h, List.mem_singleton, forall_eq]
  | cons f s ih =>
    rintro g ms ⟨e, rest, rfl, h, h'⟩ m a
    simp only [Shape.Reads, List.forall_mem_cons]
    exact and_congr (reads_same h m a) (ih h' m a)

theorem seq_same {f : JField β} {g : α → β} {e : Member α} (h : SameField f g e) (a : α) :
    (∀ v, f.ReadsAt (some v) (g a) ↔ e.says v a) ∧ (f.ReadsAt none (g a) ↔ e.absent a) := ⟨fun v => h.2.1 v a, h.2.2 a⟩

theorem seq_matches {s : Shape β} : ∀ {g : α → β} {ms : List (Member α)}, Matches s g ms → ∀ (l : List Json) (a : α), s.ReadsSeq l (g a) ↔
    Says.positions ms l a := by
  induction s with
  | one f =>
    rintro g ms ⟨e, rfl, h⟩ l a
    cases l with
    | nil => simp [Shape.ReadsSeq, Says.positions, (seq_same h a).2]
    | cons v l =>
      simp only [Shape.ReadsSeq, Says.positions, List.head?_cons, (seq_same h a).1, List.length_cons]
      rw [and_comm]
      refine and_congr Iff.rfl ⟨fun hl => List.eq_nil_of_length_eq_zero (by omega), fun hl => by simp [hl]⟩
  | cons f s ih =>
    rintro g ms ⟨e, rest, rfl, h, h'⟩ l a
    cases l with
    | nil =>
      simp only [Shape.ReadsSeq, Says.positions, List.head?_nil, List.tail_nil]
      exact and_congr (seq_same h a).2 (ih h' [] a)
    | cons v l =>
      simp only [Shape.ReadsSeq, Says.positions, List.head?_cons, List.tail_cons]
      exact and_congr ((seq_same h a).1 v) (ih h' l a)

theorem shape_exact {s : Shape β} {g : α → β} {ms : List (Member α)} (hn : s.names.Nodup) (h : Matches s g ms) (j : Json) (a : α) :
    s.de j = .ok (g a) ↔ Says.struct ms j a := by
  cases j with
  | obj m => rw [Shape.de_obj s hn]; exact reads_matches h m a
  | arr l => rw [Shape.de_arr]; exact seq_matches h l a
  | _ => exact ⟨fun h => (by cases h), fun h => (by cases h)⟩

theorem record_exact {s : Shape β} {fields : α → β} {build : β → α} {ms : List (Member α)} (hn : s.names.Nodup) (hb : ∀ a, build (fields a) = a)
    (hf : ∀ b, fields (build b) = b) (h : Matches s fields ms) : Exact (record s fields build) (Says.struct ms) := by
  intro j a
  rw [← shape_exact hn h]
  simp only [record, bind_ok_iff, Res.pure_eq, Res.ok.injEq]
  constructor
  · rintro ⟨b, h1, rfl⟩; rw [hf, h1]
  · intro h1; exact ⟨_, h1, hb a⟩

theorem each_exact {s : Serde α} {R : Json → α → Prop} (h : Exact s R) : ∀ (js : List Json) (l : List α), each s.de js = .ok l ↔ Says.each R js l
  | [], [] => by simp [each, Says.each]
  | [], a :: l => by simp [each, Says.each]
  | j :: js, [] => by
    simp only [each, Says.each, iff_false, bind_ok_iff, Res.pure_eq]
    rintro ⟨a, -, r, -, e⟩
    cases e
  | j :: js, a :: l => by
    simp only [each, Says.each, bind_ok_iff, Res.pure_eq, Res.ok.injEq, List.cons.injEq, ← h j a, ← each_exact h js l]
    constructor
    · rintro ⟨_, h1, _, h2, rfl, rfl⟩; exact ⟨h1, h2⟩
    · rintro ⟨h1, h2⟩; exact ⟨_, h1, _, h2, rfl, rfl⟩

theorem exact_list {s : Serde α} {R : Json → α → Prop} (h : Exact s R) : Exact (list s) (Says.list R) := by
  intro j l
  cases j with
  | arr js => simp [list, Says.list, each_exact h]
  | _ => simp [list, Says.list, Res.fail]

theorem exact_option {s : Serde α} {R : Json → α → Prop} (h : Exact s R) : Exact (option s) (Says.option R) := by
  intro j x
  have hs : j ≠ .null → ((option s).de j = .ok x ↔ ∃ a, R j a ∧ x = some a) := by
    intro hj
    have : (option s).de j = s.de j >>= fun a => pure (some a) := by cases j <;> first | rfl | exact absurd rfl hj
    rw [this]
    simp only [bind_ok_iff, Res.pure_eq, Res.ok.injEq, h j]
    exact exists_congr fun a => and_congr Iff.rfl eq_comm
  by_cases hj : j = .null
  · subst hj
    cases x <;> simp [option, Says.option]
  · rw [hs hj]
    cases x <;> simp [Says.option, hj]

/-! ## Values -/

theorem exact_text {write : α → Res String} {read : String → Res α} {R : String → α → Prop} (h : ∀ s a, read s = .ok a ↔ R s a) :
    Exact (text write read) (fun j a => ∃ s, j = .str s ∧ R s a) := by
  intro j a
  cases j with
  | str s => simp [text, h]
  | _ => simp [text, Res.fail]

theorem ofExcept_iff {ε : Type} (x : Except ε α) (a : α) : ofExcept x = .ok a ↔ x = .ok a := by cases x <;> simp [ofExcept, Res.fail]

theorem ofOption_iff (x : Option α) (a : α) : ofOption x = .ok a ↔ x = some a := by cases x <;> simp [ofOption, Res.fail]

theorem ofOut_iff {ε : Type} (x : Out ε α) (a : α) : ofOut x = .ok a ↔ x = .ok a := by cases x <;> simp [ofOut, Res.fail]

theorem exact_u64 : Exact u64 Says.u64 := u64_de

theorem exact_u8 : Exact u8 Says.u8 := by
  intro j x
  cases j with
  | nat n =>
    simp only [u8, Says.u8, Json.nat.injEq, exists_eq_left']
    by_cases h : n.toNat < 256
    · rw [if_pos h]
      simp only [Res.ok.injEq]
      constructor
      · rintro rfl; rw [UInt8.toNat_ofNat', Nat.mod_eq_of_lt h]
      · intro e; rw [e, UInt8.ofNat_toNat]
    · rw [if_neg h]
      simp only [Res.fail, reduceCtorEq, false_iff]
      intro e
      exact h (e ▸ x.toNat_lt)
  | _ => simp [u8, Says.u8, Res.fail]

theorem exact_bool : Exact bool Says.bool := by intro j x; cases j <;> simp [bool, Says.bool, Res.fail]

theorem exact_string : Exact string Says.string := by
  intro j s
  rw [show string.de j = .ok s ↔ _ from exact_text (R := fun t a => t = a) (fun s a => by simp) j s]
  simp [Says.string]

theorem exact_id : Exact id Says.id := by
  intro j h
  rw [show id.de j = .ok h ↔ _ from exact_text (fun s a => (ofExcept_iff _ a).trans (C17_accepts (strBytes s) a)) j h]
  simp only [Says.id, exists_and_left]

theorem exact_address (E : Env) : Exact (address E) (Says.address E) :=
  exact_text fun s a => (ofExcept_iff _ a).trans (C18_accepts E.hash (strBytes s) a)

theorem exact_key : Exact key Says.key := by
  intro j k
  rw [show key.de j = .ok k ↔ _ from exact_text (fun s a => (ofOption_iff _ a).trans (C19_key_accepts (strBytes s) a)) j k]
  simp only [Says.key, exists_and_left]

theorem exact_signature : Exact signature Says.signature := exact_text fun s a => (ofOption_iff _ a).trans (C19_signature_accepts (strBytes s) a).2

theorem exact_leaf : Exact leaf Says.leaf := exact_text fun s a => (ofOption_iff _ a).trans (C19_leaf_accepts (strBytes s) a).2

theorem exact_unlockKey : Exact unlockKey Says.unlockKey := by
  intro j k
  rw [show unlockKey.de j = .ok k ↔ _ from exact_text (fun s a => (ofExcept_iff _ a).trans (C20_accepts (strBytes s) a)) j k]
  simp only [Says.unlockKey, exists_and_left]

theorem exact_amount (m : Mode) (s : List Char) (c : Currency) : parseCurrency m s = .ok c ↔ Says.amount m s c.hastings := by
  cases m with
  | checked => exact C14_checked_reads_any s c
  | unchecked =>
    rw [C14_unchecked_reads_any]
    refine or_congr Iff.rfl ⟨?_, ?_⟩
    · rintro ⟨i, f, e, x, h1, h2, h3, h4, h5⟩; exact ⟨i, f, e, x, h1, h4, h2, h3, h5⟩
    · rintro ⟨i, f, e, x, h1, h4, h2, h3, h5⟩; exact ⟨i, f, e, x, h1, h2, h3, h4, h5⟩

theorem exact_base64 : Exact base64 Says.bytes := C53_reads

theorem exact_work : Exact work Says.work := by
  refine exact_text fun s w => (ofExcept_iff _ w).trans ?_
  rw [C46_text_accepts]
  exact and_congr Iff.rfl eq_comm

theorem exact_time (E : Env) : Exact (time E) (Says.time E) := exact_text fun _ t => ofOption_iff _ t

theorem exact_duration : Exact duration Says.duration := by
  intro j d
  cases j with
  | nat n =>
    obtain ⟨k⟩ := d
    simp [duration, Says.duration, eq_comm]
  | _ => simp [duration, Says.duration, Res.fail]

theorem readTimes_exact (E : Env) : ∀ (js : List Json) (done ts : List DateTime), done.length ≤ 11 → (readTimes E done js = .ok ts ↔
    ∃ l, Says.each (Says.time E) js l ∧ (done ++ l).length ≤ 11 ∧ ts = done ++ l ++ List.replicate (11 - (done ++ l).length) DateTime.epoch)
  | [], done, ts, hd => by
    simp only [readTimes, Res.ok.injEq]
    constructor
    · rintro rfl; exact ⟨[], trivial, by simpa using hd, by simp⟩
    · rintro ⟨l, h1, -, h3⟩
      cases l with
      | nil => simp [h3]
      | cons => exact absurd h1 (by simp [Says.each])
  | j :: js, done, ts, hd => by
    have hno : (∀ t, ¬ Says.time E j t) ∨ 11 ≤ done.length → ¬ ∃ l, Says.each (Says.time E) (j :: js) l ∧ (done ++ l).length ≤ 11 ∧
        ts = done ++ l ++ List.replicate (11 - (done ++ l).length) DateTime.epoch := by
      rintro h ⟨l, h1, h2, -⟩
      cases l with
      | nil => simp [Says.each] at h1
      | cons t l =>
        rcases h with h | h
        · exact h t h1.1
        · simp only [List.length_append, List.length_cons] at h2; omega
    cases j with
    | str s =>
      rw [readTimes]
      by_cases h11 : 11 ≤ done.length
      · rw [if_pos h11]
        exact ⟨fun h => (by cases h), fun h => absurd h (hno (.inr h11))⟩
      · rw [if_neg h11]
        cases ht : E.timeRead s with
        | none =>
          refine ⟨fun h => (by cases h), fun h => absurd h (hno (.inl ?_))⟩
          rintro t ⟨s', e, h'⟩
          cases e
          rw [ht] at h'; cases h'
        | some t =>
          simp only
          rw [readTimes_exact E js (done ++ [t]) ts (by simp; omega)]
          constructor
          · rintro ⟨l, h1, h2, h3⟩
            refine ⟨t :: l, ⟨⟨s, rfl, ht⟩, h1⟩, ?_, ?_⟩
            · simpa using h2
            · simpa using h3
          · rintro ⟨l, h1, h2, h3⟩
            cases l with
            | nil => simp [Says.each] at h1
            | cons t' l =>
              obtain ⟨⟨s', e, h'⟩, h1⟩ := h1
              cases e
              rw [ht] at h'
              cases h'
              exact ⟨l, h1, by simpa using h2, by simpa using h3⟩
    | _ =>
      refine ⟨fun h => (by cases h), fun h => absurd h (hno (.inl ?_))⟩
      rintro t ⟨s', e, -⟩
      cases e

theorem exact_times (E : Env) : Exact (times E) (Says.times E) := by
  intro j ts
  cases j with
  | arr js =>
    simp only [times, bind_ok_iff, Says.times, Json.arr.injEq]
    constructor
    · rintro ⟨l, h1, h2⟩
      obtain ⟨r, h3, h4, h5⟩ := (readTimes_exact E js [] l (by simp)).mp h1
      have hl : l.length = 11 := readTimes_length js [] (by simp) l h1
      rw [dif_pos hl] at h2
      cases h2
      exact ⟨js, r, rfl, h3, by simpa using h4, by simpa using h5⟩
    · rintro ⟨_, r, rfl, h3, h4, h5⟩
      refine ⟨ts.1, (readTimes_exact E js [] ts.1 (by simp)).mpr ⟨r, h3, by simpa using h4, by simpa using h5⟩, ?_⟩
      rw [dif_pos ts.2]
      rfl
  | _ => simp [times, Says.times, Res.fail]

theorem exact_currency (E : Env) : Exact (currency E) (Says.currency E) := by
  intro j c
  simp only [currency, ofOut_iff, Says.currency]
  cases j with
  | str s =>
    simp only [reduceCtorEq, false_and, exists_false, false_or, Json.str.injEq, exists_eq_left', deserializeCurrency, ← exact_amount]
    cases parseCurrency E.mode s.toList <;> simp
  | nat n =>
    simp only [(C15_numbers E.mode 0 n 0 c).2.1, Json.nat.injEq, exists_eq_left', reduceCtorEq, false_and, exists_false, or_false]
  | neg k =>
    simp only [(C15_numbers E.mode 0 (BitVec.ofInt 64 (-(k.toNat : Int) - 1)) 0 c).2.2.2.2.1, reduceCtorEq, false_and, exists_false, or_false, iff_false]
    rw [BitVec.toInt_ofInt, Int.bmod_def]
    have := k.isLt
    split <;> omega
  | _ => simp [deserializeCurrency]

/-! ## Structs -/

theorem exact_chainIndex : Exact chainIndex Says.chainIndex :=
  record_exact (by decide) (fun _ => rfl) (fun _ => rfl) (matches_cons (same_req exact_u64) (matches_one (same_req exact_id)))

theorem exact_siacoinOutput (E : Env) : Exact (siacoinOutput E) (Says.siacoinOutput E) :=
  record_exact (by simp [Shape.names, JField.req]) (fun _ => rfl) (fun _ => rfl)
    (matches_cons (same_req (exact_currency E)) (matches_one (same_req (exact_address E))))

theorem exact_siafundOutput (E : Env) : Exact (siafundOutput E) (Says.siafundOutput E) :=
  record_exact (by simp [Shape.names, JField.req]) (fun _ => rfl) (fun _ => rfl)
    (matches_cons (same_req exact_u64) (matches_one (same_req (exact_address E))))

theorem exact_stateElement : Exact stateElement Says.stateElement :=
  record_exact (by simp [Shape.names, JField.req]) (fun _ => rfl) (fun _ => rfl)
    (matches_cons (same_req exact_u64) (matches_one (same_req (exact_list exact_id))))

theorem exact_unlockConditions : Exact unlockConditions Says.unlockConditions :=
  record_exact (by simp [Shape.names, JField.req]) (fun _ => rfl) (fun _ => rfl)
    (matches_cons (same_req exact_u64) (matches_cons (same_req (exact_list exact_unlockKey)) (matches_one (same_req exact_u64))))

theorem exact_v1SiacoinInput : Exact v1SiacoinInput Says.v1SiacoinInput :=
  record_exact (by simp [Shape.names, JField.req]) (fun _ => rfl) (fun _ => rfl)
    (matches_cons (same_req exact_id) (matches_one (same_req exact_unlockConditions)))

theorem exact_v1SiafundInput (E : Env) : Exact (v1SiafundInput E) (Says.v1SiafundInput E) :=
  record_exact (by simp [Shape.names, JField.req]) (fun _ => rfl) (fun _ => rfl)
    (matches_cons (same_req exact_id) (matches_cons (same_req exact_unlockConditions) (matches_one (same_req (exact_address E)))))

theorem exact_v1FileContract (E : Env) : Exact (v1FileContract E) (Says.v1FileContract E) :=
  record_exact (by simp [Shape.names, JField.req]) (fun _ => rfl) (fun _ => rfl)
    (matches_cons (same_req exact_u64) (matches_cons (same_req exact_id) (matches_cons (same_req exact_u64) (matches_cons (same_req exact_u64) (matches_cons
      (same_req (exact_currency E)) (matches_cons (same_req (exact_list (exact_siacoinOutput E))) (matches_cons (same_req (exact_list (exact_siacoinOutput
      E))) (matches_cons (same_req (exact_address E)) (matches_one (same_req exact_u64))))))))))

theorem exact_v1FileContractRevision (E : Env) : Exact (v1FileContractRevision E) (Says.v1FileContractRevision E) :=
  record_exact (by simp [Shape.names, JField.req]) (fun _ => rfl) (fun _ => rfl)
    (matches_cons (same_req exact_id) (matches_cons (same_req exact_unlockConditions) (matches_cons (same_req exact_u64) (matches_cons (same_req exact_u64)
      (matches_cons (same_req exact_id) (matches_cons (same_req exact_u64) (matches_cons (same_req exact_u64) (matches_cons (same_req (exact_list
      (exact_siacoinOutput E))) (matches_cons (same_req (exact_list (exact_siacoinOutput E))) (matches_one (same_req (exact_address E))))))))))))

theorem exact_v1StorageProof : Exact v1StorageProof Says.v1StorageProof :=
  record_exact (by simp [Shape.names, JField.req]) (fun _ => rfl) (fun _ => rfl)
    (matches_cons (same_req exact_id) (matches_cons (same_req exact_leaf) (matches_one (same_req (exact_list exact_id)))))

theorem exact_coveredFields : Exact coveredFields Says.coveredFields :=
  record_exact (by simp [Shape.names, JField.req, JField.vec]) (fun _ => rfl) (fun _ => rfl)
    (matches_cons (same_req exact_bool) (matches_cons (same_vec (exact_list exact_u64)) (matches_cons (same_vec (exact_list exact_u64)) (matches_cons
      (same_vec (exact_list exact_u64)) (matches_cons (same_vec (exact_list exact_u64)) (matches_cons (same_vec (exact_list exact_u64)) (matches_cons
      (same_vec (exact_list exact_u64)) (matches_cons (same_vec (exact_list exact_u64)) (matches_cons (same_vec (exact_list exact_u64)) (matches_cons
      (same_vec (exact_list exact_u64)) (matches_one (same_vec (exact_list exact_u64)))))))))))))

theorem exact_transactionSignature : Exact transactionSignature Says.transactionSignature :=
  record_exact (by simp [Shape.names, JField.req]) (fun _ => rfl) (fun _ => rfl)
    (matches_cons (same_req exact_id) (matches_cons (same_req exact_u64) (matches_cons (same_req exact_u64) (matches_cons (same_req exact_coveredFields)
      (matches_one (same_req exact_base64))))))

theorem exact_v1Transaction (E : Env) : Exact (v1Transaction E) (Says.v1Transaction E) :=
  record_exact (by simp [Shape.names, JField.vec]) (fun _ => rfl) (fun _ => rfl)
    (matches_cons (same_vec (exact_list exact_v1SiacoinInput)) (matches_cons (same_vec (exact_list (exact_siacoinOutput E))) (matches_cons (same_vec
      (exact_list (exact_v1FileContract E))) (matches_cons (same_vec (exact_list (exact_v1FileContractRevision E))) (matches_cons (same_vec (exact_list
      exact_v1StorageProof)) (matches_cons (same_vec (exact_list (exact_v1SiafundInput E))) (matches_cons (same_vec (exact_list (exact_siafundOutput E)))
      (matches_cons (same_vec (exact_list (exact_currency E))) (matches_cons (same_vec (exact_list exact_base64)) (matches_one (same_vec (exact_list
      exact_transactionSignature))))))))))))

theorem exact_block (E : Env) : Exact (block E) (Says.block E) :=
  record_exact (by simp [Shape.names, JField.req]) (fun _ => rfl) (fun _ => rfl)
    (matches_cons (same_req exact_id) (matches_cons (same_req exact_u64) (matches_cons (same_req (exact_time E)) (matches_cons (same_req (exact_list
      (exact_siacoinOutput E))) (matches_one (same_req (exact_list (exact_v1Transaction E))))))))

/-- The shape of a threshold. -/
theorem exact_threshold {sub : Serde SpendPolicy} {R : Json → SpendPolicy → Prop} (h : Exact sub R) (j : Json) (p : UInt8 × List SpendPolicy) :
    (Shape.cons (.req "n" u8) (.one (.req "of" (list sub)))).de j = .ok p ↔ Says.threshold R j p :=
  shape_exact (g := fun p : UInt8 × List SpendPolicy => p) (by simp [Shape.names, JField.req])
    (matches_cons (same_req exact_u8) (matches_one (same_req (exact_list h)))) j p

theorem exact_condition (E : Env) {sub : Serde SpendPolicy} {R : Json → SpendPolicy → Prop} (h : Exact sub R) (v : Json) (p : SpendPolicy) :
    p.SaidBy E sub v ↔ Says.condition E R v p := by
  cases p with
  | threshold n of => rw [← threshold_de, exact_threshold h]; rfl
  | above x => simp only [SpendPolicy.SaidBy, Says.condition, Says.u64]
  | after t =>
    simp only [SpendPolicy.SaidBy, Says.condition]
    obtain ⟨s, n⟩ := t
    refine exists_congr fun x => and_congr Iff.rfl ?_
    simp only [DateTime.mk.injEq]
    constructor
    · rintro ⟨h1, h2, h3⟩; exact ⟨⟨h2, h1⟩, h3⟩
    · rintro ⟨⟨h2, h1⟩, h3⟩; exact ⟨h1, h2, h3⟩
  | publicKey k => exact exact_key v k
  | hash x => exact exact_id v x
  | opaqueAddr a => exact exact_address E v a
  | unlockConditions uc => exact exact_unlockConditions v uc

theorem exact_policyAt (E : Env) : ∀ d : Nat, Exact ⟨serPolicy E, dePolicy E d, Take.whole (dePolicy E d)⟩ (Says.policy E d)
  | 0 => fun j p => ⟨fun h => (by cases h), fun h => h.elim⟩
  | d + 1 => fun j p => by
    rw [Says.policy]
    refine (C51_policy E d j p).trans ?_
    simp only [exact_condition E (exact_policyAt E d)]

theorem exact_policy (E : Env) : Exact (policy E) (Says.policy E E.stack) := exact_policyAt E E.stack

theorem exact_satisfiedPolicy (E : Env) : Exact (satisfiedPolicy E) (Says.satisfiedPolicy E) :=
  record_exact (by simp [Shape.names, JField.req, JField.vec]) (fun _ => rfl) (fun _ => rfl)
    (matches_cons (same_req (exact_policy E)) (matches_cons (same_vec (exact_list exact_signature)) (matches_one (same_vec (exact_list exact_id)))))

theorem exact_attestation : Exact attestation Says.attestation :=
  record_exact (by simp [Shape.names, JField.req]) (fun _ => rfl) (fun _ => rfl)
    (matches_cons (same_req exact_key) (matches_cons (same_req exact_string) (matches_cons (same_req exact_base64) (matches_one (same_req exact_signature)))))

theorem exact_v2FileContract (E : Env) : Exact (v2FileContract E) (Says.v2FileContract E) :=
  record_exact (by simp [Shape.names, JField.req]) (fun _ => rfl) (fun _ => rfl)
    (matches_cons (same_req exact_u64) (matches_cons (same_req exact_u64) (matches_cons (same_req exact_id) (matches_cons (same_req exact_u64) (matches_cons
      (same_req exact_u64) (matches_cons (same_req (exact_siacoinOutput E)) (matches_cons (same_req (exact_siacoinOutput E)) (matches_cons (same_req
      (exact_currency E)) (matches_cons (same_req (exact_currency E)) (matches_cons (same_req exact_key) (matches_cons (same_req exact_key) (matches_cons
      (same_req exact_u64) (matches_cons (same_req exact_signature) (matches_one (same_req exact_signature)))))))))))))))

theorem exact_siacoinElement (E : Env) : Exact (siacoinElement E) (Says.siacoinElement E) :=
  record_exact (by simp [Shape.names, JField.req]) (fun _ => rfl) (fun _ => rfl)
    (matches_cons (same_req exact_stateElement) (matches_cons (same_req exact_id) (matches_cons (same_req (exact_siacoinOutput E)) (matches_one (same_req
      exact_u64)))))

theorem exact_siafundElement (E : Env) : Exact (siafundElement E) (Says.siafundElement E) :=
  record_exact (by simp [Shape.names, JField.req]) (fun _ => rfl) (fun _ => rfl)
    (matches_cons (same_req exact_stateElement) (matches_cons (same_req exact_id) (matches_cons (same_req (exact_siafundOutput E)) (matches_one (same_req
      (exact_currency E))))))

theorem exact_fileContractElement (E : Env) : Exact (fileContractElement E) (Says.fileContractElement E) :=
  record_exact (by simp [Shape.names, JField.req]) (fun _ => rfl) (fun _ => rfl)
    (matches_cons (same_req exact_stateElement) (matches_cons (same_req exact_id) (matches_one (same_req (exact_v2FileContract E)))))

theorem exact_chainIndexElement : Exact chainIndexElement Says.chainIndexElement :=
  record_exact (by simp [Shape.names, JField.req]) (fun _ => rfl) (fun _ => rfl)
    (matches_cons (same_req exact_stateElement) (matches_cons (same_req exact_id) (matches_one (same_req exact_chainIndex))))

theorem exact_v2SiacoinInput (E : Env) : Exact (v2SiacoinInput E) (Says.v2SiacoinInput E) :=
  record_exact (by simp [Shape.names, JField.req]) (fun _ => rfl) (fun _ => rfl)
    (matches_cons (same_req (exact_siacoinElement E)) (matches_one (same_req (exact_satisfiedPolicy E))))

theorem exact_v2SiafundInput (E : Env) : Exact (v2SiafundInput E) (Says.v2SiafundInput E) :=
  record_exact (by simp [Shape.names, JField.req]) (fun _ => rfl) (fun _ => rfl)
    (matches_cons (same_req (exact_siafundElement E)) (matches_cons (same_req (exact_address E)) (matches_one (same_req (exact_satisfiedPolicy E)))))

theorem exact_v2FileContractRevision (E : Env) : Exact (v2FileContractRevision E) (Says.v2FileContractRevision E) :=
  record_exact (by simp [Shape.names, JField.req]) (fun _ => rfl) (fun _ => rfl)
    (matches_cons (same_req (exact_fileContractElement E)) (matches_one (same_req (exact_v2FileContract E))))

theorem exact_renewal (E : Env) : Exact (renewal E) (Says.renewal E) :=
  record_exact (by simp [Shape.names, JField.req]) (fun _ => rfl) (fun _ => rfl)
    (matches_cons (same_req (exact_v2FileContract E)) (matches_cons (same_req (exact_v2FileContract E)) (matches_cons (same_req (exact_currency E))
      (matches_cons (same_req (exact_currency E)) (matches_cons (same_req exact_signature) (matches_one (same_req exact_signature)))))))

theorem exact_v2StorageProof : Exact v2StorageProof Says.v2StorageProof :=
  record_exact (by simp [Shape.names, JField.req]) (fun _ => rfl) (fun _ => rfl)
    (matches_cons (same_req exact_chainIndexElement) (matches_cons (same_req exact_leaf) (matches_one (same_req (exact_list exact_id)))))

theorem exact_outcome (E : Env) (p : V2.FileContractElement) (t : String) (v : Json) (r : V2.FileContractResolution) :
    resolutionOf E (some p, some t, some v) = .ok r ↔ p = r.parent ∧ Says.outcome E t v r.resolution := by
  obtain ⟨q, o⟩ := r
  simp only [resolutionOf]
  by_cases h1 : t = "renewal"
  · subst h1
    simp only [if_true, bind_ok_iff, Res.pure_eq, Res.ok.injEq, V2.FileContractResolution.mk.injEq, exact_renewal E _ _]
    cases o <;> simp only [Says.outcome, reduceCtorEq, and_false, exists_false, String.reduceEq, false_and, true_and, iff_self,
      V2.ContractResolution.renewal.injEq]
    exact ⟨fun ⟨_, h1, h2, h3⟩ => ⟨h2, h3 ▸ h1⟩, fun ⟨h1, h2⟩ => ⟨_, h2, h1, rfl⟩⟩
  by_cases h2 : t = "storageProof"
  · subst h2
    simp only [String.reduceEq, if_false, if_true, bind_ok_iff, Res.pure_eq, Res.ok.injEq, V2.FileContractResolution.mk.injEq, exact_v2StorageProof _ _]
    cases o <;> simp only [Says.outcome, reduceCtorEq, and_false, exists_false, String.reduceEq, false_and, true_and, iff_self,
      V2.ContractResolution.storageProof.injEq]
    exact ⟨fun ⟨_, h1, h2, h3⟩ => ⟨h2, h3 ▸ h1⟩, fun ⟨h1, h2⟩ => ⟨_, h2, h1, rfl⟩⟩
  by_cases h3 : t = "expiration"
  · subst h3
    simp only [String.reduceEq, if_false, if_true, Res.pure_eq, Res.ok.injEq, V2.FileContractResolution.mk.injEq]
    cases o <;> simp [Says.outcome]
  · rw [if_neg h1, if_neg h2, if_neg h3]
    cases o <;> simp [Says.outcome, Res.fail, h1, h2, h3]

theorem exact_resolution (E : Env) : Exact (resolution E) (Says.resolution E) := by
  intro j r
  cases j with
  | obj m =>
    simp only [resolution, bind_ok_iff, resolutionMembers_ok, Option.or_none, Says.resolution, ← exact_fileContractElement E _ _]
    constructor
    · rintro ⟨⟨x, y, z⟩, ⟨h1, h2, h3, h4, h5, h6⟩, h7⟩
      simp only at h4 h5 h6
      cases hp : (valuesOf "parent" m).getLast? with
      | none => rw [hp] at h4; cases h4; cases h7
      | some p =>
        obtain ⟨a, ha⟩ := h2 p (List.mem_of_getLast? hp)
        rw [hp, Option.bind_some, ha] at h4
        cases h4
        cases ht : (valuesOf "type" m).getLast? with
        | none => rw [ht] at h5; cases h5; cases h7
        | some t =>
          obtain ⟨s, rfl⟩ := h3 t (List.mem_of_getLast? ht)
          rw [ht] at h5
          cases h5
          cases hv : (valuesOf "resolution" m).getLast? with
          | none => rw [hv] at h6; cases h6; cases h7
          | some v =>
            rw [hv] at h6
            cases h6
            obtain ⟨rfl, ho⟩ := (exact_outcome E a s v.norm r).mp h7
            exact ⟨m, p, s, v, rfl, h1, h2, h3, hp, ht, hv, ha, ho⟩
    · rintro ⟨m', p, s, v, e, h1, h2, h3, h4, h5, h6, h7, h8⟩
      cases e
      refine ⟨(some r.parent, some s, some v.norm), ⟨h1, h2, h3, ?_, ?_, ?_⟩, ?_⟩
      · simp [h4, h7, Res.val?]
      · simp [h5, Json.str?]
      · simp [h6]
      · exact (exact_outcome E _ s v.norm r).mpr ⟨rfl, h8⟩
  | _ => exact ⟨fun h => (by cases h), fun h => (by obtain ⟨_, _, _, _, e, _⟩ := h; cases e)⟩

theorem exact_contractResolution (E : Env) : Exact (contractResolution E) (Says.contractResolution E) := by
  intro j r
  match j with
  | .obj [(k, v)] =>
    simp only [contractResolution]
    by_cases h1 : k = "renewal"
    · subst h1
      simp only [if_true, bind_ok_iff, Res.pure_eq, Res.ok.injEq, exact_renewal E _ _]
      cases r <;> simp [Says.contractResolution]
    by_cases h2 : k = "storageProof"
    · subst h2
      simp only [String.reduceEq, if_false, if_true, bind_ok_iff, Res.pure_eq, Res.ok.injEq, exact_v2StorageProof _ _]
      cases r <;> simp [Says.contractResolution]
    by_cases h3 : k = "expiration"
    · subst h3
      simp only [String.reduceEq, if_false, if_true]
      split
      · cases r <;> simp [Says.contractResolution]
      · next h =>
        cases r <;> simp [Says.contractResolution, Res.fail]
        exact h
    · rw [if_neg h1, if_neg h2, if_neg h3]
      cases r <;> simp [Says.contractResolution, Res.fail, h1, h2, h3]
  | .obj [] => cases r <;> simp [contractResolution, Says.contractResolution, Res.fail]
  | .obj (_ :: _ :: _) => cases r <;> simp [contractResolution, Says.contractResolution, Res.fail]
  | .arr _ | .str _ | .nat _ | .neg _ | .float | .bool _ | .null => cases r <;> simp [contractResolution, Says.contractResolution, Res.fail]

theorem exact_v2Transaction (E : Env) : Exact (v2Transaction E) (Says.v2Transaction E) :=
  record_exact (by simp [Shape.names, JField.req, JField.vec, JField.opt?]) (fun _ => rfl) (fun _ => rfl)
    (matches_cons (same_vec (exact_list (exact_v2SiacoinInput E))) (matches_cons (same_vec (exact_list (exact_siacoinOutput E))) (matches_cons (same_vec
      (exact_list (exact_v2SiafundInput E))) (matches_cons (same_vec (exact_list (exact_siafundOutput E))) (matches_cons (same_vec (exact_list
      (exact_v2FileContract E))) (matches_cons (same_vec (exact_list (exact_v2FileContractRevision E))) (matches_cons (same_vec (exact_list (exact_resolution
      E))) (matches_cons (same_vec (exact_list exact_attestation)) (matches_cons (same_vec exact_base64) (matches_cons (same_opt (exact_option (exact_address
      E))) (matches_one (same_req (exact_currency E)))))))))))))

theorem roots_eq (a : ElementAccumulator) :
    a.roots = (List.range 64).filterMap (fun i => if a.numLeaves.toNat.testBit i then a.trees.1[i]? else none) := by
  have key : ∀ l : List Nat, (∀ i ∈ l, i < 64) → (l.filter fun i => a.numLeaves.toNat.testBit i).map (fun i => a.trees.1.getD i (Arr.zero 32)) =
      l.filterMap (fun i => if a.numLeaves.toNat.testBit i then a.trees.1[i]? else none) := by
    intro l
    induction l with
    | nil => simp
    | cons i l ih =>
      intro h
      have hi : i < a.trees.1.length := by rw [a.trees.2]; exact h i (by simp)
      have ih := ih fun k hk => h k (by simp [hk])
      by_cases hb : a.numLeaves.toNat.testBit i = true
      · simpa [hb, hi] using ih
      · simpa [hb] using ih
  exact key _ fun i hi => List.mem_range.mp hi

theorem exact_accumulator : Exact accumulator Says.accumulator := by
  intro j a
  rw [accumulator_de, Says.accumulator, ← roots_eq]
  rw [shape_exact (g := fun p : U64 × List Hash256 => p) (by simp [Shape.names, JField.req])
    (matches_cons (same_req exact_u64) (matches_one (same_req (exact_list exact_id)))) j (a.numLeaves, a.roots)]
  constructor
  · rintro ⟨h1, h2⟩; exact ⟨_, h1, rfl, h2⟩
  · rintro ⟨_, h1, rfl, h2⟩; exact ⟨h1, h2⟩

theorem exact_state (E : Env) : Exact (state E) (Says.state E) :=
  record_exact (by simp [Shape.names, JField.req]) (fun _ => rfl) (fun _ => rfl)
    (matches_cons (same_req exact_chainIndex) (matches_cons (same_req (exact_times E)) (matches_cons (same_req exact_id) (matches_cons (same_req exact_id)
      (matches_cons (same_req (exact_currency E)) (matches_cons (same_req exact_duration) (matches_cons (same_req exact_id) (matches_cons (same_req
      (exact_address E)) (matches_cons (same_req (exact_address E)) (matches_cons (same_req exact_work) (matches_cons (same_req exact_work) (matches_cons
      (same_req exact_work) (matches_cons (same_req exact_accumulator) (matches_one (same_req exact_u64)))))))))))))))

theorem exact_hardforkDevAddr (E : Env) : Exact (hardforkDevAddr E) (Says.hardforkDevAddr E) :=
  record_exact (by simp [Shape.names, JField.req]) (fun _ => rfl) (fun _ => rfl)
    (matches_cons (same_req exact_u64) (matches_cons (same_req (exact_address E)) (matches_one (same_req (exact_address E)))))

theorem exact_hardforkHeight : Exact hardforkHeight Says.hardforkHeight :=
  record_exact (by simp [Shape.names, JField.req]) (fun _ => rfl) (fun _ => rfl)
    (matches_one (same_req exact_u64))

theorem exact_hardforkOak (E : Env) : Exact (hardforkOak E) (Says.hardforkOak E) :=
  record_exact (by simp [Shape.names, JField.req]) (fun _ => rfl) (fun _ => rfl)
    (matches_cons (same_req exact_u64) (matches_cons (same_req exact_u64) (matches_one (same_req (exact_time E)))))

theorem exact_hardforkASIC : Exact hardforkASIC Says.hardforkASIC :=
  record_exact (by simp [Shape.names, JField.req]) (fun _ => rfl) (fun _ => rfl)
    (matches_cons (same_req exact_u64) (matches_cons (same_req exact_duration) (matches_one (same_req exact_id))))

theorem exact_hardforkFoundation (E : Env) : Exact (hardforkFoundation E) (Says.hardforkFoundation E) :=
  record_exact (by simp [Shape.names, JField.req]) (fun _ => rfl) (fun _ => rfl)
    (matches_cons (same_req exact_u64) (matches_cons (same_req (exact_address E)) (matches_one (same_req (exact_address E)))))

theorem exact_hardforkV2 : Exact hardforkV2 Says.hardforkV2 :=
  record_exact (by simp [Shape.names, JField.req]) (fun _ => rfl) (fun _ => rfl)
    (matches_cons (same_req exact_u64) (matches_one (same_req exact_u64)))

theorem exact_network (E : Env) : Exact (network E) (Says.network E) :=
  record_exact (by simp [Shape.names, JField.req]) (fun _ => rfl) (fun _ => rfl)
    (matches_cons (same_req exact_string) (matches_cons (same_req (exact_currency E)) (matches_cons (same_req (exact_currency E)) (matches_cons (same_req
      exact_id) (matches_cons (same_req exact_duration) (matches_cons (same_req exact_u64) (matches_cons (same_req (exact_hardforkDevAddr E)) (matches_cons
      (same_req exact_hardforkHeight) (matches_cons (same_req exact_hardforkHeight) (matches_cons (same_req (exact_hardforkOak E)) (matches_cons (same_req
      exact_hardforkASIC) (matches_cons (same_req (exact_hardforkFoundation E)) (matches_one (same_req exact_hardforkV2))))))))))))))

theorem exact_chainState (E : Env) : Exact (chainState E) (Says.chainState E) :=
  record_exact (by simp [Shape.names, JField.req]) (fun _ => rfl) (fun _ => rfl)
    (matches_cons (same_req (exact_network E)) (matches_one (same_req (exact_state E))))

end Serde

end Verif
