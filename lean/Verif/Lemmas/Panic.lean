import Verif.Lemmas.Spec

/-!
# When decoders that can panic do
-/

namespace Verif

open Dec

variable {v : Ver} {α β : Type}

theorem readExact_long {n : Nat} {lim : Lim} {bs : List UInt8} (h : n ≤ bs.length) :
    readExact n lim bs = .ok (⟨bs.take n, by simp [h]⟩, bs.drop n) := by simp [readExact, h]

theorem readExact_short {n : Nat} {lim : Lim} {bs : List UInt8} (h : bs.length < n) :
    readExact n lim bs = .err .io := by
  have : ¬ n ≤ bs.length := by omega
  simp [readExact, this]

theorem i64At_zero (a b c d e f g h : UInt8) (l : List UInt8) :
    i64At (a :: b :: c :: d :: e :: f :: g :: h :: l) 0 =
      (BitVec.ofNat 64 (leVal [a, b, c, d, e, f, g, h])).toInt := by
  have hlt := leVal_lt [a, b, c, d, e, f, g, h]
  simp only [List.length_cons, List.length_nil] at hlt
  have e1 : i64At (a :: b :: c :: d :: e :: f :: g :: h :: l) 0 =
      (let n := leVal [a, b, c, d, e, f, g, h]; if n < 2 ^ 63 then (n : Int) else (n : Int) - 2 ^ 64) := rfl
  rw [e1, BitVec.toInt_eq_toNat_cond, BitVec.toNat_ofNat,
    Nat.mod_eq_of_lt (show leVal [a, b, c, d, e, f, g, h] < 2 ^ 64 from hlt)]
  dsimp only
  generalize leVal [a, b, c, d, e, f, g, h] = n at *
  split <;> split <;> omega

theorem i64At_eq (bs : List UInt8) (k : Nat) (h : k + 8 ≤ bs.length) :
    i64At bs k = (BitVec.ofNat 64 (leVal ((bs.drop k).take 8))).toInt := by
  have h1 : i64At bs k = i64At (bs.drop k) 0 := by
    unfold i64At u64At
    simp only [List.getElem?_drop, Nat.zero_add]
  rw [h1]
  have h2 : 8 ≤ (bs.drop k).length := by simp; omega
  generalize bs.drop k = l at h2
  match l, h2 with
  | a :: b :: c :: d :: e :: f :: g :: h :: l, _ => rw [i64At_zero]; rfl

/-- The timestamp decoder on an input with at least eight bytes. -/
theorem dec_dateTime_long {lim : Lim} {bs : List UInt8} (h : 8 ≤ bs.length) :
    (dec v : Dec DateTime) lim bs =
      if -377705116800 ≤ i64At bs 0 ∧ i64At bs 0 ≤ 253402300799 then .ok (⟨i64At bs 0, 0⟩, bs.drop 8)
      else .panic := by
  have h1 : numDecode 64 lim bs = .ok (BitVec.ofNat 64 (leVal (bs.take 8)), bs.drop 8) := by
    unfold numDecode
    rw [bind_ok (readExact_long h)]
    simp
  rw [dec_dateTime, bind_ok h1]
  have h2 := i64At_eq bs 0 (by omega)
  simp only [List.drop_zero] at h2
  rw [← h2]
  unfold DateTime.fromUnix DateTime.minSecs DateTime.maxSecs
  split <;> rfl

theorem dec_dateTime_short {lim : Lim} {bs : List UInt8} (h : bs.length < 8) :
    (dec v : Dec DateTime) lim bs = .err .io := by
  rw [dec_dateTime]
  apply bind_err
  unfold numDecode
  exact bind_err (readExact_short h)

theorem i64At_drop (bs : List UInt8) (j k : Nat) : i64At (bs.drop j) k = i64At bs (j + k) := by
  unfold i64At u64At
  simp only [List.getElem?_drop, Nat.add_assoc]

theorem badTimestampAt_drop (bs : List UInt8) (j k : Nat) (h : j ≤ bs.length) :
    BadTimestampAt (bs.drop j) k ↔ BadTimestampAt bs (j + k) := by
  unfold BadTimestampAt
  rw [i64At_drop, List.length_drop]
  constructor <;> intro ⟨h1, h2⟩ <;> exact ⟨by omega, h2⟩

/-- A panic of the timestamp loop. -/
theorem slots_panic {lim : Lim} {count : Nat} (i n : Nat) (bs : List UInt8) (hc : count ≤ i + n) :
    decodeSlots (fun j => decide (j < count)) (dec v : Dec DateTime) DateTime.epoch i n lim bs = .panic ↔
      ∃ j, i + j < count ∧ BadTimestampAt bs (8 * j) := by
  induction n generalizing i bs with
  | zero =>
    simp only [decodeSlots]
    constructor
    · intro h; exact absurd h (by simp)
    · rintro ⟨j, hj, _⟩; omega
  | succ n ih =>
    rw [decodeSlots_succ]
    by_cases hi : i < count
    · simp only [hi, decide_true, if_true]
      by_cases hl : 8 ≤ bs.length
      · have hd := dec_dateTime_long (v := v) (lim := lim) hl
        by_cases ht : -377705116800 ≤ i64At bs 0 ∧ i64At bs 0 ≤ 253402300799
        · rw [if_pos ht] at hd
          rw [bind_ok hd, bind_eq_panic, ih (i + 1) (bs.drop 8) (by omega)]
          constructor
          · rintro (⟨j, h1, h2⟩ | ⟨a, r, h1, h2⟩)
            · refine ⟨j + 1, by omega, ?_⟩
              rw [badTimestampAt_drop _ _ _ hl] at h2
              rw [show 8 * (j + 1) = 8 + 8 * j by omega]; exact h2
            · simp at h2
          · rintro ⟨j, h1, h2⟩
            cases j with
            | zero => exact absurd ht h2.2
            | succ j =>
              refine Or.inl ⟨j, by omega, ?_⟩
              rw [badTimestampAt_drop _ _ _ hl, ← show 8 * (j + 1) = 8 + 8 * j by omega]
              exact h2
        · rw [if_neg ht] at hd
          rw [bind_eq_panic]
          exact ⟨fun _ => ⟨0, by omega, ⟨by omega, ht⟩⟩, fun _ => Or.inl hd⟩
      · rw [bind_err (dec_dateTime_short (by omega))]
        constructor
        · intro h; exact absurd h (by simp)
        · rintro ⟨j, h1, h2, _⟩; omega
    · rw [if_neg (by simpa using hi)]
      rw [bind_eq_panic]
      constructor
      · rintro (h | ⟨a, r, h1, h2⟩)
        · simp at h
        · rcases bind_eq_panic.mp h2 with h | ⟨a, r, h1, h2⟩
          · rw [ih (i + 1) _ (by omega)] at h
            obtain ⟨j, hj, _⟩ := h; omega
          · simp at h2
      · rintro ⟨j, hj, _⟩; omega

instance : Safe v State.Tail := inferInstance

instance : Safe v (List SiacoinOutput × List V1.Transaction) := inferInstance

/-- A panic of the block decoder. -/
theorem block_panic {lim : Lim} (bs : List UInt8) (h1 : 2 ^ 64 ≤ lim.cap) (h2 : bs.length < lim.stack) :
    (dec v : Dec Block) lim bs = .panic ↔ BadTimestampAt bs 40 := by
  have hdef : (dec v : Dec Block) = ((readExact 32 >>= fun a => (numDecode 64 >>= fun b =>
      ((dec v : Dec DateTime) >>= fun c => ((dec v : Dec (List SiacoinOutput × List V1.Transaction)) >>= fun d =>
        pure (c, d))) >>= fun c => pure (b, c)) >>= fun b => pure (a, b)) >>= fun x =>
      pure (Struct.build x)) := rfl
  rw [hdef]
  have np : ∀ {α β : Type} {d : Dec α} {f : α → β} {bs : List UInt8},
      (d >>= fun x => pure (f x)) lim bs = .panic ↔ d lim bs = .panic := by
    intro α β d f bs
    rw [bind_eq_panic]
    constructor
    · rintro (h | ⟨a, r, _, h⟩)
      · exact h
      · simp at h
    · exact Or.inl
  rw [np]
  by_cases h32 : 32 ≤ bs.length
  · rw [bind_ok (readExact_long h32), np]
    unfold numDecode
    by_cases h40 : 40 ≤ bs.length
    · rw [bind_ok (r := bs.drop 40) (a := BitVec.ofNat 64 (leVal ((bs.drop 32).take 8))), np]
      · by_cases h48 : 48 ≤ bs.length
        · have hd := dec_dateTime_long (v := v) (lim := lim) (bs := bs.drop 40) (by simp; omega)
          rw [i64At_drop] at hd
          by_cases ht : -377705116800 ≤ i64At bs (40 + 0) ∧ i64At bs (40 + 0) ≤ 253402300799
          · rw [if_pos ht] at hd
            rw [bind_ok hd, np]
            constructor
            · intro h
              exact absurd h (Safe.safe lim _ h1 (by simp; omega)).1
            · rintro ⟨_, h⟩; exact absurd ht h
          · rw [if_neg ht] at hd
            rw [bind_eq_panic]
            exact ⟨fun _ => ⟨by omega, ht⟩, fun _ => Or.inl hd⟩
        · rw [bind_err (dec_dateTime_short (by simp; omega))]
          constructor
          · intro h; exact absurd h (by simp)
          · rintro ⟨h, _⟩; omega
      · rw [bind_ok (readExact_long (by simp; omega))]
        simp
    · rw [bind_err]
      · constructor
        · intro h; exact absurd h (by simp)
        · rintro ⟨h, _⟩; omega
      · exact bind_err (readExact_short (by simp; omega))
  · rw [bind_err (readExact_short (by omega))]
    constructor
    · intro h; exact absurd h (by simp)
    · rintro ⟨h, _⟩; omega

theorem u64At_zero (bs : List UInt8) (h : 8 ≤ bs.length) : u64At bs 0 = leVal (bs.take 8) := by
  match bs, h with
  | a :: b :: c :: d :: e :: f :: g :: h :: l, _ => rfl

/-- A panic of the state decoder. -/
theorem state_panic {m : Mode} {lim : Lim} (bs : List UInt8) (h1 : 2 ^ 64 ≤ lim.cap) (h2 : bs.length < lim.stack) :
    State.decode m lim bs = .panic ↔ 40 ≤ bs.length ∧
      (if u64At bs 0 = 2 ^ 64 - 1 then m = .checked
       else ∃ j, j ≤ u64At bs 0 ∧ j < 11 ∧ BadTimestampAt bs (40 + 8 * j)) := by
  rw [State.decode_def]
  have hix : (dec .v2 : Dec ChainIndex) = ((numDecode 64 >>= fun a => readExact 32 >>= fun b => pure (a, b)) >>= fun x =>
      pure (Struct.build x)) := rfl
  by_cases h40 : 40 ≤ bs.length
  · have h3 : (dec .v2 : Dec ChainIndex) lim bs =
        .ok (⟨BitVec.ofNat 64 (leVal (bs.take 8)), ⟨(bs.drop 8).take 32, by simp; omega⟩⟩, bs.drop 40) := by
      have h4 : numDecode 64 lim bs = .ok (BitVec.ofNat 64 (leVal (bs.take 8)), bs.drop 8) := by
        unfold numDecode
        rw [bind_ok (readExact_long (by omega))]
        simp
      rw [hix]
      refine (bind_ok (r := bs.drop 40)
        (a := (BitVec.ofNat 64 (leVal (bs.take 8)), ⟨(bs.drop 8).take 32, by simp; omega⟩)) ?_).trans rfl
      rw [bind_ok h4, bind_ok (readExact_long (by simp; omega))]
      simp
    rw [bind_ok h3]
    have hlt : leVal (bs.take 8) < 2 ^ 64 := by
      have := leVal_lt (bs.take 8)
      rw [List.length_take, Nat.min_eq_left (by omega)] at this
      exact this
    rw [u64At_zero bs (by omega)]
    have hn : (BitVec.ofNat 64 (leVal (bs.take 8))).toNat = leVal (bs.take 8) := by
      rw [BitVec.toNat_ofNat]; exact Nat.mod_eq_of_lt hlt
    have tailPanic : ∀ {α : Type} {r : List UInt8} {f : State.Tail → α}, r.length ≤ bs.length →
        ((dec .v2 : Dec State.Tail) >>= fun x => pure (f x)) lim r ≠ .panic := by
      intro α r f hr h
      rcases bind_eq_panic.mp h with h | ⟨a, r, _, h⟩
      · exact (Safe.safe lim _ h1 (by omega)).1 h
      · simp at h
    by_cases hmax : leVal (bs.take 8) = 2 ^ 64 - 1
    · simp only [h40, hmax, if_true, true_and]
      cases m with
      | checked =>
        have hc : State.timestampsCount .checked ⟨BitVec.ofNat 64 (2 ^ 64 - 1), ⟨(bs.drop 8).take 32, by simp; omega⟩⟩ =
          .panic := rfl
        rw [hc, bind_eq_panic]
        exact ⟨fun _ => rfl, fun _ => Or.inl rfl⟩
      | unchecked =>
        have hc : State.timestampsCount .unchecked ⟨BitVec.ofNat 64 (2 ^ 64 - 1), ⟨(bs.drop 8).take 32, by simp; omega⟩⟩ =
          .ok 0 := by
            have : addU .unchecked (BitVec.ofNat 64 (2 ^ 64 - 1)) 1 = .ok (0 : U64) := by decide +kernel
            unfold State.timestampsCount ChainIndex.childHeight
            rw [this]; rfl
        rw [hc, bind_ok (a := 0) (r := bs.drop 40) rfl]
        refine ⟨fun h => ?_, fun h => by cases h⟩
        rcases bind_eq_panic.mp h with h | ⟨a, r, ha, h⟩
        · rw [slots_panic _ _ _ (by omega)] at h
          obtain ⟨j, hj, _⟩ := h; omega
        · have := (local_slots Lawful.loc 0 11).length_le ha
          rw [List.length_drop] at this
          exact absurd h (tailPanic (by omega))
    · rw [if_neg hmax]
      rw [State.timestampsCount_ok (by simp only [hn]; omega)]
      rw [bind_ok (a := min ((BitVec.ofNat 64 (leVal (bs.take 8))).toNat + 1) 11) (r := bs.drop 40) rfl, hn]
      constructor
      · intro h
        refine ⟨h40, ?_⟩
        rcases bind_eq_panic.mp h with h | ⟨a, r, ha, h⟩
        · rw [slots_panic _ _ _ (by omega)] at h
          obtain ⟨j, hj, hb⟩ := h
          rw [badTimestampAt_drop _ _ _ h40] at hb
          exact ⟨j, by omega, by omega, hb⟩
        · have := (local_slots Lawful.loc 0 11).length_le ha
          rw [List.length_drop] at this
          exact absurd h (tailPanic (by omega))
      · rintro ⟨_, j, h3, h4, h5⟩
        rw [bind_eq_panic]
        left
        rw [slots_panic _ _ _ (by omega)]
        exact ⟨j, by omega, (badTimestampAt_drop _ _ _ h40).mpr h5⟩
  · have h3 : ∃ e, (dec .v2 : Dec ChainIndex) lim bs = .err e := by
      rw [hix]
      by_cases h8 : 8 ≤ bs.length
      · refine ⟨.io, bind_err ?_⟩
        unfold numDecode
        rw [bind_ok (a := BitVec.ofNat 64 (leVal (bs.take 8))) (r := bs.drop 8)]
        · exact bind_err (readExact_short (by simp; omega))
        · rw [bind_ok (readExact_long h8)]; simp
      · refine ⟨.io, bind_err (bind_err ?_)⟩
        unfold numDecode
        exact bind_err (readExact_short (by omega))
    obtain ⟨e, h3⟩ := h3
    rw [bind_err h3]
    constructor
    · intro h; exact absurd h (by simp)
    · rintro ⟨h, _⟩; omega

end Verif
