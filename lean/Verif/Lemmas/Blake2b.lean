import Verif.Model.Blake2b

/-!
# Hashing in pieces
-/

namespace Verif.Blake2b

theorem compress_length (h m : List Nat) (t : Nat) (last : Bool) : (compress h m t last).length = 8 := by
  simp only [compress, List.length_map, List.length_range]

theorem chain_finish (fuel : Nat) : ∀ (fuel' : Nat) (s : Stream), s.buf.length < fuel → s.buf.length ≤ fuel' →
    digest (chain fuel s.h s.count s.buf) = (s.absorb fuel').finalize := by
  induction fuel with
  | zero => intro _ s h; omega
  | succ fuel ih =>
    intro fuel' s h h'
    unfold chain
    by_cases hb : s.buf.length ≤ 128
    · rw [if_pos hb]
      cases fuel' with
      | zero => rfl
      | succ f => rw [Stream.absorb, if_pos hb]; rfl
    · rw [if_neg hb]
      cases fuel' with
      | zero => omega
      | succ f =>
        rw [Stream.absorb, if_neg hb]
        have hl : s.step.buf.length = s.buf.length - 128 := by simp [Stream.step]
        exact ih f s.step (by omega) (by omega)

theorem hash_eq_stream (bs : List UInt8) : hash bs = (Stream.new.update bs).finalize := by
  refine chain_finish _ (0 + bs.length) ⟨start, 0, bs⟩ (Nat.lt_succ_self _) (by simp)

namespace Stream

theorem absorb_fuel (n : Nat) : ∀ (m : Nat) (s : Stream), s.buf.length ≤ n → s.buf.length ≤ m → s.absorb n = s.absorb m := by
  induction n with
  | zero =>
    intro m s h h'
    cases m with
    | zero => rfl
    | succ m => rw [absorb, absorb, if_pos (by omega)]
  | succ n ih =>
    intro m s h h'
    by_cases hb : s.buf.length ≤ 128
    · cases m with
      | zero => rw [absorb, absorb, if_pos hb]
      | succ m => rw [absorb, absorb, if_pos hb, if_pos hb]
    · cases m with
      | zero => omega
      | succ m =>
        rw [absorb, absorb, if_neg hb, if_neg hb]
        have hl : s.step.buf.length = s.buf.length - 128 := by simp [step]
        exact ih m s.step (by omega) (by omega)

/-- Append to the buffer. -/
def push (s : Stream) (bs : List UInt8) : Stream := { s with buf := s.buf ++ bs }

theorem update_eq (s : Stream) (bs : List UInt8) : s.update bs = (s.push bs).absorb (s.buf.length + bs.length) := rfl

theorem step_push (s : Stream) (bs : List UInt8) (h : ¬ s.buf.length ≤ 128) : (s.push bs).step = s.step.push bs := by
  unfold step push
  simp only
  rw [List.take_append_of_le_length (by omega), List.drop_append_of_le_length (by omega)]

theorem absorb_push (n : Nat) : ∀ (m : Nat) (s : Stream) (bs : List UInt8), s.buf.length ≤ n → s.buf.length + bs.length ≤ m →
    ((s.absorb n).push bs).absorb m = (s.push bs).absorb m := by
  induction n with
  | zero => intro m s bs h h'; rfl
  | succ n ih =>
    intro m s bs h h'
    rw [absorb]
    by_cases hb : s.buf.length ≤ 128
    · rw [if_pos hb]
    · rw [if_neg hb]
      have hl : s.step.buf.length = s.buf.length - 128 := by simp [step]
      rw [ih m s.step bs (by omega) (by omega), ← step_push s bs hb]
      cases m with
      | zero => omega
      | succ m =>
        have hp : (s.push bs).buf.length = s.buf.length + bs.length := by simp [push]
        conv => rhs; rw [absorb, if_neg (by omega)]
        have hl' : (s.push bs).step.buf.length = (s.push bs).buf.length - 128 := by simp [step]
        exact absorb_fuel _ _ _ (by omega) (by omega)

theorem absorb_length (n : Nat) : ∀ (s : Stream), s.buf.length ≤ n → (s.absorb n).buf.length ≤ 128 ∧
    (s.absorb n).count + (s.absorb n).buf.length = s.count + s.buf.length ∧ (s.count % 128 = 0 → (s.absorb n).count % 128 = 0) ∧
    (s.buf ≠ [] → (s.absorb n).buf ≠ []) := by
  induction n with
  | zero => intro s h; exact ⟨by show s.buf.length ≤ 128; omega, rfl, id, id⟩
  | succ n ih =>
    intro s h
    rw [absorb]
    by_cases hb : s.buf.length ≤ 128
    · rw [if_pos hb]
      exact ⟨hb, rfl, id, id⟩
    · rw [if_neg hb]
      have hl : s.step.buf.length = s.buf.length - 128 := by simp [step]
      have hc : s.step.count = s.count + 128 := rfl
      obtain ⟨h1, h2, h3, h4⟩ := ih s.step (by omega)
      refine ⟨h1, by omega, fun h0 => h3 (by omega), fun _ => h4 ?_⟩
      rw [← List.length_pos_iff]
      omega

theorem update_update (s : Stream) (a b : List UInt8) : (s.update a).update b = s.update (a ++ b) := by
  have e1 : (s.update a).update b = ((s.update a).push b).absorb (s.buf.length + (a.length + b.length)) := by
    rw [update_eq (s.update a)]
    have : (s.update a).buf.length ≤ s.buf.length + a.length := by
      rw [update_eq]
      have hp : (s.push a).buf.length = s.buf.length + a.length := by simp [push]
      have hcount : ∀ (n : Nat) (s : Stream), (s.absorb n).buf.length ≤ s.buf.length := by
        intro n
        induction n with
        | zero => intro s; exact Nat.le_refl _
        | succ n ih =>
          intro s
          rw [absorb]
          by_cases hb : s.buf.length ≤ 128
          · rw [if_pos hb]; exact Nat.le_refl _
          · rw [if_neg hb]
            have hl : s.step.buf.length = s.buf.length - 128 := by simp [step]
            have := ih s.step
            omega
      have := hcount (s.buf.length + a.length) (s.push a)
      omega
    have hp : ((s.update a).push b).buf.length = (s.update a).buf.length + b.length := by simp [push]
    exact absorb_fuel _ _ _ (by omega) (by omega)
  rw [e1, update_eq s a, absorb_push _ _ _ _ (by simp [push]) (by simp [push]; omega), update_eq]
  have : (s.push a).push b = s.push (a ++ b) := by simp [push]
  rw [this, List.length_append]

theorem update_nil (s : Stream) (h : s.buf.length ≤ 128) : s.update [] = s := by
  rw [update_eq]
  have : s.push [] = s := by simp [push]
  rw [this, List.length_nil, Nat.add_zero]
  cases hn : s.buf.length with
  | zero => rfl
  | succ n => rw [absorb, if_pos h]

theorem update_small (s : Stream) (bs : List UInt8) : (s.update bs).buf.length ≤ 128 := by
  rw [update_eq]
  exact (absorb_length _ _ (by simp [push])).1

theorem foldl_update (ps : List (List UInt8)) : ∀ s : Stream, s.buf.length ≤ 128 → ps.foldl update s = s.update ps.flatten := by
  induction ps with
  | nil => intro s h; rw [List.flatten_nil, update_nil s h]; rfl
  | cons p ps ih =>
    intro s h
    rw [List.foldl_cons, ih _ (update_small s p), update_update, List.flatten_cons]

end Stream

end Verif.Blake2b
