import Verif.Lemmas.JsonText
import Verif.Spec.Stream

/-! Skipping values in a text, against the grammar. -/

namespace Verif.Json

open Grammar

theorem skipEscape_iff (s r : List Char) : skipEscape s = some r ↔ ∃ t, s = t ++ r ∧ t ≠ [] ∧ AnyLetter ('\\' :: t) := by
  constructor
  · intro h
    match s, h with
    | e :: s, h =>
      simp only [skipEscape] at h
      split at h
      · next he =>
        cases h
        refine ⟨[e], rfl, by simp, ?_⟩
        rcases he with rfl | rfl | rfl | rfl | rfl | rfl | rfl | rfl
        · exact .short _ 0x22 (by decide)
        · exact .short _ 0x5c (by decide)
        · exact .short _ 0x2f (by decide)
        · exact .short _ 0x08 (by decide)
        · exact .short _ 0x0c (by decide)
        · exact .short _ 0x0a (by decide)
        · exact .short _ 0x0d (by decide)
        · exact .short _ 0x09 (by decide)
      split at h
      · next he =>
        subst he
        simp only [Option.bind_eq_bind, Option.bind_eq_some_iff] at h
        obtain ⟨⟨n, s1⟩, h1, h⟩ := h
        cases h
        obtain ⟨t, rfl, ht⟩ := (hex4_iff _ _ _).mp h1
        exact ⟨'u' :: t, rfl, by simp, .unicode n ht⟩
      · cases h
  · rintro ⟨t, rfl, hne, h⟩
    generalize hs : '\\' :: t = s at h
    cases h with
    | plain c h1 h2 h3 => cases hs; exact absurd rfl h3
    | short e n hc =>
      cases hs
      have hall : ∀ p ∈ shortEscapes, skipEscape (p.1 :: r) = some r := by
        intro p hp
        simp only [shortEscapes, List.mem_cons, List.not_mem_nil, or_false] at hp
        rcases hp with rfl | rfl | rfl | rfl | rfl | rfl | rfl | rfl <;> rfl
      exact hall _ hc
    | unicode n ht =>
      cases hs
      rename_i s
      simp only [List.cons_append, skipEscape]
      rw [if_neg (by decide), if_pos trivial, (hex4_iff _ n r).mpr ⟨s, rfl, ht⟩]
      rfl

theorem anyLetter_cases {s : List Char} (h : AnyLetter s) :
    (∃ c : Char, 0x20 ≤ c.toNat ∧ s = [c] ∧ c ≠ '"' ∧ c ≠ '\\') ∨ ∃ t, t ≠ [] ∧ s = '\\' :: t ∧ AnyLetter ('\\' :: t) := by
  cases h with
  | plain c h1 h2 h3 => exact .inl ⟨c, h1, rfl, h2, h3⟩
  | short e n hc => exact .inr ⟨_, by simp, rfl, .short e n hc⟩
  | unicode n ht => exact .inr ⟨_, by simp, rfl, .unicode n ht⟩

theorem skipString_complete {t : List Char} (h : AnyLetters t) : ∀ (fuel : Nat) (r : List Char), t.length < fuel →
    skipString fuel (t ++ '"' :: r) = some r := by
  induction h with
  | nil =>
    intro fuel r hf
    obtain ⟨f, rfl⟩ : ∃ f, fuel = f + 1 := ⟨fuel - 1, by omega⟩
    simp [skipString]
  | @cons s t hc _ ih =>
    intro fuel r hf
    obtain ⟨f, rfl⟩ : ∃ f, fuel = f + 1 := ⟨fuel - 1, by omega⟩
    rw [List.length_append] at hf
    rcases anyLetter_cases hc with ⟨c, h1, rfl, h2, h3⟩ | ⟨u, hu, rfl, hl⟩
    · simp only [List.length_cons, List.length_nil] at hf
      simp only [List.cons_append, List.nil_append, skipString]
      rw [if_neg h2, if_neg h3, if_neg (by omega), ih f r (by omega)]
    · rw [List.length_cons] at hf
      simp only [List.cons_append, skipString]
      rw [if_neg (by decide), if_pos trivial, List.append_assoc, (skipEscape_iff _ (t ++ '"' :: r)).mpr ⟨u, rfl, hu, hl⟩]
      simp only [Option.bind_eq_bind, Option.bind_some]
      rw [ih f r (by omega)]

theorem skipString_sound : ∀ (fuel : Nat) (s r : List Char), skipString fuel s = some r → ∃ t, s = t ++ '"' :: r ∧ AnyLetters t
  | 0, _, _, h => by cases h
  | _ + 1, [], _, h => by cases h
  | fuel + 1, c :: s, r, h => by
    rw [skipString] at h
    split at h
    · next hc => cases h; subst hc; exact ⟨[], rfl, .nil⟩
    split at h
    · next hc =>
      subst hc
      simp only [Option.bind_eq_bind, Option.bind_eq_some_iff] at h
      obtain ⟨s1, h1, h⟩ := h
      obtain ⟨u, rfl, -, hl⟩ := (skipEscape_iff _ _).mp h1
      obtain ⟨t, rfl, ht⟩ := skipString_sound fuel _ _ h
      exact ⟨('\\' :: u) ++ t, by simp, .cons hl ht⟩
    split at h
    · cases h
    · next h2 h3 h4 =>
      obtain ⟨t, rfl, ht⟩ := skipString_sound fuel _ _ h
      exact ⟨[c] ++ t, rfl, .cons (.plain c (by omega) h2 h3) ht⟩

theorem anyLetters_append {s t : List Char} (hs : AnyLetters s) (ht : AnyLetters t) : AnyLetters (s ++ t) := by
  induction hs with
  | nil => exact ht
  | cons h _ ih => rw [List.append_assoc]; exact .cons h ih

theorem anyLetters_of {t x : List Char} (h : Letters t x) : AnyLetters t := by
  induction h with
  | nil => exact .nil
  | @cons s t c r hc _ ih =>
    refine anyLetters_append ?_ ih
    cases hc with
    | plain c h1 h2 h3 => exact .cons (.plain c h1 h2 h3) .nil
    | short e c hc => exact .cons (.short e _ hc) .nil
    | unicode c ht =>
      have := AnyLetters.cons (.unicode _ ht) .nil
      simpa using this
    | pair c hs ht h1 h2 h3 h4 h5 =>
      have := AnyLetters.cons (.unicode _ hs) (.cons (.unicode _ ht) .nil)
      simpa using this

theorem anyText_of {s : List Char} {x : String} (h : Text s x) : AnyText s := by
  obtain ⟨t, rfl, ht⟩ := h
  exact ⟨t, rfl, anyLetters_of ht⟩

theorem anyNumber_of {finite : List Char → Bool} {s : List Char} {j : Json} (h : Number finite s j) : AnyNumber s := by
  cases h with
  | nat n hd hn => exact ⟨[], s, [], [], by simp, by simp, hd, .inl rfl, .inl rfl⟩
  | neg k hd hk => exact ⟨['-'], _, [], [], by simp, by simp, hd, .inl rfl, .inl rfl⟩
  | @float m d p e hm hd hp he hf h1 h2 => exact ⟨m, d, p, e, by simp, hm, hd, hp, he⟩

theorem skipNumber_complete {s r : List Char} (h : AnyNumber s) (hr : Stops r) : skipNumber (s ++ r) = some r := by
  obtain ⟨m, d, p, e, rfl, hm, hd, hp, he⟩ := h
  have h1 : ∀ c ∈ (e ++ r).head?, c ∉ digitChars ∧ c ≠ '.' := exp_head he fun c hc => ⟨(hr c hc).1, (hr c hc).2.1⟩
  have h2 := readInteger_eq hd (frac_head hp fun c hc => (h1 c hc).1)
  have h3 := readPoint_eq hp h1
  have h4 := readExponent_eq he fun c hc => ⟨(hr c hc).1, (hr c hc).2.2.1, (hr c hc).2.2.2⟩
  obtain ⟨x, d', rfl⟩ : ∃ x d', d = x :: d' := List.exists_cons_of_ne_nil hd.1.1
  have hx : x ≠ '-' := by rintro rfl; exact absurd (hd.1.2 '-' List.mem_cons_self) (by decide)
  simp only [List.mem_cons, List.not_mem_nil, or_false] at hm
  have e1 : (if ((m ++ (x :: d' ++ (p ++ e)) ++ r).head? = some '-') then (m ++ (x :: d' ++ (p ++ e)) ++ r).tail
      else m ++ (x :: d' ++ (p ++ e)) ++ r) = x :: d' ++ (p ++ (e ++ r)) := by
    rcases hm with rfl | rfl
    · simp [hx]
    · simp
  simp only [skipNumber, e1, h2, h3, h4, Option.bind_eq_bind, Option.bind_some]

theorem skipNumber_sound {s r : List Char} (h : skipNumber s = some r) : ∃ t, s = t ++ r ∧ AnyNumber t := by
  have hs : ∃ m s', m ∈ [[], ['-']] ∧ s = m ++ s' ∧ (if s.head? = some '-' then s.tail else s) = s' := by
    by_cases h0 : s.head? = some '-'
    · match s, h0 with
      | c :: s, h0 => cases h0; exact ⟨['-'], s, by simp, rfl, by simp⟩
    · exact ⟨[], s, by simp, rfl, by simp [h0]⟩
  obtain ⟨m, s', hm, rfl, h0⟩ := hs
  simp only [skipNumber, h0, Option.bind_eq_bind, Option.bind_eq_some_iff] at h
  obtain ⟨⟨d, s1⟩, h1, ⟨p, s2⟩, h2, ⟨e, s3⟩, h3, h⟩ := h
  cases h
  obtain ⟨rfl, hd, -⟩ := readInteger_sound h1
  obtain ⟨rfl, hp, -⟩ := readPoint_sound h2
  obtain ⟨rfl, he, -⟩ := readExponent_sound h3
  exact ⟨m ++ (d ++ (p ++ e)), by simp, m, d, p, e, rfl, hm, hd, hp, he⟩

theorem anyNumber_head {s : List Char} (h : AnyNumber s) : ∃ c t, s = c :: t ∧ (c = '-' ∨ c ∈ digitChars) := by
  obtain ⟨m, d, p, e, rfl, hm, hd, hp, he⟩ := h
  obtain ⟨x, d', rfl⟩ : ∃ x d', d = x :: d' := List.exists_cons_of_ne_nil hd.1.1
  simp only [List.mem_cons, List.not_mem_nil, or_false] at hm
  rcases hm with rfl | rfl
  · exact ⟨x, _, rfl, .inr (hd.1.2 x List.mem_cons_self)⟩
  · exact ⟨_, _, rfl, .inl rfl⟩

theorem skipWord_sound {w s r : List Char} (h : skipWord w s = some r) : s = w ++ r := by
  rw [skipWord] at h
  split at h
  · next hp =>
    cases h
    obtain ⟨t, rfl⟩ := List.isPrefixOf_iff_prefix.mp hp
    simp
  · cases h

theorem anyValue_head {s : List Char} (h : AnyValue s) : ∃ c t, s = c :: t ∧ c ∉ [' ', '\t', '\n', '\r'] ∧ c ≠ ']' := by
  cases h with
  | null => exact ⟨'n', ['u', 'l', 'l'], rfl, by decide, by decide⟩
  | true => exact ⟨'t', ['r', 'u', 'e'], rfl, by decide, by decide⟩
  | false => exact ⟨'f', ['a', 'l', 's', 'e'], rfl, by decide, by decide⟩
  | number hn =>
    obtain ⟨c, t, rfl, hc⟩ := anyNumber_head hn
    exact ⟨c, t, rfl, (number_char hc).1, (number_char hc).2.2.2.2.2.2.2⟩
  | text ht => obtain ⟨t, rfl, -⟩ := ht; exact ⟨_, _, rfl, by decide, by decide⟩
  | noElements => exact ⟨_, _, rfl, by decide, by decide⟩
  | elements => exact ⟨_, _, rfl, by decide, by decide⟩
  | noMembers => exact ⟨_, _, rfl, by decide, by decide⟩
  | members => exact ⟨_, _, rfl, by decide, by decide⟩

theorem skipValue_space {w : List Char} (hw : Space w) (fuel : Nat) (s : List Char) : skipValue fuel (w ++ s) = skipValue fuel s := by
  cases fuel with
  | zero => rfl
  | succ n => rw [skipValue, skipValue, skip_append hw]

theorem skipKey_complete {w k w1 : List Char} (hw : Space w) (hk : AnyText k) (hw1 : Space w1) (fuel : Nat) (r : List Char) (hf : k.length ≤ fuel) :
    skipKey fuel (w ++ (k ++ (w1 ++ ':' :: r))) = some r := by
  obtain ⟨t, rfl, ht⟩ := hk
  simp only [List.length_cons, List.length_append, List.length_nil] at hf
  rw [skipKey, skip_append hw, List.cons_append, skip_cons (by decide)]
  simp only [if_true, List.append_assoc, List.cons_append, List.nil_append, skipString_complete ht fuel _ (by omega), Option.bind_eq_bind, Option.bind_some]
  rw [skip_append hw1, skip_cons (by decide)]
  simp

theorem skipKey_sound {fuel : Nat} {s r : List Char} (h : skipKey fuel s = some r) :
    ∃ w k w1, Space w ∧ AnyText k ∧ Space w1 ∧ s = w ++ (k ++ (w1 ++ ':' :: r)) := by
  obtain ⟨w, hw, hs⟩ := skip_split s
  rw [skipKey] at h
  split at h
  · cases h
  · next c t e =>
    rw [e] at hw
    split at h
    · next hc =>
      subst hc
      simp only [Option.bind_eq_bind, Option.bind_eq_some_iff] at h
      obtain ⟨s1, h1, h⟩ := h
      obtain ⟨t1, rfl, ht1⟩ := skipString_sound _ _ _ h1
      obtain ⟨w1, hw1, hs1⟩ := skip_split s1
      split at h
      · cases h
      · next c2 t2 e2 =>
        rw [e2] at hw1
        split at h
        · next hc2 =>
          cases h
          subst hc2
          refine ⟨w, '"' :: (t1 ++ ['"']), w1, hs, ⟨t1, rfl, ht1⟩, hs1, ?_⟩
          rw [hw, hw1]
          simp
        · cases h
    · cases h

theorem anyElements_head {s : List Char} (h : AnyElements s) (r : List Char) : (skip (s ++ r)).head? ≠ some ']' := by
  have go : ∀ {w s u : List Char}, Space w → AnyValue s → (skip (w ++ (s ++ u))).head? ≠ some ']' := by
    intro w s u hw hv
    obtain ⟨c, t, rfl, h1, h2⟩ := anyValue_head hv
    rw [skip_append hw, List.cons_append, skip_cons h1]
    simpa using h2
  cases h with
  | one hw hv hw' => simp only [List.append_assoc]; exact go hw hv
  | cons hw hv hw' ht => simp only [List.append_assoc]; exact go hw hv

theorem anyMembers_head {s : List Char} (h : AnyMembers s) (r : List Char) : (skip (s ++ r)).head? ≠ some '}' := by
  have go : ∀ {w k u : List Char}, Space w → AnyText k → (skip (w ++ (k ++ u))).head? ≠ some '}' := by
    intro w k u hw hk
    obtain ⟨t, rfl, -⟩ := hk
    rw [skip_append hw, List.cons_append, skip_cons (by decide)]
    simp
  cases h with
  | one hw hk => simp only [List.append_assoc]; exact go hw hk
  | cons hw hk => simp only [List.append_assoc]; exact go hw hk

mutual

theorem skipValue_complete {s : List Char} (h : AnyValue s) (fuel : Nat) (r : List Char) (hf : s.length ≤ fuel) (hr : Stops r) :
    skipValue fuel (s ++ r) = some r := by
  match h with
  | .null =>
    obtain ⟨f, rfl⟩ : ∃ f, fuel = f + 1 := ⟨fuel - 1, by simp at hf; omega⟩
    rfl
  | .true =>
    obtain ⟨f, rfl⟩ : ∃ f, fuel = f + 1 := ⟨fuel - 1, by simp at hf; omega⟩
    rfl
  | .false =>
    obtain ⟨f, rfl⟩ : ∃ f, fuel = f + 1 := ⟨fuel - 1, by simp at hf; omega⟩
    rfl
  | .number hn =>
    have hn' := skipNumber_complete hn hr
    obtain ⟨c, t, rfl, hc⟩ := anyNumber_head hn
    rw [List.length_cons] at hf
    obtain ⟨f, rfl⟩ : ∃ f, fuel = f + 1 := ⟨fuel - 1, by omega⟩
    obtain ⟨h1, h2, h3, h4, h5, h6, h7, -⟩ := number_char hc
    rw [skipValue, List.cons_append, skip_cons h1]
    simp only [if_neg h2, if_neg h3, if_neg h4, if_neg h5, if_neg h6, if_neg h7]
    exact hn'
  | .text ht =>
    obtain ⟨t, rfl, ht⟩ := ht
    simp only [List.length_cons, List.length_append, List.length_nil] at hf
    obtain ⟨f, rfl⟩ : ∃ f, fuel = f + 1 := ⟨fuel - 1, by omega⟩
    rw [skipValue, List.cons_append, skip_cons (by decide)]
    simp [skipString_complete ht f r (by omega)]
  | .noElements (w := w) hw =>
    simp only [List.length_cons, List.length_append, List.length_nil] at hf
    obtain ⟨f, rfl⟩ : ∃ f, fuel = f + 1 := ⟨fuel - 1, by omega⟩
    have e : skip (w ++ ']' :: r) = ']' :: r := by rw [skip_append hw, skip_cons (by decide)]
    rw [skipValue, List.cons_append, skip_cons (by decide)]
    simp [e]
  | .elements (s := s) he =>
    simp only [List.length_cons, List.length_append, List.length_nil] at hf
    obtain ⟨f, rfl⟩ : ∃ f, fuel = f + 1 := ⟨fuel - 1, by omega⟩
    have e := anyElements_head he (']' :: r)
    have ih := skipElements_complete he f r (by omega)
    rw [skipValue, List.cons_append, skip_cons (by decide)]
    simp only [List.append_assoc, List.cons_append, List.nil_append]
    simp [e, ih]
  | .noMembers (w := w) hw =>
    simp only [List.length_cons, List.length_append, List.length_nil] at hf
    obtain ⟨f, rfl⟩ : ∃ f, fuel = f + 1 := ⟨fuel - 1, by omega⟩
    have e : skip (w ++ '}' :: r) = '}' :: r := by rw [skip_append hw, skip_cons (by decide)]
    rw [skipValue, List.cons_append, skip_cons (by decide)]
    simp [e]
  | .members (s := s) he =>
    simp only [List.length_cons, List.length_append, List.length_nil] at hf
    obtain ⟨f, rfl⟩ : ∃ f, fuel = f + 1 := ⟨fuel - 1, by omega⟩
    have e := anyMembers_head he ('}' :: r)
    have ih := skipMembers_complete he f r (by omega)
    rw [skipValue, List.cons_append, skip_cons (by decide)]
    simp only [List.append_assoc, List.cons_append, List.nil_append]
    simp [e, ih]

theorem skipElements_complete {s : List Char} (h : AnyElements s) (fuel : Nat) (r : List Char) (hf : s.length + 1 ≤ fuel) :
    skipElements fuel (s ++ ']' :: r) = some r := by
  obtain ⟨f, rfl⟩ : ∃ f, fuel = f + 1 := ⟨fuel - 1, by omega⟩
  match h with
  | .one (w := w) (s := s) (w' := w') hw hv hw' =>
    simp only [List.length_append] at hf
    have ih := skipValue_complete hv f (w' ++ ']' :: r) (by omega) (stops_space hw' (stops_cons (by decide) r))
    simp only [skipElements, List.append_assoc, skipValue_space hw, ih, readSeparator_close (close := ']') (by decide) hw', Option.bind_eq_bind, Option.bind_some]
    rfl
  | .cons (w := w) (s := s) (w' := w') (t := t) hw hv hw' ht =>
    simp only [List.length_append, List.length_cons] at hf
    have ih := skipValue_complete hv f (w' ++ ',' :: (t ++ ']' :: r)) (by omega) (stops_space hw' (stops_cons (by decide) _))
    have ih' := skipElements_complete ht f r (by omega)
    simp only [skipElements, List.append_assoc, List.cons_append, skipValue_space hw, ih, readSeparator_comma hw', Option.bind_eq_bind, Option.bind_some, if_true, ih']

theorem skipMembers_complete {s : List Char} (h : AnyMembers s) (fuel : Nat) (r : List Char) (hf : s.length + 1 ≤ fuel) :
    skipMembers fuel (s ++ '}' :: r) = some r := by
  obtain ⟨f, rfl⟩ : ∃ f, fuel = f + 1 := ⟨fuel - 1, by omega⟩
  match h with
  | .one (w := w) (k := k) (w1 := w1) (w2 := w2) (s := s) (w' := w') hw hk hw1 hw2 hv hw' =>
    simp only [List.length_append, List.length_cons] at hf
    have ih := skipValue_complete hv f (w' ++ '}' :: r) (by omega) (stops_space hw' (stops_cons (by decide) r))
    simp only [skipMembers, List.append_assoc, List.cons_append, skipKey_complete hw hk hw1 f _ (by omega), Option.bind_eq_bind, Option.bind_some,
      skipValue_space hw2, ih, readSeparator_close (close := '}') (by decide) hw']
    rfl
  | .cons (w := w) (k := k) (w1 := w1) (w2 := w2) (s := s) (w' := w') (t := t) hw hk hw1 hw2 hv hw' ht =>
    simp only [List.length_append, List.length_cons] at hf
    have ih := skipValue_complete hv f (w' ++ ',' :: (t ++ '}' :: r)) (by omega) (stops_space hw' (stops_cons (by decide) _))
    have ih' := skipMembers_complete ht f r (by omega)
    simp only [skipMembers, List.append_assoc, List.cons_append, skipKey_complete hw hk hw1 f _ (by omega), Option.bind_eq_bind, Option.bind_some,
      skipValue_space hw2, ih, readSeparator_comma hw', if_true, ih']

end

mutual

theorem skipValue_sound : ∀ (fuel : Nat) (s r : List Char), skipValue fuel s = some r → ∃ w t, Space w ∧ s = w ++ (t ++ r) ∧ AnyValue t
  | 0, _, _, h => by cases h
  | fuel + 1, s, r, h => by
    obtain ⟨w, hw, hs⟩ := skip_split s
    rw [skipValue] at h
    split at h
    · cases h
    next c t e =>
    rw [e] at hw
    subst hw
    split at h
    · next hc =>
      subst hc
      obtain rfl := skipWord_sound h
      exact ⟨w, ['n', 'u', 'l', 'l'], hs, rfl, .null⟩
    split at h
    · next hc =>
      subst hc
      obtain rfl := skipWord_sound h
      exact ⟨w, ['t', 'r', 'u', 'e'], hs, rfl, .true⟩
    split at h
    · next hc =>
      subst hc
      obtain rfl := skipWord_sound h
      exact ⟨w, ['f', 'a', 'l', 's', 'e'], hs, rfl, .false⟩
    split at h
    · next hc =>
      subst hc
      obtain ⟨t1, rfl, ht1⟩ := skipString_sound _ _ _ h
      exact ⟨w, '"' :: (t1 ++ ['"']), hs, by simp, .text ⟨t1, rfl, ht1⟩⟩
    split at h
    · next hc =>
      subst hc
      obtain ⟨w1, hw1, hs1⟩ := skip_split t
      split at h
      · next hb =>
        cases h
        refine ⟨w, '[' :: (w1 ++ [']']), hs, ?_, .noElements hs1⟩
        conv => lhs; rw [hw1, head_tail hb]
        simp
      · obtain ⟨t1, rfl, ht⟩ := skipElements_sound fuel _ _ h
        exact ⟨w, '[' :: (t1 ++ [']']), hs, by simp, .elements ht⟩
    split at h
    · next hc =>
      subst hc
      obtain ⟨w1, hw1, hs1⟩ := skip_split t
      split at h
      · next hb =>
        cases h
        refine ⟨w, '{' :: (w1 ++ ['}']), hs, ?_, .noMembers hs1⟩
        conv => lhs; rw [hw1, head_tail hb]
        simp
      · obtain ⟨t1, rfl, ht⟩ := skipMembers_sound fuel _ _ h
        exact ⟨w, '{' :: (t1 ++ ['}']), hs, by simp, .members ht⟩
    · obtain ⟨t1, h1, h2⟩ := skipNumber_sound h
      exact ⟨w, t1, hs, by rw [h1], .number h2⟩

theorem skipElements_sound : ∀ (fuel : Nat) (s r : List Char), skipElements fuel s = some r → ∃ t, s = t ++ ']' :: r ∧ AnyElements t
  | 0, _, _, h => by cases h
  | fuel + 1, s, r, h => by
    simp only [skipElements, Option.bind_eq_bind, Option.bind_eq_some_iff] at h
    obtain ⟨s1, h1, ⟨b, s2⟩, h2, h⟩ := h
    obtain ⟨w, t, hw, rfl, ht⟩ := skipValue_sound fuel _ _ h1
    obtain ⟨w', hw', h3⟩ := readSeparator_sound h2
    rcases h3 with ⟨rfl, rfl⟩ | ⟨rfl, rfl⟩
    · simp only [if_true] at h
      obtain ⟨t', rfl, ht'⟩ := skipElements_sound fuel _ _ h
      exact ⟨w ++ (t ++ (w' ++ ',' :: t')), by simp, .cons hw ht hw' ht'⟩
    · cases h
      exact ⟨w ++ (t ++ w'), by simp, .one hw ht hw'⟩

theorem skipMembers_sound : ∀ (fuel : Nat) (s r : List Char), skipMembers fuel s = some r → ∃ t, s = t ++ '}' :: r ∧ AnyMembers t
  | 0, _, _, h => by cases h
  | fuel + 1, s, r, h => by
    simp only [skipMembers, Option.bind_eq_bind, Option.bind_eq_some_iff] at h
    obtain ⟨s0, h0, s1, h1, ⟨b, s2⟩, h2, h⟩ := h
    obtain ⟨w0, k, w1, hw0, hk, hw1, rfl⟩ := skipKey_sound h0
    obtain ⟨w, t, hw, rfl, ht⟩ := skipValue_sound fuel _ _ h1
    obtain ⟨w', hw', h3⟩ := readSeparator_sound h2
    rcases h3 with ⟨rfl, rfl⟩ | ⟨rfl, rfl⟩
    · simp only [if_true] at h
      obtain ⟨t', rfl, ht'⟩ := skipMembers_sound fuel _ _ h
      exact ⟨w0 ++ (k ++ (w1 ++ ':' :: (w ++ (t ++ (w' ++ ',' :: t'))))), by simp, .cons hw0 hk hw1 hw ht hw' ht'⟩
    · cases h
      exact ⟨w0 ++ (k ++ (w1 ++ ':' :: (w ++ (t ++ w')))), by simp, .one hw0 hk hw1 hw ht hw'⟩

end

mutual

/-- What can be read can be skipped. -/
theorem anyValue_of {finite : List Char → Bool} {s : List Char} {j : Json} (h : Value finite s j) : AnyValue s := by
  match h with
  | .null => exact .null
  | .true => exact .true
  | .false => exact .false
  | .number h => exact .number (anyNumber_of h)
  | .text h => exact .text (anyText_of h)
  | .noElements h => exact .noElements h
  | .elements h => exact .elements (anyElements_of h)
  | .noMembers h => exact .noMembers h
  | .members h => exact .members (anyMembers_of h)

theorem anyElements_of {finite : List Char → Bool} {s : List Char} {l : List Json} (h : Elements finite s l) : AnyElements s := by
  match h with
  | .one hw h hw' => exact .one hw (anyValue_of h) hw'
  | .cons hw h hw' ht => exact .cons hw (anyValue_of h) hw' (anyElements_of ht)

theorem anyMembers_of {finite : List Char → Bool} {s : List Char} {m : List (String × Json)} (h : Members finite s m) : AnyMembers s := by
  match h with
  | .one hw hk hw1 hw2 h hw' => exact .one hw (anyText_of hk) hw1 hw2 (anyValue_of h) hw'
  | .cons hw hk hw1 hw2 h hw' ht => exact .cons hw (anyText_of hk) hw1 hw2 (anyValue_of h) hw' (anyMembers_of ht)

end

mutual

/-- What can be read with blanks can be skipped. -/
theorem anyValue_blank {finite : List Char → Bool} {s : List Char} {j : Json → Json} (h : Grammar.Blank finite s j) : AnyValue s := by
  match h with
  | .value h => exact anyValue_of h
  | .elements h => exact .elements (anyElements_blank h)
  | .members h => exact .members (anyMembers_blank h)

theorem anyElements_blank {finite : List Char → Bool} {s : List Char} {l : Json → List Json} (h : BlankElements finite s l) : AnyElements s := by
  match h with
  | .one hw h hw' => exact .one hw (anyValue_blank h) hw'
  | .cons hw h hw' ht => exact .cons hw (anyValue_blank h) hw' (anyElements_blank ht)

theorem anyMembers_blank {finite : List Char → Bool} {s : List Char} {m : Json → List (String × Json)} (h : BlankMembers finite s m) : AnyMembers s := by
  match h with
  | .one hw hk hw1 hw2 h hw' => exact .one hw (anyText_of hk) hw1 hw2 (anyValue_blank h) hw'
  | .cons hw hk hw1 hw2 h hw' ht => exact .cons hw (anyText_of hk) hw1 hw2 (anyValue_blank h) hw' (anyMembers_blank ht)
  | .blankOne hw hk hw1 hw2 h hw' => exact .one hw (anyText_of hk) hw1 hw2 h hw'
  | .blankCons hw hk hw1 hw2 h hw' ht => exact .cons hw (anyText_of hk) hw1 hw2 h hw' (anyMembers_blank ht)

end

end Verif.Json
