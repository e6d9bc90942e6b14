import Verif.Spec.Signing
import Verif.Lemmas.Bytes

/-!
# Lemmas on mnemonics
-/

namespace Verif

open Spec

theorem natBits_length (w x : Nat) : (natBits w x).length = w := by
  induction w with
  | zero => rfl
  | succ w ih => simp [natBits, ih]

theorem bitsNat_lt (bs : List Bool) : bitsNat bs < 2 ^ bs.length := by
  induction bs with
  | nil => simp [bitsNat]
  | cons b bs ih =>
    simp only [bitsNat, List.length_cons, Nat.pow_succ]
    cases b <;> simp <;> omega

theorem bitsNat_append (a b : List Bool) : bitsNat (a ++ b) = bitsNat a * 2 ^ b.length + bitsNat b := by
  induction a with
  | nil => simp [bitsNat]
  | cons c a ih =>
    simp only [List.cons_append, bitsNat, ih, List.length_append, Nat.pow_add, Nat.add_mul, Nat.mul_assoc, Nat.add_assoc]

theorem bitsNat_natBits (w x : Nat) : bitsNat (natBits w x) = x % 2 ^ w := by
  induction w with
  | zero => simp [natBits, bitsNat, Nat.mod_one]
  | succ w ih =>
    simp only [natBits, bitsNat, natBits_length, ih]
    rw [Nat.mod_pow_succ, Nat.toNat_testBit, Nat.add_comm, Nat.mul_comm]

theorem bitsNat_inj {a b : List Bool} (h : a.length = b.length) (e : bitsNat a = bitsNat b) : a = b := by
  induction a generalizing b with
  | nil => cases b with
    | nil => rfl
    | cons _ _ => simp at h
  | cons x a ih =>
    cases b with
    | nil => simp at h
    | cons y b =>
      simp only [List.length_cons, Nat.add_right_cancel_iff] at h
      simp only [bitsNat, h] at e
      have ha := bitsNat_lt a
      have hb := bitsNat_lt b
      rw [h] at ha
      cases x <;> cases y <;> simp at e <;> first | (exfalso; omega) | (rw [ih h (by omega)])

theorem natBits_bitsNat (bs : List Bool) : natBits bs.length (bitsNat bs) = bs := by
  apply bitsNat_inj (natBits_length _ _)
  rw [bitsNat_natBits, Nat.mod_eq_of_lt (bitsNat_lt bs)]

theorem byteBits_length (e : List UInt8) : (byteBits e).length = 8 * e.length := by
  induction e with
  | nil => rfl
  | cons b e ih =>
    have : byteBits (b :: e) = natBits 8 b.toNat ++ byteBits e := rfl
    rw [this, List.length_append, natBits_length, ih, List.length_cons]; omega

theorem flat_length (w : Nat) (is : List Nat) : (is.flatMap (natBits w)).length = w * is.length := by
  induction is with
  | nil => rfl
  | cons b e ih => rw [List.flatMap_cons, List.length_append, natBits_length, ih, List.length_cons, Nat.mul_succ]; omega

theorem bitsNat_flat (w : Nat) (is : List Nat) (h : ∀ i ∈ is, i < 2 ^ w) (a : Nat) :
    a * 2 ^ (w * is.length) + bitsNat (is.flatMap (natBits w)) = is.foldl (fun a i => a * 2 ^ w + i) a := by
  induction is generalizing a with
  | nil => simp [bitsNat]
  | cons i is ih =>
    rw [List.foldl_cons, ← ih (fun j hj => h j (List.mem_cons_of_mem _ hj)), List.flatMap_cons, bitsNat_append, bitsNat_natBits,
      Nat.mod_eq_of_lt (h i List.mem_cons_self), flat_length, List.length_cons, Nat.mul_succ, Nat.pow_add, Nat.add_mul]
    rw [Nat.mul_comm (2 ^ _) (2 ^ w), Nat.mul_assoc, Nat.add_assoc]

theorem base2048_eq (is : List Nat) (h : ∀ i ∈ is, i < 2048) : bitsNat (is.flatMap (natBits 11)) = base2048 is := by
  have := bitsNat_flat 11 is h 0
  simpa [base2048] using this

theorem bitsNat_byteBits (e : List UInt8) : bitsNat (byteBits e) = beNat e := by
  have h : byteBits e = (e.map UInt8.toNat).flatMap (natBits 8) := by
    unfold byteBits; rw [List.flatMap_map]
  have := bitsNat_flat 8 (e.map UInt8.toNat) (by
    intro i hi
    obtain ⟨b, _, rfl⟩ := List.mem_map.mp hi
    exact b.toNat_lt) 0
  rw [h]
  rw [Nat.zero_mul, Nat.zero_add, List.foldl_map] at this
  rw [this]
  unfold beNat
  congr 1
  funext a b
  omega

theorem bitsNat_take (bs : List Bool) (k : Nat) : bitsNat (bs.take k) = bitsNat bs / 2 ^ (bs.length - k) := by
  have e := bitsNat_append (bs.take k) (bs.drop k)
  rw [List.take_append_drop, List.length_drop] at e
  have hl := bitsNat_lt (bs.drop k)
  rw [List.length_drop] at hl
  rw [e, Nat.mul_comm, Nat.mul_add_div (Nat.pow_pos (by omega)), Nat.div_eq_of_lt hl, Nat.add_zero]

theorem groups_flat (w : Nat) (is : List Nat) (r : List Bool) : groups w is.length (is.flatMap (natBits w) ++ r) = is.map (natBits w) := by
  induction is with
  | nil => rfl
  | cons i is ih =>
    rw [List.length_cons, groups, List.flatMap_cons, List.append_assoc, List.take_left' (natBits_length _ _), List.drop_left' (natBits_length _ _), ih,
      List.map_cons]

theorem groups_of {w n : Nat} {bs : List Bool} (h : w * n ≤ bs.length) :
    (groups w n bs).length = n ∧ (∀ g ∈ groups w n bs, g.length = w) ∧ (groups w n bs).flatten = bs.take (w * n) := by
  induction n generalizing bs with
  | zero => simp [groups]
  | succ n ih =>
    rw [Nat.mul_succ] at h
    obtain ⟨h1, h2, h3⟩ := @ih (bs.drop w) (by rw [List.length_drop]; omega)
    refine ⟨by simp [groups, h1], ?_, ?_⟩
    · intro g hg
      rcases List.mem_cons.mp hg with rfl | hg
      · rw [List.length_take]; omega
      · exact h2 g hg
    · rw [groups, List.flatten_cons, h3, Nat.mul_succ, Nat.add_comm, List.take_add]

theorem flat_groups {w n : Nat} {bs : List Bool} (h : w * n ≤ bs.length) :
    ((groups w n bs).map bitsNat).flatMap (natBits w) = bs.take (w * n) := by
  obtain ⟨_, h2, h3⟩ := groups_of h
  rw [← h3, List.flatMap_map, List.flatMap_def]
  congr 1
  conv => rhs; rw [← List.map_id (groups w n bs)]
  apply List.map_congr_left
  intro g hg
  have := natBits_bitsNat g
  rw [h2 g hg] at this
  exact this

theorem byteBits_groups {n : Nat} {bs : List Bool} (h : 8 * n ≤ bs.length) :
    byteBits ((groups 8 n bs).map fun g => UInt8.ofNat (bitsNat g)) = bs.take (8 * n) := by
  rw [← flat_groups h, byteBits, List.flatMap_map, List.flatMap_map, List.flatMap_def, List.flatMap_def]
  congr 1
  apply List.map_congr_left
  intro g hg
  have h2 := (groups_of h).2.1 g hg
  have := bitsNat_lt g
  rw [h2] at this
  rw [UInt8.toNat_ofNat', Nat.mod_eq_of_lt this]

theorem byteBits_inj {a b : List UInt8} (h : a.length = b.length) (e : byteBits a = byteBits b) : a = b := by
  have := congrArg bitsNat e
  rw [bitsNat_byteBits, bitsNat_byteBits, beNat_eq, beNat_eq] at this
  rw [← beBytes_beVal a, ← beBytes_beVal b, this, h]

/-- The bits that encode bytes `e`: its own and those of its checksum. -/
def codeBits (sha : List UInt8 → Arr 32) (e : List UInt8) : List Bool := byteBits e ++ (byteBits (sha e).1).take (e.length / 4)

theorem codeBits_length (sha : List UInt8 → Arr 32) (e : List UInt8) (h : e.length ≤ 32) : (codeBits sha e).length = 8 * e.length + e.length / 4 := by
  rw [codeBits, List.length_append, List.length_take, byteBits_length, byteBits_length, (sha e).2]; omega

theorem bitsNat_codeBits (sha : List UInt8 → Arr 32) (e : List UInt8) (h : e.length ≤ 32) :
    bitsNat (codeBits sha e) = beNat e * 2 ^ (e.length / 4) + beNat (sha e).1 / 2 ^ (256 - e.length / 4) := by
  have hl : (byteBits (sha e).1).length = 256 := by rw [byteBits_length, (sha e).2]
  rw [codeBits, bitsNat_append, bitsNat_take _ _, bitsNat_byteBits, bitsNat_byteBits, List.length_take, hl,
    Nat.min_eq_left (by omega)]

theorem encodes_iff (sha : List UInt8 → Arr 32) (is : List Nat) (e : List UInt8) :
    Encodes sha is e ↔ (∀ i ∈ is, i < 2048) ∧ is.length ∈ [12, 15, 18, 21, 24] ∧ 4 * is.length = 3 * e.length ∧
      is.flatMap (natBits 11) = codeBits sha e := by
  unfold Encodes
  constructor
  · rintro ⟨h1, h2, h3, h4⟩
    refine ⟨h1, h2, h3, ?_⟩
    have h5 : e.length ≤ 32 := by simp at h2; omega
    apply bitsNat_inj
    · rw [flat_length, codeBits_length _ _ h5]; omega
    · rw [base2048_eq _ h1, h4, bitsNat_codeBits _ _ h5]
  · rintro ⟨h1, h2, h3, h4⟩
    refine ⟨h1, h2, h3, ?_⟩
    have h5 : e.length ≤ 32 := by simp at h2; omega
    rw [← base2048_eq _ h1, h4, bitsNat_codeBits _ _ h5]

theorem encodes_words {sha : List UInt8 → Arr 32} {is is' : List Nat} {e : List UInt8} (h : Encodes sha is e) (h' : Encodes sha is' e) : is = is' := by
  rw [encodes_iff] at h h'
  obtain ⟨h1, h2, h3, h4⟩ := h
  obtain ⟨h1', h2', h3', h4'⟩ := h'
  have hl : is.length = is'.length := by omega
  have a := groups_flat 11 is []
  have b := groups_flat 11 is' []
  rw [h4] at a
  rw [h4', ← hl, a] at b
  have key : ∀ l : List Nat, (∀ i ∈ l, i < 2048) → (l.map (natBits 11)).map bitsNat = l := by
    intro l hl
    rw [List.map_map]
    conv => rhs; rw [← List.map_id l]
    apply List.map_congr_left
    intro i hi
    simp only [Function.comp_apply, bitsNat_natBits, id]
    exact Nat.mod_eq_of_lt (hl i hi)
  rw [← key is h1, ← key is' h1', b]

theorem encodes_bytes {sha : List UInt8 → Arr 32} {is : List Nat} {e e' : List UInt8} (h : Encodes sha is e) (h' : Encodes sha is e') : e = e' := by
  rw [encodes_iff] at h h'
  obtain ⟨h1, h2, h3, h4⟩ := h
  obtain ⟨_, _, h3', h4'⟩ := h'
  have hl : e.length = e'.length := by omega
  rw [h4] at h4'
  exact byteBits_inj hl (List.append_inj_left h4' (by rw [byteBits_length, byteBits_length, hl]))

theorem entropyWords_iff (L : Lang) (e : List UInt8) (is : List Nat) : entropyWords L e = some is ↔ Encodes L.sha is e := by
  unfold entropyWords
  by_cases hb : e.length * 8 % 32 ≠ 0 ∨ e.length * 8 < 128 ∨ 256 < e.length * 8
  · rw [if_pos hb]
    constructor
    · intro h; cases h
    · rintro ⟨_, h2, h3, _⟩
      simp at h2
      omega
  · rw [if_neg hb]
    have h5 : e.length ≤ 32 := by omega
    have hc := codeBits_length L.sha e h5
    have hw : 11 * (e.length * 3 / 4) = (codeBits L.sha e).length := by omega
    have key : Encodes L.sha ((groups 11 (e.length * 3 / 4) (codeBits L.sha e)).map bitsNat) e := by
      rw [encodes_iff]
      obtain ⟨g1, g2, _⟩ := groups_of (Nat.le_of_eq hw)
      refine ⟨?_, ?_, ?_, ?_⟩
      · intro i hi
        obtain ⟨g, hg, rfl⟩ := List.mem_map.mp hi
        have := bitsNat_lt g
        rwa [g2 g hg] at this
      · rw [List.length_map, g1]; simp; omega
      · rw [List.length_map, g1]; omega
      · rw [flat_groups (Nat.le_of_eq hw), hw, List.take_length]
    constructor
    · intro h
      injection h with h
      rw [← h]; exact key
    · intro h
      rw [encodes_words h key]; rfl

/-! ## Words -/

theorem isWhiteChar_iff (c : Char) : isWhiteChar c = true ↔ White c := by
  unfold isWhiteChar White
  simp only [Bool.or_eq_true, Bool.and_eq_true, decide_eq_true_eq, beq_iff_eq, List.mem_cons, List.not_mem_nil, or_false]
  omega

theorem splitWhite_acc {acc : List Char} (hacc : acc ≠ []) (ha : ∀ c ∈ acc, ¬ White c) (s : List Char) :
    ∃ w r, s = w ++ r ∧ (∀ c ∈ w, ¬ White c) ∧ (∀ c, r.head? = some c → White c) ∧ splitWhite acc s = (acc ++ w) :: splitWhite [] r := by
  induction s generalizing acc with
  | nil => exact ⟨[], [], by simp, by simp, by simp, by simp [splitWhite, hacc]⟩
  | cons c cs ih =>
    by_cases hc : White c
    · refine ⟨[], c :: cs, rfl, by simp, by simpa using hc, ?_⟩
      have := (isWhiteChar_iff c).mpr hc
      simp [splitWhite, this, hacc]
    · obtain ⟨w, r, e, h1, h2, h3⟩ := @ih (acc ++ [c]) (by simp) (by
        intro d hd
        rcases List.mem_append.mp hd with hd | hd
        · exact ha d hd
        · rw [List.mem_singleton.mp hd]; exact hc)
      refine ⟨c :: w, r, by rw [e]; rfl, ?_, h2, ?_⟩
      · intro d hd
        rcases List.mem_cons.mp hd with rfl | hd
        · exact hc
        · exact h1 d hd
      · have : isWhiteChar c = false := by
          rw [Bool.eq_false_iff]; exact fun h => hc ((isWhiteChar_iff c).mp h)
        rw [splitWhite, this, if_neg (by simp), h3]
        simp

theorem splitWhite_white {g : List Char} (hg : ∀ c ∈ g, White c) (r : List Char) : splitWhite [] (g ++ r) = splitWhite [] r := by
  induction g with
  | nil => rfl
  | cons c g ih =>
    have := (isWhiteChar_iff c).mpr (hg c List.mem_cons_self)
    rw [List.cons_append, splitWhite, if_pos this, if_pos rfl, ih (fun d hd => hg d (List.mem_cons_of_mem _ hd))]

theorem splitWhite_word {w r : List Char} (hw : ∀ c ∈ w, ¬ White c) (hr : ∀ c, r.head? = some c → White c) {acc : List Char} (h : acc ++ w ≠ []) :
    splitWhite acc (w ++ r) = (acc ++ w) :: splitWhite [] r := by
  induction w generalizing acc with
  | nil =>
    rw [List.append_nil] at h
    cases r with
    | nil => simp [splitWhite, h]
    | cons c r =>
      have := (isWhiteChar_iff c).mpr (hr c rfl)
      simp [splitWhite, this, h]
  | cons c w ih =>
    have : isWhiteChar c = false := by
      rw [Bool.eq_false_iff]; exact fun h => hw c List.mem_cons_self ((isWhiteChar_iff c).mp h)
    rw [List.cons_append, splitWhite, this, if_neg (by simp), ih (fun d hd => hw d (List.mem_cons_of_mem _ hd)) (by simp)]
    simp

theorem splitWhite_of_spaced {ws : List (List Char)} {s : List Char} (h : Spaced ws s) : splitWhite [] s = ws := by
  induction ws generalizing s with
  | nil =>
    have := splitWhite_white h []
    rw [List.append_nil] at this
    rw [this]; rfl
  | cons w ws ih =>
    obtain ⟨g, r, rfl, hg, hne, hw, hr, hs⟩ := h
    rw [List.append_assoc, splitWhite_white hg, splitWhite_word hw hr (by simpa using hne), ih hs, List.nil_append]

theorem spaced_white {ws : List (List Char)} {c : Char} {s : List Char} (hc : White c) (h : Spaced ws s) : Spaced ws (c :: s) := by
  cases ws with
  | nil =>
    intro d hd
    rcases List.mem_cons.mp hd with rfl | hd
    · exact hc
    · exact h d hd
  | cons w ws =>
    obtain ⟨g, r, rfl, hg, hne, hw, hr, hs⟩ := h
    refine ⟨c :: g, r, rfl, ?_, hne, hw, hr, hs⟩
    intro d hd
    rcases List.mem_cons.mp hd with rfl | hd
    · exact hc
    · exact hg d hd

theorem spaced_splitWhite (n : Nat) : ∀ s : List Char, s.length ≤ n → Spaced (splitWhite [] s) s := by
  induction n with
  | zero =>
    intro s hs
    have : s = [] := List.eq_nil_of_length_eq_zero (by omega)
    subst this
    intro c hc; cases hc
  | succ n ih =>
    intro s hs
    cases s with
    | nil => intro c hc; cases hc
    | cons c cs =>
      simp only [List.length_cons] at hs
      by_cases hc : White c
      · have := (isWhiteChar_iff c).mpr hc
        rw [splitWhite, if_pos this, if_pos rfl]
        exact spaced_white hc (ih cs (by omega))
      · have : isWhiteChar c = false := by
          rw [Bool.eq_false_iff]; exact fun h => hc ((isWhiteChar_iff c).mp h)
        rw [splitWhite, this, if_neg (by simp)]
        have hcn : ∀ d ∈ [c], ¬ White d := by intro d hd; rw [List.mem_singleton.mp hd]; exact hc
        obtain ⟨w, r, e, h1, h2, h3⟩ := splitWhite_acc (acc := [c]) (by simp) hcn cs
        rw [List.nil_append, h3]
        refine ⟨[], r, by rw [e]; simp, by simp, by simp, ?_, h2, ih r (by rw [e, List.length_append] at hs; omega)⟩
        intro d hd
        rcases List.mem_append.mp hd with hd | hd
        · exact hcn d hd
        · exact h1 d hd

theorem splitWhite_iff (ws : List (List Char)) (s : List Char) : splitWhite [] s = ws ↔ Spaced ws s :=
  ⟨fun h => h ▸ spaced_splitWhite s.length s (Nat.le_refl _), splitWhite_of_spaced⟩

theorem find_iff (f : Nat → List Char) (n : Nat) (hd : ∀ i j, i < n → j < n → f i = f j → i = j) (w : List Char) (i : Nat) :
    (List.range n).find? (fun j => f j == w) = some i ↔ i < n ∧ f i = w := by
  constructor
  · intro h
    have h1 := List.mem_of_find?_eq_some h
    have h2 := List.find?_some h
    exact ⟨List.mem_range.mp h1, by simpa using h2⟩
  · rintro ⟨hi, rfl⟩
    cases h : List.find? (fun j => f j == f i) (List.range n) with
    | none =>
      have := List.find?_eq_none.mp h i (List.mem_range.mpr hi)
      simp at this
    | some j =>
      have h1 := List.mem_of_find?_eq_some h
      have h2 := List.find?_some h
      rw [hd j i (List.mem_range.mp h1) hi (by simpa using h2)]

theorem findWord_iff {L : Lang} (hL : Wordlist L) (w : List Char) (i : Nat) : findWord L w = some i ↔ i < 2048 ∧ L.word i = w :=
  find_iff L.word 2048 hL.distinct w i

theorem lookups_iff {f : List Char → Option Nat} {g : Nat → List Char} {n : Nat} (hf : ∀ w i, f w = some i ↔ i < n ∧ g i = w) (ws : List (List Char)) (is : List Nat) :
    lookups f ws = some is ↔ (∀ i ∈ is, i < n) ∧ is.map g = ws := by
  induction ws generalizing is with
  | nil =>
    simp only [lookups]
    constructor
    · intro h; injection h with h; subst h; simp
    · rintro ⟨_, h⟩
      rw [List.map_eq_nil_iff.mp h]
  | cons w ws ih =>
    simp only [lookups]
    constructor
    · intro h
      cases h1 : f w with
      | none => rw [h1] at h; cases h
      | some i =>
        rw [h1] at h
        cases h2 : lookups f ws with
        | none => rw [h2] at h; cases h
        | some js =>
          rw [h2] at h
          injection h with h; subst h
          obtain ⟨a, b⟩ := (hf w i).mp h1
          obtain ⟨c, d⟩ := (ih js).mp h2
          refine ⟨?_, by rw [List.map_cons, b, d]⟩
          intro j hj
          rcases List.mem_cons.mp hj with rfl | hj
          · exact a
          · exact c j hj
    · rintro ⟨h1, h2⟩
      cases is with
      | nil => cases h2
      | cons i is =>
        rw [List.map_cons] at h2
        injection h2 with h2 h3
        rw [(hf w i).mpr ⟨h1 i List.mem_cons_self, h2⟩, (ih is).mpr ⟨fun j hj => h1 j (List.mem_cons_of_mem _ hj), h3⟩]

theorem findWords_iff {L : Lang} (hL : Wordlist L) (ws : List (List Char)) (is : List Nat) :
    findWords L ws = some is ↔ (∀ i ∈ is, i < 2048) ∧ is.map L.word = ws := lookups_iff (findWord_iff hL) ws is

theorem parseMnemonic_iff {L : Lang} (hL : Wordlist L) (s : List Char) (e : List UInt8) : parseMnemonic L s = some e ↔ IsPhrase L s e := by
  unfold parseMnemonic IsPhrase
  constructor
  · intro h
    simp only [] at h
    by_cases hn : (splitWhite [] (L.norm s)).length < 12 ∨ (splitWhite [] (L.norm s)).length % 3 ≠ 0 ∨ 24 < (splitWhite [] (L.norm s)).length
    · rw [if_pos hn] at h; cases h
    · rw [if_neg hn] at h
      cases hf : findWords L (splitWhite [] (L.norm s)) with
      | none => rw [hf] at h; cases h
      | some is =>
        rw [hf] at h
        simp only [] at h
        obtain ⟨h1, h2⟩ := (findWords_iff hL _ _).mp hf
        have hl : (splitWhite [] (L.norm s)).length = is.length := by rw [← h2, List.length_map]
        rw [hl] at h hn
        have hfl := flat_length 11 is
        have h8 : 8 * (is.length / 3 * 4) ≤ (is.flatMap (natBits 11)).length := by omega
        split at h
        · rename_i hc
          injection h with h
          refine ⟨is, ?_, (splitWhite_iff _ _).mp h2.symm⟩
          rw [encodes_iff]
          have he : e.length = is.length / 3 * 4 := by
            rw [← h, List.length_map, (groups_of h8).1]
          refine ⟨h1, by simp; omega, by omega, ?_⟩
          have hb := byteBits_groups h8
          rw [h] at hb hc
          rw [codeBits, hb, he, ← hc]
          rw [show is.length / 3 * 4 / 4 = (is.flatMap (natBits 11)).length - 8 * (is.length / 3 * 4) from by omega, ← List.length_drop,
            List.take_length, List.take_append_drop]
        · cases h
  · rintro ⟨is, henc, hs⟩
    have hs := (splitWhite_iff _ _).mpr hs
    rw [encodes_iff] at henc
    obtain ⟨h1, h2, h3, h4⟩ := henc
    simp only [hs, List.length_map]
    rw [if_neg (by simp at h2; omega), (findWords_iff hL _ _).mpr ⟨h1, rfl⟩]
    simp only []
    have he : e.length = is.length / 3 * 4 := by simp at h2; omega
    rw [h4, ← he]
    have h8 : 8 * e.length ≤ (codeBits L.sha e).length := by
      rw [codeBits, List.length_append, byteBits_length]; omega
    have hb := byteBits_groups h8
    have hk : (codeBits L.sha e).take (8 * e.length) = byteBits e := List.take_left' (byteBits_length e)
    rw [hk] at hb
    have := byteBits_inj (by rw [List.length_map, (groups_of h8).1]) hb
    rw [this, if_pos]
    rw [codeBits, List.drop_left' (byteBits_length e), List.take_take, Nat.min_self]

theorem white_space : White ' ' := by unfold White; decide

theorem letter_not_white {c : Char} (h : 'a' ≤ c ∧ c ≤ 'z') : ¬ White c ∧ c.toNat < 128 := by
  have h1 : 97 ≤ c.toNat := h.1
  have h2 : c.toNat ≤ 122 := h.2
  refine ⟨?_, by omega⟩
  unfold White
  simp only [List.mem_cons, List.not_mem_nil, or_false]
  omega

theorem showWords_spaced {L : Lang} (hL : Wordlist L) (is : List Nat) (h : ∀ i ∈ is, i < 2048) :
    Spaced (is.map L.word) (showWords L is) ∧ ∀ c ∈ showWords L is, c.toNat < 128 := by
  induction is with
  | nil =>
    constructor <;> (intro c hc; cases hc)
  | cons i is ih =>
    obtain ⟨hne, hl⟩ := hL.letters i (h i List.mem_cons_self)
    have hih := ih (fun j hj => h j (List.mem_cons_of_mem _ hj))
    cases is with
    | nil =>
      refine ⟨⟨[], [], by simp [showWords], by simp, hne, fun c hc => (letter_not_white (hl c hc)).1, by simp, ?_⟩, fun c hc => ?_⟩
      · intro c hc; cases hc
      · exact (letter_not_white (hl c hc)).2
    | cons j is =>
      refine ⟨⟨[], ' ' :: showWords L (j :: is), by simp [showWords], by simp, hne, fun c hc => (letter_not_white (hl c hc)).1, ?_, ?_⟩, fun c hc => ?_⟩
      · intro c hc
        have : ' ' = c := by simpa using hc
        rw [← this]; exact white_space
      · exact spaced_white white_space hih.1
      · rw [showWords] at hc
        · rcases List.mem_append.mp hc with hc | hc
          · exact (letter_not_white (hl c hc)).2
          · rcases List.mem_cons.mp hc with rfl | hc
            · decide
            · exact hih.2 c hc
        · intro h; cases h

end Verif
