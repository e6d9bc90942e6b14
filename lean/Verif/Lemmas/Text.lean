import Verif.Spec.Text
import Verif.Lemmas.Codec

/-!
# Hex text
-/

namespace Verif

theorem byte_cases {P : UInt8 → Prop} (h : ∀ n : Fin 256, P (UInt8.ofNat n.1)) (c : UInt8) : P c := by
  have := h ⟨c.toNat, c.toNat_lt⟩
  rwa [UInt8.ofNat_toNat] at this

theorem hexVal_iff (c : UInt8) (v : Nat) : IsHexDigit c v ↔ ∃ x, hexVal c = some x ∧ x.toNat = v := by
  have lim : ∀ l : List UInt8, l.length = 16 → ∀ v, l[v]? = some c → v < 16 := by
    intro l hl v h
    have := (List.getElem?_eq_some_iff.mp h).1
    omega
  have h1 : ∀ v < 16, IsHexDigit c v ↔ ∃ x, hexVal c = some x ∧ x.toNat = v := by
    have : ∀ v : Fin 16, ((ascii "0123456789abcdef")[v.1]? = some c ∨
        (ascii "0123456789ABCDEF")[v.1]? = some c) ↔ (hexVal c).map UInt8.toNat = some v.1 :=
      byte_cases (P := fun c => ∀ v : Fin 16, ((ascii "0123456789abcdef")[v.1]? = some c ∨
        (ascii "0123456789ABCDEF")[v.1]? = some c) ↔ (hexVal c).map UInt8.toNat = some v.1) (by decide +kernel) c
    intro v hv
    unfold IsHexDigit
    rw [this ⟨v, hv⟩]
    simp
  have h2 : ∀ x, hexVal c = some x → x.toNat < 16 := by
    have : (hexVal c).all (fun x => x.toNat < 16) = true :=
      byte_cases (P := fun c => (hexVal c).all (fun x => x.toNat < 16) = true) (by decide +kernel) c
    intro x hx
    rw [hx] at this
    simpa using this
  constructor
  · intro h
    exact (h1 v (h.elim (lim _ rfl v) (lim _ rfl v))).mp h
  · rintro ⟨x, hx, rfl⟩
    exact (h1 _ (h2 x hx)).mpr ⟨x, hx, rfl⟩

theorem hexVal_none_iff (c : UInt8) : hexVal c = none ↔ ∀ v, ¬ IsHexDigit c v := by
  constructor
  · intro h v hv
    obtain ⟨x, hx, -⟩ := (hexVal_iff c v).mp hv
    rw [h] at hx
    cases hx
  · intro h
    cases hx : hexVal c with
    | none => rfl
    | some x => exact absurd ((hexVal_iff c _).mpr ⟨x, hx, rfl⟩) (h _)

theorem nibbles (h l : UInt8) (hh : h.toNat < 16) (hl : l.toNat < 16) : (h <<< 4 ||| l).toNat = 16 * h.toNat + l.toNat := by
  have : ∀ a b : Fin 16, (UInt8.ofNat a.1 <<< 4 ||| UInt8.ofNat b.1).toNat = 16 * a.1 + b.1 := by decide +kernel
  have := this ⟨h.toNat, hh⟩ ⟨l.toNat, hl⟩
  rwa [UInt8.ofNat_toNat, UInt8.ofNat_toNat] at this

theorem hexVal_lt {c x : UInt8} (h : hexVal c = some x) : x.toNat < 16 := by
  rcases (hexVal_iff c x.toNat).mpr ⟨x, h, rfl⟩ with h | h <;>
  · have := (List.getElem?_eq_some_iff.mp h).1
    exact this

theorem hexPairs_ok : ∀ (s : List UInt8) (i : Nat) (bs : List UInt8), s.length % 2 = 0 → (hexPairs i s = .ok bs ↔ HexText s bs)
  | [], i, bs, _ => by
    rw [hexPairs]
    · constructor
      · intro h; cases h; exact .nil
      · intro h; cases h; rfl
    · simp
  | [_], _, _, h => by simp at h
  | hi :: lo :: s, i, bs, h => by
    have ih := hexPairs_ok s (i + 2)
    rw [hexPairs]
    constructor
    · intro he
      cases hh : hexVal hi with
      | none => rw [hh] at he; cases he
      | some x =>
        cases hl : hexVal lo with
        | none => rw [hh, hl] at he; cases he
        | some y =>
          rw [hh, hl] at he
          simp only at he
          cases hr : hexPairs (i + 2) s with
          | error e => rw [hr] at he; cases he
          | ok r =>
            rw [hr] at he
            cases he
            exact .cons _ _ _ x.toNat y.toNat _ _ ((hexVal_iff _ _).mpr ⟨x, hh, rfl⟩) ((hexVal_iff _ _).mpr ⟨y, hl, rfl⟩)
              (nibbles x y (hexVal_lt hh) (hexVal_lt hl)) ((ih r (by simp at h; omega)).mp hr)
    · intro ht
      cases ht with
      | cons _ _ b x y _ r hx hy hb ht =>
        obtain ⟨x', h1, rfl⟩ := (hexVal_iff _ _).mp hx
        obtain ⟨y', h2, rfl⟩ := (hexVal_iff _ _).mp hy
        rw [h1, h2, (ih r (by simp at h; omega)).mpr ht]
        simp only [Except.ok.injEq, List.cons.injEq, and_true]
        exact UInt8.toNat_inj.mp (by rw [nibbles _ _ (hexVal_lt h1) (hexVal_lt h2), hb])

theorem hexPairs_error : ∀ (s : List UInt8) (i : Nat) (e : HexErr), s.length % 2 = 0 →
    (hexPairs i s = .error e ↔ ∃ c j, e = .invalidChar c (i + j) ∧ FirstBad s c j)
  | [], i, e, _ => by
    rw [hexPairs]
    · constructor
      · intro h; cases h
      · rintro ⟨c, j, -, h, -⟩; cases h
    · simp
  | [_], _, _, h => by simp at h
  | hi :: lo :: s, i, e, h => by
    have ih := hexPairs_error s (i + 2)
    rw [hexPairs]
    cases hh : hexVal hi with
    | none =>
      have hbad := (hexVal_none_iff hi).mp hh
      constructor
      · intro he
        cases he
        exact ⟨hi, 0, rfl, rfl, hbad, fun j hj => absurd hj (by omega)⟩
      · rintro ⟨c, j, rfl, h1, h2, h3⟩
        cases j with
        | zero => cases h1; rfl
        | succ j =>
          obtain ⟨v, hv⟩ := h3 0 (by omega) hi rfl
          exact absurd hv (hbad v)
    | some x =>
      have hx := (hexVal_iff hi _).mpr ⟨x, hh, rfl⟩
      cases hl : hexVal lo with
      | none =>
        have hbad := (hexVal_none_iff lo).mp hl
        constructor
        · intro he
          cases he
          refine ⟨lo, 1, rfl, rfl, hbad, fun j hj d hd => ?_⟩
          have : j = 0 := by omega
          subst this
          cases hd
          exact ⟨_, hx⟩
        · rintro ⟨c, j, rfl, h1, h2, h3⟩
          match j with
          | 0 => cases h1; exact absurd hx (h2 _)
          | 1 => cases h1; rfl
          | j + 2 =>
            obtain ⟨v, hv⟩ := h3 1 (by omega) lo rfl
            exact absurd hv (hbad v)
      | some y =>
        have hy := (hexVal_iff lo _).mpr ⟨y, hl, rfl⟩
        have ih := ih e (by simp at h; omega)
        simp only
        refine Iff.trans (b := hexPairs (i + 2) s = .error e) ?_ (ih.trans ?_)
        · cases hexPairs (i + 2) s <;> simp
        constructor
        · rintro ⟨c, j, rfl, h1, h2, h3⟩
          refine ⟨c, j + 2, by congr 1; omega, h1, h2, fun k hk d hd => ?_⟩
          match k, hk, hd with
          | 0, _, hd => cases hd; exact ⟨_, hx⟩
          | 1, _, hd => cases hd; exact ⟨_, hy⟩
          | k + 2, hk, hd => exact h3 k (by omega) d hd
        · rintro ⟨c, j, rfl, h1, h2, h3⟩
          match j, h1, h3 with
          | 0, h1, _ => cases h1; exact absurd hx (h2 _)
          | 1, h1, _ => cases h1; exact absurd hy (h2 _)
          | j + 2, h1, h3 => exact ⟨c, j, by congr 1; omega, h1, h2, fun k hk d hd => h3 (k + 2) (by omega) d hd⟩

theorem HexText.length {s bs : List UInt8} (h : HexText s bs) : s.length = 2 * bs.length := by
  induction h with
  | nil => rfl
  | cons => simp_all; omega

theorem hexDecode_ok (s bs : List UInt8) : hexDecode s = .ok bs ↔ HexText s bs := by
  unfold hexDecode
  by_cases h : s.length % 2 = 0
  · rw [if_neg (by simpa using h), hexPairs_ok s 0 bs h]
  · rw [if_pos h]
    exact ⟨nofun, fun ht => absurd ht.length (by omega)⟩

theorem hexDecode_error (s : List UInt8) (e : HexErr) : hexDecode s = .error e ↔
    (s.length % 2 = 1 ∧ e = .oddLength) ∨ (s.length % 2 = 0 ∧ ∃ c j, e = .invalidChar c j ∧ FirstBad s c j) := by
  unfold hexDecode
  by_cases h : s.length % 2 = 0
  · rw [if_neg (by simpa using h), hexPairs_error s 0 e h]
    simp [h]
  · rw [if_pos h]
    have : s.length % 2 = 1 := by omega
    simp [this, eq_comm]

theorem hexDecodeTo_ok (n : Nat) (s bs : List UInt8) : hexDecodeTo n s = .ok bs ↔ HexText s bs ∧ bs.length = n := by
  unfold hexDecodeTo
  by_cases h : s.length % 2 = 0
  · rw [if_neg (by simpa using h)]
    by_cases h' : s.length / 2 = n
    · rw [if_neg (by simpa using h'), hexPairs_ok s 0 bs h]
      exact ⟨fun ht => ⟨ht, by have := ht.length; omega⟩, fun ht => ht.1⟩
    · rw [if_pos h']
      exact ⟨nofun, fun ht => absurd ht.1.length (by omega)⟩
  · rw [if_pos h]
    exact ⟨nofun, fun ht => absurd ht.1.length (by omega)⟩

theorem hexDecodeTo_error {n : Nat} {s : List UInt8} (hl : s.length = 2 * n) (e : HexErr) :
    hexDecodeTo n s = .error e ↔ ∃ c j, e = .invalidChar c j ∧ FirstBad s c j := by
  unfold hexDecodeTo
  rw [if_neg (by omega), if_neg (by omega), hexPairs_error s 0 e (by omega)]
  simp

theorem hexDigit_spec (b : UInt8) : IsHexDigit (hexDigit (b >>> 4)) (b >>> 4).toNat ∧
    IsHexDigit (hexDigit (b &&& 15)) (b &&& 15).toNat ∧ b.toNat = 16 * (b >>> 4).toNat + (b &&& 15).toNat ∧
    hexDigit (b >>> 4) ∈ ascii "0123456789abcdef" ∧ hexDigit (b &&& 15) ∈ ascii "0123456789abcdef" := by
  refine byte_cases (P := fun b => IsHexDigit (hexDigit (b >>> 4)) (b >>> 4).toNat ∧
    IsHexDigit (hexDigit (b &&& 15)) (b &&& 15).toNat ∧ b.toNat = 16 * (b >>> 4).toNat + (b &&& 15).toNat ∧
    hexDigit (b >>> 4) ∈ ascii "0123456789abcdef" ∧ hexDigit (b &&& 15) ∈ ascii "0123456789abcdef") ?_ b
  unfold IsHexDigit
  decide +kernel

theorem hexEncode_text (bs : List UInt8) : HexText (hexEncode bs) bs ∧ LowerCase (hexEncode bs) := by
  induction bs with
  | nil => exact ⟨.nil, by simp [LowerCase, hexEncode]⟩
  | cons b bs ih =>
    obtain ⟨h1, h2, h3, h4, h5⟩ := hexDigit_spec b
    have e : hexEncode (b :: bs) = hexDigit (b >>> 4) :: hexDigit (b &&& 15) :: hexEncode bs := rfl
    rw [e]
    refine ⟨.cons _ _ _ _ _ _ _ h1 h2 h3 ih.1, ?_⟩
    intro c hc
    rcases List.mem_cons.mp hc with rfl | hc
    · exact h4
    · rcases List.mem_cons.mp hc with rfl | hc
      · exact h5
      · exact ih.2 c hc

theorem HexText.append {s t a b : List UInt8} (h : HexText s a) (h' : HexText t b) : HexText (s ++ t) (a ++ b) := by
  induction h with
  | nil => exact h'
  | cons c d x v w s bs h1 h2 h3 _ ih => exact .cons _ _ _ _ _ _ _ h1 h2 h3 ih

theorem isHexDigit_colon (v : Nat) : ¬ IsHexDigit 58 v :=
  (hexVal_none_iff 58).mp (by decide) v

theorem HexText.noColon {s bs : List UInt8} (h : HexText s bs) : (58 : UInt8) ∉ s := by
  induction h with
  | nil => simp
  | cons c d b x y s bs h1 h2 _ _ ih =>
    intro hm
    rcases List.mem_cons.mp hm with rfl | hm
    · exact isHexDigit_colon _ h1
    · rcases List.mem_cons.mp hm with rfl | hm
      · exact isHexDigit_colon _ h2
      · exact ih hm

theorem splitColon_some (s a b : List UInt8) : splitColon s = some (a, b) ↔ (58 : UInt8) ∉ a ∧ s = a ++ [58] ++ b := by
  induction s generalizing a with
  | nil =>
    rw [splitColon]
    constructor
    · intro h; cases h
    · rintro ⟨-, h⟩
      have := congrArg List.length h
      simp at this
  | cons c s ih =>
    rw [splitColon]
    by_cases hc : c = 58
    · subst hc
      rw [if_pos rfl]
      constructor
      · intro h; cases h; exact ⟨by simp, rfl⟩
      · rintro ⟨h1, h2⟩
        cases a with
        | nil => cases h2; rfl
        | cons x a => cases h2; simp at h1
    · rw [if_neg hc]
      cases hs : splitColon s with
      | none =>
        constructor
        · intro h; cases h
        · rintro ⟨h1, h2⟩
          cases a with
          | nil => cases h2; exact absurd rfl hc
          | cons x a =>
            cases h2
            have := (ih a).mpr ⟨fun h => h1 (List.mem_cons_of_mem _ h), rfl⟩
            rw [hs] at this
            cases this
      | some p =>
        obtain ⟨a', b'⟩ := p
        constructor
        · intro h
          cases h
          obtain ⟨h1, h2⟩ := (ih a').mp hs
          refine ⟨?_, by rw [h2]; rfl⟩
          intro h
          rcases List.mem_cons.mp h with h | h
          · exact hc h.symm
          · exact h1 h
        · rintro ⟨h1, h2⟩
          cases a with
          | nil => cases h2; exact absurd rfl hc
          | cons x a =>
            cases h2
            have := (ih a).mpr ⟨fun h => h1 (List.mem_cons_of_mem _ h), rfl⟩
            rw [hs] at this
            cases this
            rfl

theorem splitColon_none (s : List UInt8) : splitColon s = none ↔ (58 : UInt8) ∉ s := by
  induction s with
  | nil => simp [splitColon]
  | cons c s ih =>
    rw [splitColon]
    by_cases hc : c = 58
    · subst hc; simp
    · rw [if_neg hc]
      cases hs : splitColon s with
      | none => simp [ih.mp hs, Ne.symm hc]
      | some p =>
        have : ¬ (58 : UInt8) ∉ s := fun h => by rw [ih.mpr h] at hs; cases hs
        simp only [Decidable.not_not] at this
        simp [this]

theorem afterColon_unique {s t t' : List UInt8} (h : AfterColon s t) (h' : AfterColon s t') : t = t' := by
  rcases h with ⟨a, h1, h2⟩ | ⟨h1, h2⟩ <;> rcases h' with ⟨a', h1', h2'⟩ | ⟨h1', h2'⟩
  · have := ((splitColon_some s a t).mpr ⟨h1, h2⟩).symm.trans ((splitColon_some s a' t').mpr ⟨h1', h2'⟩)
    cases this
    rfl
  · exact absurd (by rw [h2]; simp) h1'
  · exact absurd (by rw [h2']; simp) h1
  · rw [h2, h2']

theorem afterColon_exists (s : List UInt8) :
    AfterColon s (match splitColon s with | some (_, suffix) => suffix | none => s) := by
  cases h : splitColon s with
  | none => exact .inr ⟨(splitColon_none s).mp h, rfl⟩
  | some p =>
    obtain ⟨a, b⟩ := p
    exact .inl ⟨a, (splitColon_some s a b).mp h⟩

theorem toArr_eq {n : Nat} {bs : List UInt8} (h : bs.length = n) : toArr n bs = ⟨bs, h⟩ := by rw [toArr, dif_pos h]

theorem toArr_iff {n : Nat} {bs : List UInt8} (h : bs.length = n) (a : Arr n) : toArr n bs = a ↔ bs = a.1 := by
  rw [toArr_eq h]
  exact ⟨fun e => by rw [← e], fun e => Subtype.ext e⟩

end Verif

namespace Verif

theorem isText_iff (s : List UInt8) : IsText s ↔ ∃ t, strOfBytes s = some t :=
  ⟨fun ⟨t, h⟩ => ⟨t, by rw [← h, strOfBytes_strBytes]⟩, fun ⟨t, h⟩ => ⟨t, strBytes_of_strOfBytes h⟩⟩

theorem specifierOf_padded (s : List UInt8) : Padded s (specifierOf s) := by
  intro i hi
  simp only [specifierOf]
  rw [List.getElem?_append, List.length_take]
  by_cases h : i < s.length
  · rw [if_pos (by omega), List.getElem?_take, if_pos hi, List.getElem?_eq_getElem h]; rfl
  · rw [if_neg (by omega), List.getElem?_replicate, if_pos (by omega), List.getElem?_eq_none (by omega)]; rfl

theorem padded_unique {s : List UInt8} {x y : Specifier} (h : Padded s x) (h' : Padded s y) : x = y := by
  apply Subtype.ext
  apply List.ext_getElem?
  intro i
  by_cases hi : i < 16
  · rw [h i hi, h' i hi]
  · rw [List.getElem?_eq_none (by rw [x.2]; omega), List.getElem?_eq_none (by rw [y.2]; omega)]

/-- The place where `Display` of a specifier cuts. -/
theorem trim_zeros : ∀ l : List UInt8, ∃ t, t.getLast? ≠ some 0 ∧ l = t ++ List.replicate (l.length - t.length) 0 ∧
    (match zerosAtEnd l with | none => 0 | some pos => l.length - pos) = t.length := by
  intro l
  unfold zerosAtEnd
  generalize hr : l.reverse = r
  have hl : l = r.reverse := by rw [← hr, List.reverse_reverse]
  subst hl
  clear hr
  induction r with
  | nil => exact ⟨[], by simp, rfl, rfl⟩
  | cons c r ih =>
    by_cases hc : c = 0
    · subst hc
      obtain ⟨t, h1, h2, h3⟩ := ih
      refine ⟨t, h1, ?_, ?_⟩
      · have hle : t.length ≤ r.length := by
          have := congrArg List.length h2
          simp at this; omega
        have e : (0 :: r).reverse.length - t.length = (r.reverse.length - t.length) + 1 := by simp; omega
        rw [e, List.replicate_succ', ← List.append_assoc, ← h2, List.reverse_cons]
      · rw [List.findIdx?_cons]
        simp only [ne_eq, not_true_eq_false, decide_false, Bool.false_eq_true, if_false]
        revert h3
        cases r.findIdx? (· ≠ 0) with
        | none => simp
        | some p => simp
    · refine ⟨(c :: r).reverse, by simp [hc], by simp, ?_⟩
      rw [List.findIdx?_cons]
      simp [hc]

theorem getLast_append_zeros {t : List UInt8} {k : Nat} (hk : 0 < k) : (t ++ List.replicate k 0).getLast? = some (0 : UInt8) := by
  obtain ⟨k, rfl⟩ : ∃ j, k = j + 1 := ⟨k - 1, by omega⟩
  rw [List.replicate_succ', ← List.append_assoc]
  simp

theorem names_unique {t t' : List UInt8} {x : Specifier} (h : Names t x) (h' : Names t' x) : t = t' := by
  have key : ∀ {t t' : List UInt8}, Names t x → Names t' x → t.length ≤ t'.length → t = t' := by
    intro t t' h h' hle
    have e := h.2.symm.trans h'.2
    have l1 : t.length ≤ 16 := by have := congrArg List.length h.2; rw [x.2] at this; simp at this; omega
    have l2 : t'.length ≤ 16 := by have := congrArg List.length h'.2; rw [x.2] at this; simp at this; omega
    by_cases hlt : t.length = t'.length
    · exact (List.append_inj e hlt).1
    · exfalso
      apply h'.1
      have e2 : t' = t ++ List.replicate (t'.length - t.length) 0 := by
        have := congrArg (List.take t'.length) e
        rw [List.take_left, List.take_append, List.take_of_length_le (by omega), List.take_replicate,
          Nat.min_eq_left (by omega)] at this
        exact this.symm
      rw [e2]
      exact getLast_append_zeros (by omega)
  rcases Nat.le_total t.length t'.length with h1 | h1
  · exact key h h' h1
  · exact (key h' h h1).symm

theorem showSpecifier_names (x : Specifier) : ∃ t, Names t x ∧
    showSpecifier x = (match strOfBytes t with | none => none | some _ => some t) := by
  obtain ⟨t, h1, h2, h3⟩ := trim_zeros x.1
  rw [x.2] at h2 h3
  refine ⟨t, ⟨h1, h2⟩, ?_⟩
  have e : x.1.take t.length = t := by rw [h2, List.take_left]
  have key : ∀ n, n = t.length → (match strOfBytes (x.1.take n) with | none => none | some _ => some (x.1.take n)) =
      (match strOfBytes t with | none => none | some _ => some t) := by
    rintro n rfl
    rw [e]
  exact key _ h3

theorem showSpecifier_some (x : Specifier) (t : List UInt8) : showSpecifier x = some t ↔ IsText t ∧ Names t x := by
  obtain ⟨u, hu, e⟩ := showSpecifier_names x
  rw [e, isText_iff]
  constructor
  · intro h
    cases hs : strOfBytes u with
    | none => rw [hs] at h; cases h
    | some w => rw [hs] at h; cases h; exact ⟨⟨w, hs⟩, hu⟩
  · rintro ⟨⟨w, hw⟩, hn⟩
    cases names_unique hu hn
    rw [hw]

theorem showSpecifier_none (x : Specifier) : showSpecifier x = none ↔ ∃ t, Names t x ∧ ¬ IsText t := by
  obtain ⟨u, hu, e⟩ := showSpecifier_names x
  rw [e]
  constructor
  · intro h
    refine ⟨u, hu, ?_⟩
    rw [isText_iff]
    rintro ⟨w, hw⟩
    rw [hw] at h
    cases h
  · rintro ⟨t, hn, ht⟩
    cases names_unique hu hn
    rw [isText_iff] at ht
    cases hs : strOfBytes u with
    | none => rfl
    | some w => exact absurd ⟨w, hs⟩ ht

theorem names_length {t : List UInt8} {x : Specifier} (h : Names t x) : t.length ≤ 16 := by
  have := congrArg List.length h.2
  rw [x.2] at this
  simp at this
  omega

theorem specifierOf_names {t : List UInt8} {x : Specifier} (h : Names t x) : specifierOf t = x := by
  have hl := names_length h
  apply Subtype.ext
  rw [h.2]
  simp only [specifierOf]
  rw [List.take_of_length_le hl]

/-! ## The macros -/

theorem decodeHexPair_eq (hi lo : UInt8) : decodeHexPair hi lo =
    (match hexVal hi, hexVal lo with | some x, some y => some (x <<< 4 ||| y) | _, _ => none) := rfl

theorem decodeHexLoop_iff (input : List UInt8) : ∀ (k i : Nat) (bs : List UInt8),
    decodeHexLoop input k i = some bs ↔ i + 2 * k ≤ input.length + (if k = 0 then i else 0) ∧ HexText ((input.drop i).take (2 * k)) bs
  | 0, i, bs => by
    rw [decodeHexLoop]
    simp only [Nat.mul_zero, List.take_zero, if_true]
    constructor
    · intro h; cases h; exact ⟨by omega, .nil⟩
    · rintro ⟨-, h⟩; cases h; rfl
  | k + 1, i, bs => by
    have ih := decodeHexLoop_iff input k (i + 2)
    rw [decodeHexLoop]
    by_cases hlen : i + 1 < input.length
    · have h0 : input[i]? = some input[i] := List.getElem?_eq_getElem (by omega)
      have h1 : input[i + 1]? = some input[i + 1] := List.getElem?_eq_getElem hlen
      have e : (input.drop i).take (2 * (k + 1)) = input[i] :: input[i + 1] :: (input.drop (i + 2)).take (2 * k) := by
        rw [show 2 * (k + 1) = 2 * k + 1 + 1 by omega, List.drop_eq_getElem_cons (by omega : i < input.length), List.take_succ_cons,
          List.drop_eq_getElem_cons hlen, List.take_succ_cons]
      rw [h0, h1, e]
      simp only [decodeHexPair_eq]
      rw [if_neg (by omega)]
      constructor
      · intro h
        cases hx : hexVal input[i] with
        | none => rw [hx] at h; cases h
        | some x =>
          cases hy : hexVal input[i + 1] with
          | none => rw [hx, hy] at h; cases h
          | some y =>
            rw [hx, hy] at h
            simp only at h
            cases hr : decodeHexLoop input k (i + 2) with
            | none => rw [hr] at h; cases h
            | some r =>
              rw [hr] at h
              cases h
              obtain ⟨h3, h4⟩ := (ih r).mp hr
              refine ⟨?_, .cons _ _ _ x.toNat y.toNat _ _ ((hexVal_iff _ _).mpr ⟨x, hx, rfl⟩)
                ((hexVal_iff _ _).mpr ⟨y, hy, rfl⟩) (nibbles x y (hexVal_lt hx) (hexVal_lt hy)) h4⟩
              split at h3 <;> omega
      · rintro ⟨h3, ht⟩
        cases ht with
        | cons _ _ b x y _ r hx hy hb ht =>
          obtain ⟨x', h1, rfl⟩ := (hexVal_iff _ _).mp hx
          obtain ⟨y', h2, rfl⟩ := (hexVal_iff _ _).mp hy
          rw [h1, h2]
          simp only
          rw [(ih r).mpr ⟨by split <;> omega, ht⟩]
          simp only [Option.some.injEq, List.cons.injEq, and_true]
          exact UInt8.toNat_inj.mp (by rw [nibbles _ _ (hexVal_lt h1) (hexVal_lt h2), hb])
    · have h1 : input[i + 1]? = none := List.getElem?_eq_none (by omega)
      rw [h1, if_neg (by omega)]
      constructor
      · intro h
        cases hx : input[i]? <;> rw [hx] at h <;> cases h
      · rintro ⟨h3, -⟩
        omega

theorem decodeHex256_iff (input : List UInt8) (h : Hash256) :
    decodeHex256 input = some h ↔ HexText (input.take 64) h.1 := by
  unfold decodeHex256
  have key := decodeHexLoop_iff input 32 0
  constructor
  · intro he
    cases hr : decodeHexLoop input 32 0 with
    | none => rw [hr] at he; cases he
    | some bs =>
      rw [hr] at he
      simp only [Option.some.injEq] at he
      obtain ⟨h1, h2⟩ := (key bs).mp hr
      have hl := h2.length
      have : bs.length = 32 := by
        simp only [List.drop_zero, List.length_take] at hl
        simp at h1
        omega
      rw [toArr_iff this] at he
      rw [← he]
      exact h2
  · intro ht
    have hl := ht.length
    rw [h.2, List.length_take] at hl
    rw [(key h.1).mpr ⟨by simp; omega, ht⟩]
    simp only [Option.some.injEq]
    exact (toArr_iff h.2 h).mpr rfl

theorem stripPrefix_iff (p s t : List UInt8) : stripPrefix p s = some t ↔ s = p ++ t := by
  induction p generalizing s with
  | nil => rw [stripPrefix]; simp
  | cons c p ih =>
    cases s with
    | nil => rw [stripPrefix]; simp
    | cons d s =>
      rw [stripPrefix]
      by_cases h : c = d
      · rw [if_pos h, ih]; simp [h]
      · rw [if_neg h]
        constructor
        · intro h; cases h
        · intro e; cases e; exact absurd rfl h

end Verif
