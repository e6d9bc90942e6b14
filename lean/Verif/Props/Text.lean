import Verif.Lemmas.Text
import Verif.Props.Hashing
import Verif.Props.Merkle

/-!
# C17-C21, C47: text of identifiers, addresses, keys, signatures and specifiers
-/

namespace Verif

theorem except_error {ε α : Type} {x : Except ε α} {e e' : ε} (h : x = .error e) : x = .error e' ↔ e' = e := by
  rw [h]
  exact ⟨fun h => by cases h; rfl, fun h => by rw [h]⟩

/-! ## C17 -/

theorem parseId_eq (s : List UInt8) : ∃ t, AfterColon s t ∧ parseId s = (if t.length ≠ 64 then .error .invalidLength
    else match hexDecodeTo 32 t with
      | .error e => .error (.hexError e)
      | .ok data => .ok (toArr 32 data)) := ⟨_, afterColon_exists s, rfl⟩

/-- Parsing the displayed form of an identifier returns it. -/
theorem C17_round_trip (h : Hash256) : parseId (showId h) = .ok h := by
  have ht := (hexEncode_text h.1).1
  have hc : splitColon (showId h) = none := (splitColon_none _).mpr ht.noColon
  have hl : (showId h).length = 64 := by have := ht.length; rw [h.2] at this; exact this
  unfold parseId
  simp only [hc]
  rw [if_neg (by omega), (hexDecodeTo_ok 32 (showId h) h.1).mpr ⟨ht, h.2⟩]
  exact congrArg Except.ok ((toArr_iff h.2 h).mpr rfl)

example : showId (Sample.h 0xa7) = ascii (String.join (List.replicate 32 "a7")) := by decide +kernel

/-- The displayed form is the 64 lower-case hex digits of the identifier. -/
theorem C17_display (h : Hash256) : HexText (showId h) h.1 ∧ LowerCase (showId h) := hexEncode_text h.1

/-- What the parser accepts: the part after the first colon, or everything if there is none, is the hex text of the result. -/
theorem C17_accepts (s : List UInt8) (h : Hash256) :
    parseId s = .ok h ↔ ∃ t, AfterColon s t ∧ HexText t h.1 := by
  obtain ⟨t, ha, eq⟩ := parseId_eq s
  rw [eq]
  have e : (∃ t, AfterColon s t ∧ HexText t h.1) ↔ HexText t h.1 :=
    ⟨fun ⟨u, hu, hx⟩ => by rwa [afterColon_unique ha hu], fun hx => ⟨t, ha, hx⟩⟩
  rw [e]
  by_cases hl : t.length = 64
  · rw [if_neg (by omega)]
    constructor
    · intro hp
      cases hd : hexDecodeTo 32 t with
      | error x => rw [hd] at hp; cases hp
      | ok bs =>
        rw [hd] at hp
        obtain ⟨h1, h2⟩ := (hexDecodeTo_ok 32 t bs).mp hd
        simp only [Except.ok.injEq] at hp
        rw [← (toArr_iff h2 h).mp hp]
        exact h1
    · intro hx
      rw [(hexDecodeTo_ok 32 t h.1).mpr ⟨hx, h.2⟩]
      exact congrArg Except.ok ((toArr_iff h.2 h).mpr rfl)
  · rw [if_pos hl]
    constructor
    · intro hp; cases hp
    · intro hx; have := hx.length; rw [h.2] at this; exact absurd this hl

example : parseId (ascii ("h:" ++ String.join (List.replicate 32 "A7"))) = .ok (Sample.h 0xa7) := by decide +kernel

/-- The errors of the parser: a wrong length first, then the first byte that is not a hex digit, with its index. -/
theorem C17_errors (s : List UInt8) (e : ParseErr) :
    parseId s = .error e ↔ ∃ t, AfterColon s t ∧ ((t.length ≠ 64 ∧ e = .invalidLength) ∨
      (t.length = 64 ∧ ∃ c i, FirstBad t c i ∧ e = .hexError (.invalidChar c i))) := by
  obtain ⟨t, ha, eq⟩ := parseId_eq s
  rw [eq]
  have e1 : ∀ P : List UInt8 → Prop, (∃ t, AfterColon s t ∧ P t) ↔ P t :=
    fun P => ⟨fun ⟨u, hu, hx⟩ => by rwa [afterColon_unique ha hu], fun hx => ⟨t, ha, hx⟩⟩
  rw [e1]
  by_cases hl : t.length = 64
  · rw [if_neg (by omega)]
    have key := hexDecodeTo_error (n := 32) (s := t) (by omega)
    constructor
    · intro hp
      refine .inr ⟨hl, ?_⟩
      cases hd : hexDecodeTo 32 t with
      | error x =>
        rw [hd] at hp
        obtain ⟨c, j, rfl, h2⟩ := (key x).mp hd
        cases hp
        exact ⟨c, j, h2, rfl⟩
      | ok bs => rw [hd] at hp; cases hp
    · rintro (⟨h, -⟩ | ⟨-, c, i, h1, rfl⟩)
      · exact absurd hl h
      · rw [(key _).mpr ⟨c, i, rfl, h1⟩]
  · rw [if_pos hl]
    constructor
    · intro hp; cases hp; exact .inl ⟨hl, rfl⟩
    · rintro (⟨-, rfl⟩ | ⟨h, -⟩)
      · rfl
      · exact absurd h hl

example : parseId (ascii ("a:b" ++ String.join (List.replicate 31 "A7") ++ "x")) = .error (.hexError (.invalidChar 120 63)) := by
  decide +kernel
example : parseId (ascii "a:b:") = .error .invalidLength := by decide +kernel

/-! ## C18 -/

/-- Parsing the displayed address returns the address. -/
theorem C18_round_trip (H : Hasher) (a : Address) : parseAddress H (showAddress H a) = .ok a := by
  have ht := (hexEncode_text (a.1 ++ (H a.1).1.take 6)).1
  have h6 : ((H a.1).1.take 6).length = 6 := by rw [List.length_take, (H a.1).2]; rfl
  have hl : (a.1 ++ (H a.1).1.take 6).length = 38 := by rw [List.length_append, a.2, h6]
  have hs : (showAddress H a).length = 76 := by have := ht.length; rw [hl] at this; exact this
  have ht' : (a.1 ++ (H a.1).1.take 6).take 32 = a.1 := by exact List.take_left' a.2
  have hd' : (a.1 ++ (H a.1).1.take 6).drop 32 = (H a.1).1.take 6 := by
    exact List.drop_left' a.2
  unfold parseAddress
  rw [if_neg (by omega), (hexDecodeTo_ok 38 (showAddress H a) _).mpr ⟨ht, hl⟩]
  simp only [ht', hd']
  rw [if_neg (by simp)]
  exact congrArg Except.ok ((toArr_iff a.2 a).mpr rfl)

example : showAddress Sample.byteSum (Sample.h 0xa7) = ascii (String.join (List.replicate 32 "a7" ++
    "e0" :: List.replicate 5 "00")) := by decide +kernel

/-- A string is accepted iff it is the hex text of the address followed by the first six bytes of its hash. -/
theorem C18_accepts (H : Hasher) (s : List UInt8) (a : Address) :
    parseAddress H s = .ok a ↔ HexText s (a.1 ++ (H a.1).1.take 6) := by
  have h6 : ((H a.1).1.take 6).length = 6 := by rw [List.length_take, (H a.1).2]; rfl
  have hla : (a.1 ++ (H a.1).1.take 6).length = 38 := by rw [List.length_append, a.2, h6]
  unfold parseAddress
  by_cases hl : s.length = 76
  · rw [if_neg (by omega)]
    constructor
    · intro hp
      cases hd : hexDecodeTo 38 s with
      | error x => rw [hd] at hp; cases hp
      | ok bs =>
        rw [hd] at hp
        obtain ⟨h1, h2⟩ := (hexDecodeTo_ok 38 s bs).mp hd
        simp only at hp
        by_cases hc : (H (bs.take 32)).1.take 6 = bs.drop 32
        · rw [if_neg (by simpa using hc)] at hp
          simp only [Except.ok.injEq] at hp
          have e : bs.take 32 = a.1 := (toArr_iff (by rw [List.length_take]; omega) a).mp hp
          rw [e] at hc
          rw [hc, ← e, List.take_append_drop]
          exact h1
        · rw [if_pos hc] at hp; cases hp
    · intro hx
      have ht' : (a.1 ++ (H a.1).1.take 6).take 32 = a.1 := by exact List.take_left' a.2
      have hd' : (a.1 ++ (H a.1).1.take 6).drop 32 = (H a.1).1.take 6 := by
        exact List.drop_left' a.2
      rw [(hexDecodeTo_ok 38 s _).mpr ⟨hx, hla⟩]
      simp only [ht', hd']
      rw [if_neg (by simp)]
      exact congrArg Except.ok ((toArr_iff a.2 a).mpr rfl)
  · rw [if_pos hl]
    constructor
    · intro hp; cases hp
    · intro hx; have := hx.length; rw [hla] at this; exact absurd this hl

/-- The errors, in the order they are looked for: length, digits, checksum. -/
theorem C18_errors (H : Hasher) (s : List UInt8) (e : ParseErr) :
    parseAddress H s = .error e ↔ (s.length ≠ 76 ∧ e = .invalidLength) ∨
      (s.length = 76 ∧ ∃ c i, FirstBad s c i ∧ e = .hexError (.invalidChar c i)) ∨
      (∃ a c : List UInt8, HexText s (a ++ c) ∧ a.length = 32 ∧ c.length = 6 ∧ (H a).1.take 6 ≠ c ∧ e = .invalidChecksum) := by
  unfold parseAddress
  by_cases hl : s.length = 76
  · rw [if_neg (by omega)]
    have key := hexDecodeTo_error (n := 38) (s := s) (by omega)
    constructor
    · intro hp
      refine .inr ?_
      cases hd : hexDecodeTo 38 s with
      | error x =>
        rw [hd] at hp
        obtain ⟨c, j, rfl, h2⟩ := (key x).mp hd
        cases hp
        exact .inl ⟨hl, c, j, h2, rfl⟩
      | ok bs =>
        rw [hd] at hp
        obtain ⟨h1, h2⟩ := (hexDecodeTo_ok 38 s bs).mp hd
        simp only at hp
        by_cases hc : (H (bs.take 32)).1.take 6 = bs.drop 32
        · rw [if_neg (by simpa using hc)] at hp; cases hp
        · rw [if_pos hc] at hp
          cases hp
          exact .inr ⟨bs.take 32, bs.drop 32, by rwa [List.take_append_drop], by rw [List.length_take]; omega,
            by rw [List.length_drop]; omega, hc, rfl⟩
    · rintro (⟨h, -⟩ | ⟨-, c, i, h1, rfl⟩ | ⟨a, c, h1, h2, h3, h4, rfl⟩)
      · exact absurd hl h
      · rw [(key _).mpr ⟨c, i, rfl, h1⟩]
      · rw [(hexDecodeTo_ok 38 s _).mpr ⟨h1, by rw [List.length_append]; omega⟩]
        simp only
        rw [List.take_left' h2, List.drop_left' h2, if_pos h4]
  · rw [if_pos hl]
    constructor
    · intro hp; cases hp; exact .inl ⟨hl, rfl⟩
    · rintro (⟨-, rfl⟩ | ⟨h, -⟩ | ⟨a, c, h1, h2, h3, -⟩)
      · rfl
      · exact absurd h hl
      · have := h1.length
        rw [List.length_append] at this
        omega

example : parseAddress Sample.byteSum (ascii (String.join (List.replicate 32 "a7" ++ "e0" :: List.replicate 5 "01"))) =
    .error .invalidChecksum := by decide +kernel

/-! ## C19 -/

/-- Deserialising the text of a public key returns the key. -/
theorem C19_key_round_trip (k : PublicKey) : deserializeKey (showKey k) = some k := by
  unfold deserializeKey
  rw [(stripPrefix_iff keyPrefix (showKey k) (hexEncode k.1)).mpr rfl]
  simp only
  rw [(hexDecodeTo_ok 32 _ _).mpr ⟨(hexEncode_text k.1).1, k.2⟩]
  exact congrArg some ((toArr_iff k.2 k).mpr rfl)

example : showKey (Sample.h 0xa7) = ascii ("ed25519:" ++ String.join (List.replicate 32 "a7")) := by decide +kernel

/-- The text of a public key is the prefix and the hex text of the key, and nothing else is accepted. -/
theorem C19_key_accepts (s : List UInt8) (k : PublicKey) :
    deserializeKey s = some k ↔ ∃ t, s = ascii "ed25519:" ++ t ∧ HexText t k.1 := by
  unfold deserializeKey
  constructor
  · intro hp
    cases hs : stripPrefix keyPrefix s with
    | none => rw [hs] at hp; cases hp
    | some t =>
      rw [hs] at hp
      simp only at hp
      cases hd : hexDecodeTo 32 t with
      | error e => rw [hd] at hp; cases hp
      | ok bs =>
        rw [hd] at hp
        obtain ⟨h1, h2⟩ := (hexDecodeTo_ok 32 t bs).mp hd
        simp only [Option.some.injEq] at hp
        exact ⟨t, (stripPrefix_iff _ _ _).mp hs, by rw [← (toArr_iff h2 k).mp hp]; exact h1⟩
  · rintro ⟨t, rfl, h⟩
    rw [(stripPrefix_iff keyPrefix (ascii "ed25519:" ++ t) t).mpr rfl]
    simp only
    rw [(hexDecodeTo_ok 32 _ _).mpr ⟨h, k.2⟩]
    exact congrArg some ((toArr_iff k.2 k).mpr rfl)

/-- Parsing and deserialising the text of a signature return the signature. -/
theorem C19_signature_round_trip (x : Signature) :
    parseSignature (showSignature x) = .ok x ∧ deserializeSignature (showSignature x) = some x := by
  unfold parseSignature deserializeSignature
  rw [(hexDecode_ok (showSignature x) x.1).mpr (hexEncode_text x.1).1]
  simp only
  rw [if_neg (by rw [x.2]; simp), if_neg (by rw [x.2]; simp)]
  exact ⟨congrArg Except.ok ((toArr_iff x.2 x).mpr rfl), congrArg some ((toArr_iff x.2 x).mpr rfl)⟩

/-- What both signature parsers accept. -/
theorem C19_signature_accepts (s : List UInt8) (x : Signature) :
    (parseSignature s = .ok x ↔ HexText s x.1) ∧ (deserializeSignature s = some x ↔ HexText s x.1) := by
  unfold parseSignature deserializeSignature
  constructor <;> constructor
  · intro hp
    cases hd : hexDecode s with
    | error e => rw [hd] at hp; cases hp
    | ok bs =>
      rw [hd] at hp
      simp only at hp
      by_cases hl : bs.length = 64
      · rw [if_neg (by omega)] at hp
        simp only [Except.ok.injEq] at hp
        rw [← (toArr_iff hl x).mp hp]
        exact (hexDecode_ok s bs).mp hd
      · rw [if_pos hl] at hp; cases hp
  · intro hx
    rw [(hexDecode_ok s x.1).mpr hx]
    simp only
    rw [if_neg (by rw [x.2]; simp)]
    exact congrArg Except.ok ((toArr_iff x.2 x).mpr rfl)
  · intro hp
    cases hd : hexDecode s with
    | error e => rw [hd] at hp; cases hp
    | ok bs =>
      rw [hd] at hp
      simp only at hp
      by_cases hl : bs.length = 64
      · rw [if_neg (by omega)] at hp
        simp only [Option.some.injEq] at hp
        rw [← (toArr_iff hl x).mp hp]
        exact (hexDecode_ok s bs).mp hd
      · rw [if_pos hl] at hp; cases hp
  · intro hx
    rw [(hexDecode_ok s x.1).mpr hx]
    simp only
    rw [if_neg (by rw [x.2]; simp)]
    exact congrArg some ((toArr_iff x.2 x).mpr rfl)

/-- The errors of the signature parser; unlike the identifiers it looks at the digits before the length. -/
theorem C19_signature_errors (s : List UInt8) (e : ParseErr) :
    parseSignature s = .error e ↔ (s.length % 2 = 1 ∧ e = .hexError .oddLength) ∨
      (s.length % 2 = 0 ∧ ∃ c i, FirstBad s c i ∧ e = .hexError (.invalidChar c i)) ∨
      (∃ bs, HexText s bs ∧ bs.length ≠ 64 ∧ e = .invalidLength) := by
  unfold parseSignature
  constructor
  · intro hp
    cases hd : hexDecode s with
    | error x =>
      rw [hd] at hp
      cases hp
      rcases (hexDecode_error s x).mp hd with ⟨h, rfl⟩ | ⟨h, c, i, rfl, h2⟩
      · exact .inl ⟨h, rfl⟩
      · exact .inr (.inl ⟨h, c, i, h2, rfl⟩)
    | ok bs =>
      rw [hd] at hp
      simp only at hp
      by_cases hl : bs.length = 64
      · rw [if_neg (by omega)] at hp; cases hp
      · rw [if_pos hl] at hp; cases hp; exact .inr (.inr ⟨bs, (hexDecode_ok s bs).mp hd, hl, rfl⟩)
  · rintro (⟨h, rfl⟩ | ⟨h, c, i, h2, rfl⟩ | ⟨bs, h1, h2, rfl⟩)
    · rw [(hexDecode_error s .oddLength).mpr (.inl ⟨h, rfl⟩)]
    · rw [(hexDecode_error s (.invalidChar c i)).mpr (.inr ⟨h, c, i, rfl, h2⟩)]
    · rw [(hexDecode_ok s bs).mpr h1]
      simp only
      rw [if_pos h2]

example : parseSignature (ascii "0g") = .error (.hexError (.invalidChar 103 1)) ∧
    parseSignature (ascii "0a0") = .error (.hexError .oddLength) ∧
    parseSignature (ascii "0a") = .error .invalidLength := by decide +kernel

/-- Parsing and deserialising the text of a storage-proof leaf return the leaf. -/
theorem C19_leaf_round_trip (x : Arr 64) : parseLeaf (showLeaf x) = .ok x ∧ deserializeLeaf (showLeaf x) = some x := by
  have ht := (hexEncode_text x.1).1
  have hl : (showLeaf x).length = 128 := by have := ht.length; rw [x.2] at this; exact this
  unfold parseLeaf deserializeLeaf
  rw [if_neg (by omega), (hexDecodeTo_ok 64 (showLeaf x) x.1).mpr ⟨ht, x.2⟩, (hexDecode_ok (showLeaf x) x.1).mpr ht]
  simp only
  rw [if_neg (by rw [x.2]; simp)]
  exact ⟨congrArg Except.ok ((toArr_iff x.2 x).mpr rfl), congrArg some ((toArr_iff x.2 x).mpr rfl)⟩

/-- What both leaf parsers accept. -/
theorem C19_leaf_accepts (s : List UInt8) (x : Arr 64) :
    (parseLeaf s = .ok x ↔ HexText s x.1) ∧ (deserializeLeaf s = some x ↔ HexText s x.1) := by
  refine ⟨?_, (C19_signature_accepts s x).2⟩
  unfold parseLeaf
  by_cases hl : s.length = 128
  · rw [if_neg (by omega)]
    constructor
    · intro hp
      cases hd : hexDecodeTo 64 s with
      | error e => rw [hd] at hp; cases hp
      | ok bs =>
        rw [hd] at hp
        obtain ⟨h1, h2⟩ := (hexDecodeTo_ok 64 s bs).mp hd
        simp only [Except.ok.injEq] at hp
        rw [← (toArr_iff h2 x).mp hp]
        exact h1
    · intro hx
      rw [(hexDecodeTo_ok 64 s x.1).mpr ⟨hx, x.2⟩]
      exact congrArg Except.ok ((toArr_iff x.2 x).mpr rfl)
  · rw [if_pos hl]
    constructor
    · intro hp; cases hp
    · intro hx; have := hx.length; rw [x.2] at this; exact absurd this hl

/-! ## C20, C21 -/

/-- Converting a string to a specifier keeps its first 16 bytes and fills up with zeros. -/
theorem C21_convert (s : List UInt8) (x : Specifier) : specifierOf s = x ↔ Padded s x :=
  ⟨fun h => h ▸ specifierOf_padded s, fun h => padded_unique (specifierOf_padded s) h⟩

example : (specifierOf (ascii "siacoin output")).1 = ascii "siacoin output" ++ [0, 0] := by decide +kernel

/-- The macro gives the same, but refuses more than 16 bytes. -/
theorem C21_literal (s : List UInt8) (x : Specifier) : specifierLit s = some x ↔ s.length ≤ 16 ∧ Padded s x := by
  unfold specifierLit
  by_cases h : s.length ≤ 16
  · rw [if_pos h, Option.some.injEq, C21_convert]; simp [h]
  · rw [if_neg h]; simp [h]

/-- Displaying gives the name the specifier stands for if that is UTF-8. -/
theorem C21_display (x : Specifier) (t : List UInt8) : showSpecifier x = some t ↔ IsText t ∧ Names t x :=
  showSpecifier_some x t

/-- Otherwise displaying fails, and so `to_string` panics. -/
theorem C21_display_fails (x : Specifier) : showSpecifier x = none ↔ ∃ t, Names t x ∧ ¬ IsText t := showSpecifier_none x

/-- Displaying the specifier of a text gives the text back exactly if it has at most 16 bytes and no zero at the end. -/
theorem C21_round_trip (s : List UInt8) (h : IsText s) :
    showSpecifier (specifierOf s) = some s ↔ s.length ≤ 16 ∧ s.getLast? ≠ some 0 := by
  rw [C21_display]
  constructor
  · rintro ⟨-, hn⟩
    exact ⟨names_length hn, hn.1⟩
  · rintro ⟨h1, h2⟩
    refine ⟨h, h2, ?_⟩
    simp only [specifierOf]
    rw [List.take_of_length_le h1]

example : IsText (ascii "ed25519") ∧ showSpecifier (specifierOf (ascii "ed25519")) = some (ascii "ed25519") :=
  ⟨⟨"ed25519", by decide +kernel⟩, (C21_round_trip _ ⟨"ed25519", by decide +kernel⟩).mpr (by decide +kernel)⟩

/-- Longer names with the same first 16 bytes collide, and so do names that differ in zeros at the end only. -/
theorem C21_collisions (s t : List UInt8) :
    specifierOf s = specifierOf t ↔ ∀ i < 16, s[i]?.getD 0 = t[i]?.getD 0 := by
  rw [C21_convert]
  have := specifierOf_padded t
  constructor
  · intro h i hi
    have := (h i hi).symm.trans (this i hi)
    simpa using this
  · intro h i hi
    rw [this i hi, h i hi]

example : specifierOf (ascii "FoundationSubsidyA") = specifierOf (ascii "FoundationSubsidyB") := by decide +kernel

/-- Converting the displayed name gives the specifier back. -/
theorem C21_display_convert (x : Specifier) (t : List UInt8) (h : showSpecifier x = some t) : specifierOf t = x :=
  specifierOf_names ((C21_display x t).mp h).2

/-- What the unlock key parser accepts: the hex text of the key after the first colon; the algorithm is what is before it, cut
to 16 bytes. -/
theorem C20_accepts (s : List UInt8) (k : UnlockKey) :
    parseUnlockKey s = .ok k ↔ ∃ pre t, s = pre ++ [58] ++ t ∧ (58 : UInt8) ∉ pre ∧ Padded pre k.algorithm ∧ HexText t k.key := by
  unfold parseUnlockKey
  constructor
  · intro hp
    cases hs : splitColon s with
    | none => rw [hs] at hp; cases hp
    | some p =>
      obtain ⟨pre, t⟩ := p
      rw [hs] at hp
      simp only at hp
      cases hd : hexDecode t with
      | error e => rw [hd] at hp; cases hp
      | ok bs =>
        rw [hd] at hp
        cases hp
        obtain ⟨h1, h2⟩ := (splitColon_some s pre t).mp hs
        exact ⟨pre, t, h2, h1, specifierOf_padded pre, (hexDecode_ok t bs).mp hd⟩
  · rintro ⟨pre, t, h1, h2, h3, h4⟩
    rw [(splitColon_some s pre t).mpr ⟨h2, h1⟩]
    simp only
    rw [(hexDecode_ok t k.key).mpr h4, (C21_convert pre k.algorithm).mpr h3]

/-- Displaying an unlock key: the algorithm's name, a colon, and the hex text of the key. -/
theorem C20_display (k : UnlockKey) (s : List UInt8) : showUnlockKey k = some s ↔
    ∃ t u, IsText t ∧ Names t k.algorithm ∧ HexText u k.key ∧ LowerCase u ∧ s = t ++ [58] ++ u := by
  have hlow : ∀ {u v : List UInt8} {bs : List UInt8}, HexText u bs → LowerCase u → HexText v bs → LowerCase v → u = v := by
    intro u v bs h hu h' hv
    induction h generalizing v with
    | nil => cases h'; rfl
    | cons c d b x y s bs h1 h2 h3 _ ih =>
      cases h' with
      | cons c' d' _ x' y' s' _ h1' h2' h3' ht =>
        have lt : ∀ {c v}, IsHexDigit c v → v < 16 := by
          rintro c v (h | h) <;> exact (List.getElem?_eq_some_iff.mp h).1
        have := lt h1; have := lt h2; have := lt h1'; have := lt h2'
        have ex : x = x' := by omega
        have ey : y = y' := by omega
        subst ex ey
        have uniq : ∀ {c c' : UInt8} {v : Nat}, IsHexDigit c v → IsHexDigit c' v → c ∈ ascii "0123456789abcdef" →
            c' ∈ ascii "0123456789abcdef" → c = c' := by
          have : ∀ v : Fin 16, ∀ c ∈ ascii "0123456789abcdef", ((ascii "0123456789abcdef")[v.1]? = some c ∨
              (ascii "0123456789ABCDEF")[v.1]? = some c) → some c = (ascii "0123456789abcdef")[v.1]? := by decide +kernel
          intro c c' v h h' hc hc'
          exact Option.some.inj ((this ⟨v, lt h⟩ c hc h).trans (this ⟨v, lt h⟩ c' hc' h').symm)
        rw [uniq h1 h1' (hu c (by simp)) (hv c' (by simp)), uniq h2 h2' (hu d (by simp)) (hv d' (by simp)),
          ih (fun c hc => hu c (by simp [hc])) ht (fun c hc => hv c (by simp [hc]))]
  unfold showUnlockKey
  constructor
  · intro h
    cases hs : showSpecifier k.algorithm with
    | none => rw [hs] at h; cases h
    | some t =>
      rw [hs] at h
      cases h
      obtain ⟨h1, h2⟩ := (C21_display _ _).mp hs
      exact ⟨t, hexEncode k.key, h1, h2, (hexEncode_text _).1, (hexEncode_text _).2, rfl⟩
  · rintro ⟨t, u, h1, h2, h3, h4, rfl⟩
    rw [(C21_display _ _).mpr ⟨h1, h2⟩, hlow h3 h4 (hexEncode_text k.key).1 (hexEncode_text k.key).2]

/-- Parsing the displayed form returns the key exactly if the algorithm's name has no colon; otherwise it is an error. -/
theorem C20_round_trip (k : UnlockKey) (s : List UInt8) (h : showUnlockKey k = some s) :
    ((58 : UInt8) ∉ k.algorithm.1 → parseUnlockKey s = .ok k) ∧
    ((58 : UInt8) ∈ k.algorithm.1 → ∃ e, parseUnlockKey s = .error (.hexError e)) := by
  obtain ⟨t, u, -, h2, h3, -, rfl⟩ := (C20_display k s).mp h
  have hmem : (58 : UInt8) ∈ k.algorithm.1 ↔ (58 : UInt8) ∈ t := by rw [h2.2]; simp
  rw [hmem]
  constructor
  · intro hc
    exact (C20_accepts _ k).mpr ⟨t, u, rfl, hc, (C21_convert _ _).mp (specifierOf_names h2), h3⟩
  · intro hc
    unfold parseUnlockKey
    cases hs : splitColon (t ++ [58] ++ u) with
    | none => exact absurd (by simp : (58 : UInt8) ∈ t ++ [58] ++ u) ((splitColon_none _).mp hs)
    | some p =>
      obtain ⟨a, b⟩ := p
      obtain ⟨h1, h4⟩ := (splitColon_some _ a b).mp hs
      have hb : (58 : UInt8) ∈ b := by
        rcases List.append_eq_append_iff.mp (show t ++ ([58] ++ u) = a ++ ([58] ++ b) by simpa using h4) with
          ⟨x, rfl, hx⟩ | ⟨x, rfl, hx⟩
        · exact absurd (by simp [hc]) h1
        · cases x with
          | nil => simp at hc; exact absurd hc h1
          | cons c x =>
            simp only [List.cons_append, List.nil_append, List.cons.injEq] at hx
            rw [hx.2]; simp
      simp only
      cases hd : hexDecode b with
      | error e => exact ⟨e, rfl⟩
      | ok bs => exact absurd hb ((hexDecode_ok b bs).mp hd).noColon

example : showUnlockKey ⟨specifierOf (ascii "ed25519"), [1, 0xab]⟩ = some (ascii "ed25519:01ab") ∧
    parseUnlockKey (ascii "ed25519:01ab") = .ok ⟨specifierOf (ascii "ed25519"), [1, 0xab]⟩ ∧
    showUnlockKey ⟨specifierOf (ascii "a:b"), [1, 0xab]⟩ = some (ascii "a:b:01ab") ∧
    parseUnlockKey (ascii "a:b:01ab") = .error (.hexError (.invalidChar 58 1)) := by
  refine ⟨?_, by decide +kernel, ?_, by decide +kernel⟩
  · exact (C20_display _ _).mpr ⟨ascii "ed25519", ascii "01ab", ⟨"ed25519", by decide +kernel⟩, by unfold Names; decide +kernel,
      (hexDecode_ok _ _).mp (by decide +kernel), by unfold LowerCase; decide +kernel, by decide +kernel⟩
  · exact (C20_display _ _).mpr ⟨ascii "a:b", ascii "01ab", ⟨"a:b", by decide +kernel⟩, by unfold Names; decide +kernel,
      (hexDecode_ok _ _).mp (by decide +kernel), by unfold LowerCase; decide +kernel, by decide +kernel⟩

/-! ## C47 -/

/-- The identifier macros accept exactly hex texts of 32 bytes and yield these; everything else panics. -/
theorem C47_id (s : List UInt8) (h : Hash256) : idLit s = some h ↔ HexText s h.1 := by
  unfold idLit
  by_cases hl : s.length = 64
  · rw [if_neg (by omega), decodeHex256_iff, List.take_of_length_le (by omega)]
  · rw [if_pos hl]
    constructor
    · intro h; cases h
    · intro hx; have := hx.length; rw [h.2] at this; exact absurd this hl

example : idLit (ascii (String.join (List.replicate 32 "a7"))) = some (Sample.h 0xa7) := by decide +kernel

/-- They agree with the parser of the identifiers on every string without a colon. -/
theorem C47_id_agrees (s : List UInt8) (hc : (58 : UInt8) ∉ s) (h : Hash256) : idLit s = some h ↔ parseId s = .ok h := by
  rw [C47_id, C17_accepts]
  exact ⟨fun hx => ⟨s, .inr ⟨hc, rfl⟩, hx⟩, fun ⟨t, ht, hx⟩ => by
    rwa [afterColon_unique (.inr ⟨hc, rfl⟩) ht]⟩

/-- The public key macro agrees with the run-time parser on every string. -/
theorem C47_key (s : List UInt8) (k : PublicKey) : keyLit s = some k ↔ deserializeKey s = some k := by
  rw [C19_key_accepts]
  have hp : (ascii "ed25519:").length = 8 := by decide +kernel
  unfold keyLit
  by_cases hl : s.length = 72
  · rw [if_neg (by omega)]
    by_cases hpre : s.take 8 = keyPrefix
    · rw [if_neg (by simpa using hpre), decodeHex256_iff, List.take_of_length_le (by rw [List.length_drop]; omega)]
      constructor
      · intro hx
        refine ⟨s.drop 8, ?_, hx⟩
        have := (List.take_append_drop 8 s).symm
        rwa [hpre] at this
      · rintro ⟨t, rfl, hx⟩
        rw [← hp, List.drop_left]
        exact hx
    · rw [if_pos hpre]
      constructor
      · intro h; cases h
      · rintro ⟨t, rfl, -⟩
        exact absurd (by rw [← hp, List.take_left]; rfl) hpre
  · rw [if_pos hl]
    constructor
    · intro h; cases h
    · rintro ⟨t, rfl, hx⟩
      have := hx.length
      rw [k.2] at this
      rw [List.length_append] at hl
      omega

example : keyLit (ascii ("ed25519:" ++ String.join (List.replicate 32 "a7"))) = some (Sample.h 0xa7) := by decide +kernel

/-- What the address macro accepts: 76 bytes of which the first 64 are the hex text of the address. -/
theorem C47_address (s : List UInt8) (a : Address) :
    addressLit s = some a ↔ s.length = 76 ∧ HexText (s.take 64) a.1 := by
  unfold addressLit
  by_cases hl : s.length = 76
  · rw [if_neg (by omega), decodeHex256_iff]; simp [hl]
  · rw [if_pos hl]; simp [hl]

/-- The full statement for the address macro would be an equivalence; it holds in one direction: whatever the run-time parser
accepts, the macro accepts with the same result.  Missing: the macro panics on everything else, which is false, see
`C47_address_not`. -/
theorem C47_address_partial (H : Hasher) (s : List UInt8) (a : Address) (h : parseAddress H s = .ok a) :
    addressLit s = some a := by
  have hx := (C18_accepts H s a).mp h
  have hl : s.length = 76 := by
    have := hx.length
    rw [List.length_append, a.2, List.length_take, (H a.1).2] at this
    exact this
  refine (C47_address s a).mpr ⟨hl, ?_⟩
  have key : ∀ {s bs : List UInt8}, HexText s bs → ∀ n, HexText (s.take (2 * n)) (bs.take n) := by
    intro s bs h
    induction h with
    | nil => intro n; simp; exact .nil
    | cons c d b x y s bs h1 h2 h3 _ ih =>
      intro n
      cases n with
      | zero => simp; exact .nil
      | succ n => exact .cons _ _ _ _ _ _ _ h1 h2 h3 (ih n)
  have := key hx 32
  rwa [show (a.1 ++ (H a.1).1.take 6).take 32 = a.1 by exact List.take_left' a.2] at this

example : parseAddress Sample.byteSum (ascii (String.join (List.replicate 32 "a7" ++ "e0" :: List.replicate 5 "00"))) =
    .ok (Sample.h 0xa7) := by decide +kernel

/-- The address macro accepts literals the parser refuses: for every address there is one with a wrong checksum, and one whose
last 12 characters are not even hex digits. -/
theorem C47_address_not (H : Hasher) (a : Address) :
    (∃ s, addressLit s = some a ∧ parseAddress H s = .error .invalidChecksum) ∧
    (∃ s, addressLit s = some a ∧ parseAddress H s = .error (.hexError (.invalidChar 122 64))) := by
  have ht := (hexEncode_text a.1).1
  have hl : (hexEncode a.1).length = 64 := by have := ht.length; rw [a.2] at this; exact this
  constructor
  · let c : List UInt8 := ((H a.1).1.take 6).map (· + 1)
    have hc : c.length = 6 := by
      show (((H a.1).1.take 6).map (· + 1)).length = 6
      rw [List.length_map, List.length_take, (H a.1).2]; rfl
    have hcl : (hexEncode c).length = 12 := by have := (hexEncode_text c).1.length; rw [hc] at this; exact this
    refine ⟨hexEncode a.1 ++ hexEncode c, (C47_address _ _).mpr ⟨by rw [List.length_append]; omega, ?_⟩,
      (C18_errors H _ _).mpr (.inr (.inr ⟨a.1, c, ht.append (hexEncode_text c).1, a.2, hc, ?_, rfl⟩))⟩
    · rw [← hl, List.take_left]; exact ht
    · intro e
      have h6 : ((H a.1).1.take 6).length = 6 := by rw [List.length_take, (H a.1).2]; rfl
      have e' : (H a.1).1.take 6 = ((H a.1).1.take 6).map (· + 1) := e
      generalize (H a.1).1.take 6 = l at e' h6
      match l, h6 with
      | x :: l, _ =>
        simp only [List.map_cons, List.cons.injEq] at e'
        have := congrArg UInt8.toNat e'.1
        have hx := x.toNat_lt
        rw [UInt8.toNat_add] at this
        simp at this
        omega
  · refine ⟨hexEncode a.1 ++ List.replicate 12 122, (C47_address _ _).mpr ⟨by rw [List.length_append, List.length_replicate]; omega, ?_⟩,
      (C18_errors H _ _).mpr (.inr (.inl ⟨by rw [List.length_append, List.length_replicate]; omega, 122, 64, ⟨?_, ?_, ?_⟩, rfl⟩))⟩
    · rw [← hl, List.take_left]; exact ht
    · rw [List.getElem?_append_right (by omega), hl]; rfl
    · exact (hexVal_none_iff 122).mp (by decide)
    · intro j hj d hd
      rw [List.getElem?_append_left (by omega)] at hd
      have hm : d ∈ hexEncode a.1 := List.mem_of_getElem? hd
      have all : ∀ {s bs : List UInt8}, HexText s bs → ∀ d ∈ s, ∃ v, IsHexDigit d v := by
        intro s bs h
        induction h with
        | nil => intro d hd; cases hd
        | cons c e b x y s bs h1 h2 _ _ ih =>
          intro d hd
          rcases List.mem_cons.mp hd with rfl | hd
          · exact ⟨_, h1⟩
          · rcases List.mem_cons.mp hd with rfl | hd
            · exact ⟨_, h2⟩
            · exact ih d hd
      exact all ht d hm

end Verif
