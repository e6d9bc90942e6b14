import Verif.Lemmas.Signing
import Verif.Props.Merkle

/-!
# Keys, seeds and mnemonics: C41, C48, C49
-/

namespace Verif

open Spec

/-! ## Samples -/

/-- A toy signature scheme that obeys the correctness law: public keys start with 1, a signature is the public key followed by the message. -/
def Sample.ed : Ed where
  expand s := ⟨1 :: s.1.drop 1, by simp [s.2]⟩
  sign s m := ⟨(1 :: s.1.drop 1) ++ (m ++ List.replicate 32 0).take 32, by simp [s.2]⟩
  point k := k.1.head? == some 1
  check k m s := s.1 == k.1 ++ (m ++ List.replicate 32 0).take 32

theorem Sample.ed_signs : Signs Sample.ed := by
  intro seed
  exact ⟨rfl, fun m => by simp [Sample.ed]⟩

/-- A toy list of words of three letters: the position in base 26. -/
def Sample.lang : Lang where
  word i := [Char.ofNat (97 + i / 676 % 26), Char.ofNat (97 + i / 26 % 26), Char.ofNat (97 + i % 26)]
  sha bs := Sample.byteSum bs
  norm s := s

theorem Sample.letter (n : Nat) : (Char.ofNat (97 + n % 26)).toNat = 97 + n % 26 := by
  have : n % 26 < 26 := Nat.mod_lt _ (by omega)
  generalize n % 26 = k at *
  have hv : (97 + k).isValidChar := Or.inl (by omega)
  rw [Char.ofNat, dif_pos hv]
  rfl

theorem Sample.lang_wordlist : Wordlist Sample.lang where
  distinct i j hi hj h := by
    simp only [Sample.lang, List.cons.injEq, and_true] at h
    obtain ⟨h1, h2, h3⟩ := h
    have h1 := congrArg Char.toNat h1
    have h2 := congrArg Char.toNat h2
    have h3 := congrArg Char.toNat h3
    rw [Sample.letter, Sample.letter] at h1 h2 h3
    omega
  letters i _ := by
    refine ⟨by simp [Sample.lang], ?_⟩
    intro c hc
    have key : ∀ n, 'a' ≤ Char.ofNat (97 + n % 26) ∧ Char.ofNat (97 + n % 26) ≤ 'z' := by
      intro n
      have hn := Sample.letter n
      have : n % 26 < 26 := Nat.mod_lt _ (by omega)
      exact ⟨show 97 ≤ Char.toNat _ by omega, show Char.toNat _ ≤ 122 by omega⟩
    simp only [Sample.lang, List.mem_cons, List.not_mem_nil, or_false] at hc
    rcases hc with rfl | rfl | rfl <;> apply key
  ascii s _ := rfl

/-- A seed. -/
def Sample.seed : Arr 16 := ⟨[200, 1, 0, 0, 0, 255, 7, 8, 9, 10, 11, 12, 13, 14, 15, 16], rfl⟩

/-! ## C41: seed key derivation commits to the index -/

/-- The key of an index: the key pair of the hash of the hashed seed followed by the eight bytes of the index. -/
theorem C41_derivation (E : Ed) (H : Hasher) (seed : Arr 16) (i : U64) :
    (Seed.privateKey E H seed i).1 = (H ((H seed.1).1 ++ le64 i.toNat)).1 ++ (E.expand (H ((H seed.1).1 ++ le64 i.toNat))).1 := by
  rw [le64_eq]; rfl

/-- Private keys that coincide for different indices give a collision of the hash. -/
theorem C41_private (E : Ed) (H : Hasher) (seed : Arr 16) (i j : U64) (hij : i ≠ j)
    (h : Seed.privateKey E H seed i = Seed.privateKey E H seed j) :
    Collide H ((H seed.1).1 ++ le64 i.toNat) ((H seed.1).1 ++ le64 j.toNat) := by
  have h1 := congrArg Subtype.val h
  rw [C41_derivation, C41_derivation] at h1
  refine ⟨fun e => hij ?_, Subtype.ext (List.append_inj_left h1 (by rw [(H _).2, (H _).2]))⟩
  exact BitVec.eq_of_toNat_eq (le64_inj i.isLt j.isLt (List.append_cancel_left e))

/-- Public keys that coincide for different indices give a collision of the hash or of key expansion. -/
theorem C41_public (E : Ed) (H : Hasher) (seed : Arr 16) (i j : U64) (hij : i ≠ j)
    (h : PrivateKey.publicKey (Seed.privateKey E H seed i) = PrivateKey.publicKey (Seed.privateKey E H seed j)) :
    Collide H ((H seed.1).1 ++ le64 i.toNat) ((H seed.1).1 ++ le64 j.toNat) ∨
      Collide E.expand (H ((H seed.1).1 ++ le64 i.toNat)) (H ((H seed.1).1 ++ le64 j.toNat)) := by
  have h1 := congrArg Subtype.val h
  simp only [PrivateKey.publicKey] at h1
  rw [C41_derivation, C41_derivation, List.drop_left' (H _).2, List.drop_left' (H _).2] at h1
  have hne : (H seed.1).1 ++ le64 i.toNat ≠ (H seed.1).1 ++ le64 j.toNat := fun e =>
    hij (BitVec.eq_of_toNat_eq (le64_inj i.isLt j.isLt (List.append_cancel_left e)))
  by_cases hc : H ((H seed.1).1 ++ le64 i.toNat) = H ((H seed.1).1 ++ le64 j.toNat)
  · exact Or.inl ⟨hne, hc⟩
  · exact Or.inr ⟨hc, Subtype.ext h1⟩

/-- Private keys of two seeds and two indices coincide only for the same seed and index, or with a collision of the hash. -/
theorem C41_seeds (E : Ed) (H : Hasher) (s t : Arr 16) (i j : U64) (h : Seed.privateKey E H s i = Seed.privateKey E H t j) :
    (s = t ∧ i = j) ∨ Collide H s.1 t.1 ∨ Collide H ((H s.1).1 ++ le64 i.toNat) ((H t.1).1 ++ le64 j.toNat) := by
  have h1 := congrArg Subtype.val h
  rw [C41_derivation, C41_derivation] at h1
  have h2 := Subtype.ext (List.append_inj_left h1 (by rw [(H _).2, (H _).2]))
  by_cases hx : (H s.1).1 ++ le64 i.toNat = (H t.1).1 ++ le64 j.toNat
  · obtain ⟨a, b⟩ := List.append_inj hx (by rw [(H _).2, (H _).2])
    by_cases hs : s = t
    · exact Or.inl ⟨hs, BitVec.eq_of_toNat_eq (le64_inj i.isLt j.isLt b)⟩
    · exact Or.inr (Or.inl ⟨fun e => hs (Subtype.ext e), Subtype.ext a⟩)
  · exact Or.inr (Or.inr ⟨hx, h2⟩)

/-- Two indices of one seed with different keys, and two (256 apart in the toy hash's eyes: same byte sum) with the same. -/
example : Seed.privateKey Sample.ed Sample.byteSum (Arr.zero 16) 1 ≠ Seed.privateKey Sample.ed Sample.byteSum (Arr.zero 16) 2 := by decide +kernel
example : (1 : U64) ≠ 256 ∧ Seed.privateKey Sample.ed Sample.byteSum (Arr.zero 16) 1 = Seed.privateKey Sample.ed Sample.byteSum (Arr.zero 16) 256 := by
  decide +kernel

/-! ## C48: signing round trip -/

/-- What a key made from a seed signs, its public key accepts. -/
theorem C48_signs (E : Ed) (hE : Signs E) (seed : Arr 32) (h : Hash256) :
    PublicKey.verify E (PrivateKey.publicKey (PrivateKey.fromSeed E seed)) h (PrivateKey.signHash E (PrivateKey.fromSeed E seed) h) = .ok true := by
  have h1 : PrivateKey.publicKey (PrivateKey.fromSeed E seed) = E.expand seed := Subtype.ext (List.drop_left' seed.2)
  have h2 : PrivateKey.signHash E (PrivateKey.fromSeed E seed) h = E.sign seed h.1 := by
    unfold PrivateKey.signHash
    congr 1
    exact Subtype.ext (List.take_left' seed.2)
  obtain ⟨a, b⟩ := hE seed
  rw [h1, h2, PublicKey.verify, if_pos a, b]

/-- Verification panics exactly on keys that are not curve points. -/
theorem C48_panics (E : Ed) (k : Arr 32) (h : Hash256) (s : Arr 64) : PublicKey.verify E k h s = .panic ↔ E.point k = false := by
  unfold PublicKey.verify
  cases E.point k <;> simp

/-- Otherwise it answers, and the answer is that of the scheme on the 32 bytes of the hash. -/
theorem C48_answers (E : Ed) (k : Arr 32) (h : Hash256) (s : Arr 64) (b : Bool) :
    PublicKey.verify E k h s = .ok b ↔ E.point k = true ∧ E.check k h.1 s = b := by
  unfold PublicKey.verify
  cases E.point k <;> simp

/-- A key given as 64 bytes signs for its own public key whenever its second half is the public key of its first. -/
theorem C48_bytes (E : Ed) (hE : Signs E) (a b : Arr 32) (k : Arr 64) (hk : k.1 = a.1 ++ b.1) (hb : b = E.expand a) (h : Hash256) :
    PublicKey.verify E (PrivateKey.publicKey k) h (PrivateKey.signHash E k h) = .ok true := by
  have : k = PrivateKey.fromSeed E a := Subtype.ext (by rw [hk, hb]; rfl)
  rw [this]; exact C48_signs E hE a h

/-- Without that (`From<[u8; 64]>` does not check it) the signature need not verify, and verifying it can panic. -/
theorem C48_not_bytes : ∃ E, Signs E ∧
    (∃ (k : Arr 64) (h : Hash256), PublicKey.verify E (PrivateKey.publicKey k) h (PrivateKey.signHash E k h) = .ok false) ∧
    (∃ (k : Arr 64) (h : Hash256), PublicKey.verify E (PrivateKey.publicKey k) h (PrivateKey.signHash E k h) = .panic) := by
  refine ⟨Sample.ed, Sample.ed_signs, ⟨⟨List.replicate 32 0 ++ 1 :: List.replicate 31 7, by decide⟩, Arr.zero 32, by decide +kernel⟩,
    ⟨Arr.zero 64, Arr.zero 32, by decide +kernel⟩⟩

example : PublicKey.verify Sample.ed (PrivateKey.publicKey (PrivateKey.fromSeed Sample.ed (Sample.h 5))) (Sample.h 9)
    (PrivateKey.signHash Sample.ed (PrivateKey.fromSeed Sample.ed (Sample.h 5)) (Sample.h 9)) = .ok true := C48_signs _ Sample.ed_signs _ _
example : PublicKey.verify Sample.ed (PrivateKey.publicKey (PrivateKey.fromSeed Sample.ed (Sample.h 5))) (Sample.h 8)
    (PrivateKey.signHash Sample.ed (PrivateKey.fromSeed Sample.ed (Sample.h 5)) (Sample.h 9)) = .ok false := by decide +kernel

/-! ## C49: mnemonic phrases -/

/-- Text becomes a seed exactly if it is a phrase of 12 listed words, separated by white space, whose positions read as digits in base 2048 are the
seed followed by the four checksum bits. -/
theorem C49_accepts (L : Lang) (hL : Wordlist L) (s : List Char) (seed : Arr 16) : Seed.fromMnemonic L s = .ok seed ↔ IsPhrase L s seed.1 := by
  rw [← parseMnemonic_iff hL]
  unfold Seed.fromMnemonic
  cases parseMnemonic L s with
  | none => simp
  | some buf =>
    simp only [Option.some.injEq]
    split
    · simp [Subtype.ext_iff]
    · rename_i hb
      simp only [reduceCtorEq, false_iff]
      intro h; exact hb (h ▸ seed.2)

/-- `InvalidLength` is the answer to longer phrases that are otherwise right. -/
theorem C49_too_long (L : Lang) (hL : Wordlist L) (s : List Char) :
    Seed.fromMnemonic L s = .error .invalidLength ↔ ∃ e, e.length ∈ [20, 24, 28, 32] ∧ IsPhrase L s e := by
  constructor
  · intro h
    unfold Seed.fromMnemonic at h
    cases hp : parseMnemonic L s with
    | none => simp [hp] at h
    | some e =>
      have := (parseMnemonic_iff hL s e).mp hp
      rw [hp] at h
      simp only [] at h
      split at h
      · cases h
      · rename_i hb
        refine ⟨e, ?_, this⟩
        obtain ⟨is, ⟨_, h2, h3, _⟩, _⟩ := this
        simp at h2 ⊢
        omega
  · rintro ⟨e, he, hp⟩
    unfold Seed.fromMnemonic
    rw [(parseMnemonic_iff hL s e).mpr hp]
    simp only []
    rw [dif_neg (by simp at he; omega)]

/-- Any other text is a `MnemonicError`. -/
theorem C49_rejects (L : Lang) (hL : Wordlist L) (s : List Char) : Seed.fromMnemonic L s = .error .mnemonic ↔ ∀ e, ¬ IsPhrase L s e := by
  unfold Seed.fromMnemonic
  cases hp : parseMnemonic L s with
  | none =>
    simp only [true_iff]
    intro e he
    rw [← parseMnemonic_iff hL, hp] at he
    cases he
  | some e =>
    have := (parseMnemonic_iff hL s e).mp hp
    constructor
    · intro h
      simp only [] at h
      split at h <;> cases h
    · intro h; exact absurd this (h e)

/-- Writing a seed never panics and gives the words that encode it with single spaces between. -/
theorem C49_writes (L : Lang) (seed : Arr 16) :
    ∃ is, Encodes L.sha is seed.1 ∧ Seed.toMnemonic L seed = .ok (List.intercalate [' '] (is.map L.word)) := by
  unfold Seed.toMnemonic
  cases h : entropyWords L seed.1 with
  | none =>
    exfalso
    unfold entropyWords at h
    rw [if_neg (by rw [seed.2]; decide)] at h
    cases h
  | some is =>
    refine ⟨is, (entropyWords_iff L seed.1 is).mp h, ?_⟩
    simp only [Res.ok.injEq]
    clear h
    induction is with
    | nil => rfl
    | cons i is ih =>
      cases is with
      | nil => simp [showWords, List.intercalate]
      | cons j is =>
        rw [showWords, ih]
        · simp [List.intercalate]
        · intro h; cases h

/-- Reading back the phrase written for a seed gives the seed. -/
theorem C49_round_trip (L : Lang) (hL : Wordlist L) (seed : Arr 16) : ∃ s, Seed.toMnemonic L seed = .ok s ∧ Seed.fromMnemonic L s = .ok seed := by
  obtain ⟨is, henc, _⟩ := C49_writes L seed
  refine ⟨showWords L is, ?_, ?_⟩
  · rw [Seed.toMnemonic, (entropyWords_iff L seed.1 is).mpr henc]
  · rw [C49_accepts L hL]
    obtain ⟨h1, h2⟩ := showWords_spaced hL is henc.1
    exact ⟨is, henc, by rw [hL.ascii _ h2]; exact h1⟩

/-- Phrases of one seed have the same words; a phrase is not one of two seeds. -/
theorem C49_unique (L : Lang) (hL : Wordlist L) (s t : List Char) (a b : Arr 16) (hs : Seed.fromMnemonic L s = .ok a)
    (ht : Seed.fromMnemonic L t = .ok b) : a = b ↔ ∃ ws, Spaced ws (L.norm s) ∧ Spaced ws (L.norm t) := by
  rw [C49_accepts L hL] at hs ht
  obtain ⟨is, h1, h2⟩ := hs
  obtain ⟨js, h3, h4⟩ := ht
  constructor
  · rintro rfl
    rw [← encodes_words h1 h3] at h4
    exact ⟨_, h2, h4⟩
  · rintro ⟨ws, hs, ht⟩
    have h : is.map L.word = js.map L.word := by
      rw [← (splitWhite_iff _ _).mpr h2, ← (splitWhite_iff _ _).mpr h4, (splitWhite_iff _ _).mpr hs, (splitWhite_iff _ _).mpr ht]
    have : is = js := by
      have hf := (findWords_iff hL (is.map L.word) is).mpr ⟨h1.1, rfl⟩
      rw [h, (findWords_iff hL (js.map L.word) js).mpr ⟨h3.1, rfl⟩] at hf
      injection hf with hf
      exact hf.symm
    subst this
    exact Subtype.ext (encodes_bytes h1 h3)

/-- A seed and its phrase in the toy language; the phrase with line breaks; with a wrong last word; with an unknown word; cut short. -/
example : Seed.toMnemonic Sample.lang Sample.seed = .ok "cjo acm aaa aap cvz boq ald aud ads bgd boo ajz".toList ∧
    Seed.fromMnemonic Sample.lang "cjo acm aaa aap cvz boq ald aud ads bgd boo ajz".toList = .ok Sample.seed ∧
    Seed.fromMnemonic Sample.lang " cjo acm aaa aap\n\ncvz boq ald aud\nads bgd boo ajz\n".toList = .ok Sample.seed ∧
    Seed.fromMnemonic Sample.lang "cjo acm aaa aap cvz boq ald aud ads bgd boo ajy".toList = .error .mnemonic ∧
    Seed.fromMnemonic Sample.lang "cjo acm aaa aap cvz boq ald aud ads bgd boo zzz".toList = .error .mnemonic ∧
    Seed.fromMnemonic Sample.lang "cjo acm aaa aap cvz boq ald aud ads bgd boo".toList = .error .mnemonic := by
  decide +kernel

/-- A right phrase of fifteen words. -/
example : Seed.fromMnemonic Sample.lang "aaa aaa aaa aaa aaa aaa aaa aaa aaa aaa aaa aaa aaa aaa aaa".toList = .error .invalidLength := by decide +kernel

end Verif
