import Mathlib.GroupTheory.OrderOfElement
import Verif.Lemmas.Ed25519
import Verif.Lemmas.English
import Verif.Props.Signing

/-!
# C41, C48 and C49 for the real ed25519 and word list; what a signature binds: C72

`Ed25519.scheme sha` is ed25519 with an arbitrary hash function of 64 bytes in place of SHA-512; `ed25519` is the one with SHA-512.
-/

namespace Verif

open Spec Ed25519

/-! ## C48: the correctness law holds -/

/-- ed25519 obeys the correctness law, whatever the hash function. -/
theorem C48_law (sha : List UInt8 → Arr 64) : Signs (scheme sha) := by
  intro seed
  rw [scheme_expand, scheme_sign, scheme_check, scheme_point]
  exact ⟨(decompress_isSome _).mpr ⟨_, decoded_encoded (publicKey_encoded sha seed)⟩, check_sign sha seed⟩

/-- What a key made from a seed signs, its public key accepts. -/
theorem C48_ed25519 (seed : Arr 32) (h : Hash256) :
    PublicKey.verify ed25519 (PrivateKey.publicKey (PrivateKey.fromSeed ed25519 seed)) h
      (PrivateKey.signHash ed25519 (PrivateKey.fromSeed ed25519 seed) h) = .ok true := C48_signs ed25519 (C48_law _) seed h

/-- So does every key derived from a recovery phrase. -/
theorem C48_derived (H : Hasher) (seed : Arr 16) (i : U64) (h : Hash256) :
    PublicKey.verify ed25519 (PrivateKey.publicKey (Seed.privateKey ed25519 H seed i)) h
      (PrivateKey.signHash ed25519 (Seed.privateKey ed25519 H seed i) h) = .ok true := C48_ed25519 _ h

/-- Verification panics exactly on bytes that are not those of a point. -/
theorem C48_no_point (k : Arr 32) (h : Hash256) (s : Arr 64) : PublicKey.verify ed25519 k h s = .panic ↔ ¬ ∃ A, Decoded k.1 A := by
  rw [C48_panics, ← decompress_isSome, Bool.not_eq_true]
  rfl

/-- There are such bytes: no point has `y = 2`. -/
theorem C48_not_total : ∃ k, ∀ h s, PublicKey.verify ed25519 k h s = .panic :=
  ⟨⟨2 :: List.replicate 31 0, rfl⟩, fun h s => (C48_panics _ _ _ _).mpr (by decide +kernel)⟩

example : PublicKey.verify ed25519 (PrivateKey.publicKey (PrivateKey.fromSeed ed25519 (Sample.h 5))) (Sample.h 8)
    (PrivateKey.signHash ed25519 (PrivateKey.fromSeed ed25519 (Sample.h 5)) (Sample.h 9)) = .ok false := by decide +kernel

/-! ## C72: what a signature binds -/

/-- A signature is accepted exactly if its second half is a number `s` below the order and its first half is the canonical encoding of `s B - k A`,
where `A` is the point of the key and `k` the SHA-512 of first half, key and hash. -/
theorem C72_accepts (key : Arr 32) (h : Hash256) (sig : Arr 64) : PublicKey.verify ed25519 key h sig = .ok true ↔
    ∃ A, Decoded key.1 A ∧ leNat (sig.1.drop 32) < order ∧
      Encoded (leNat (sig.1.drop 32) • basePoint - (leNat (Sha2.sha512 (sig.1.take 32 ++ key.1 ++ h.1)).1 % order) • A) (sig.1.take 32) := by
  rw [C48_answers]
  have := check_iff Sha2.sha512 key h.1 sig
  constructor
  · rintro ⟨-, h2⟩
    exact this.mp h2
  · intro h2
    exact ⟨(decompress_isSome _).mpr (h2.imp fun _ h => h.1), this.mpr h2⟩

/-- Bytes are those of at most one point, and a point has one canonical encoding, which is no other point's. -/
theorem C72_encoding : (∀ bs A B, Decoded bs A → Decoded bs B → A = B) ∧ (∀ A, ∃! bs, Encoded A bs) ∧
    (∀ bs A, Encoded A bs → Decoded bs A) ∧ ∀ bs A B, Encoded A bs → Encoded B bs → A = B := by
  refine ⟨fun _ _ _ => decoded_unique, fun A => ?_, fun _ _ => decoded_encoded, fun _ _ _ => encoded_inj⟩
  have hlt : A.y.val + A.x.val % 2 * 2 ^ 255 < 256 ^ 32 := by
    have := val_lt A.y
    have : p < 2 ^ 255 := by decide +kernel
    rw [← two_le]; omega
  have he : Encoded A (leBytes 32 (A.y.val + A.x.val % 2 * 2 ^ 255)) := ⟨leBytes_length _ _, by rw [leNat_eq, leVal_leBytes_of_lt hlt]⟩
  exact ⟨_, he, fun cs hc => encoded_bytes hc he⟩

/-- The base point has the given order, a prime. -/
theorem C72_order : addOrderOf basePoint = order ∧ order.Prime := by
  have : Fact order.Prime := ⟨Ed25519.Prime.order_prime⟩
  refine ⟨addOrderOf_eq_prime order_base fun h => ?_, Ed25519.Prime.order_prime⟩
  have := congrArg Point.y h
  exact Curve.cast_ne (a := 46316835694926478169428394003475163141307993866256225615783033603165251855960) (b := 1) (by decide +kernel)
    (by decide +kernel) (by decide +kernel) (this.trans Nat.cast_one.symm)

theorem base_inj {a b : Nat} (ha : a < order) (hb : b < order) (h : a • basePoint = b • basePoint) : a = b := by
  have := nsmul_injOn_Iio_addOrderOf (x := basePoint)
  rw [C72_order.1] at this
  exact this ha hb h

theorem base_mod {a b : Nat} (h : a • basePoint = b • basePoint) : a % order = b % order :=
  base_inj (Nat.mod_lt _ order_pos) (Nat.mod_lt _ order_pos) (by rw [mod_order, mod_order, h])

/-- Signatures are not malleable in their second half: two that are accepted for the same key and hash and have the same first half are the same. -/
theorem C72_one_scalar (key : Arr 32) (h : Hash256) (s t : Arr 64) (hs : PublicKey.verify ed25519 key h s = .ok true)
    (ht : PublicKey.verify ed25519 key h t = .ok true) (hR : s.1.take 32 = t.1.take 32) : s = t := by
  rw [C72_accepts] at hs ht
  obtain ⟨A, hA, hs1, hs2⟩ := hs
  obtain ⟨B, hB, ht1, ht2⟩ := ht
  rw [← decoded_unique hA hB, ← hR] at ht2
  have := base_inj hs1 ht1 (sub_left_inj.mp (encoded_inj hs2 ht2))
  have hd : s.1.drop 32 = t.1.drop 32 := by
    rw [leNat_eq, leNat_eq] at this
    rw [← leBytes_leVal (s.1.drop 32), ← leBytes_leVal (t.1.drop 32), this, List.length_drop, List.length_drop, s.2, t.2]
  exact Subtype.ext (by rw [← List.take_append_drop 32 s.1, ← List.take_append_drop 32 t.1, hR, hd])

/-- The scalar of a seed is the clamped first half of its hash modulo the order: a multiple of eight from `2 ^ 254` to `2 ^ 255`.  It is never zero. -/
theorem C72_scalar (sha : List UInt8 → Arr 64) (seed : Arr 32) : ∃ n, scalar sha seed = n % order ∧ 8 ∣ n ∧ 2 ^ 254 ≤ n ∧ n < 2 ^ 255 ∧
    (∀ j, 3 ≤ j → j < 254 → n.testBit j = (leNat ((sha seed.1).1.take 32)).testBit j) ∧ scalar sha seed ≠ 0 := by
  refine ⟨clamp (leVal ((sha seed.1).1.take 32)), rfl, ?_, ?_, ?_, ?_, ?_⟩
  · unfold clamp; omega
  · unfold clamp; omega
  · unfold clamp; omega
  · intro j h3 h254
    rw [leNat_eq]
    generalize leVal ((sha seed.1).1.take 32) = n
    unfold clamp
    rw [Nat.add_comm, Nat.testBit_two_pow_add_gt h254, show n % 2 ^ 254 / 8 * 8 = 2 ^ 3 * (n % 2 ^ 254 / 2 ^ 3) by omega, Nat.testBit_two_pow_mul,
      Nat.testBit_div_two_pow, Nat.testBit_mod_two_pow]
    simp [h3, h254, Nat.sub_add_cancel h3]
  · have h1 : 8 ∣ clamp (leVal ((sha seed.1).1.take 32)) := by unfold clamp; omega
    have h2 : clamp (leVal ((sha seed.1).1.take 32)) < 2 ^ 255 := by unfold clamp; omega
    have h3 : 0 < clamp (leVal ((sha seed.1).1.take 32)) := by unfold clamp; omega
    rw [scalar]
    generalize clamp (leVal ((sha seed.1).1.take 32)) = n at *
    intro h0
    have h4 : order ∣ n := Nat.dvd_of_mod_eq_zero h0
    have h5 : 8 * order ∣ n := Nat.Coprime.mul_dvd_of_dvd_of_dvd (by decide +kernel) h1 h4
    have h6 := Nat.le_of_dvd h3 h5
    have h7 : (2 : Nat) ^ 255 < 8 * order := by decide +kernel
    omega

/-- The public key of a seed is the canonical encoding of a point of prime order. -/
theorem C72_public_key (seed : Arr 32) : ∃ A, Encoded A (ed25519.expand seed).1 ∧ addOrderOf A = order := by
  refine ⟨_, publicKey_encoded Sha2.sha512 seed, ?_⟩
  have : Fact order.Prime := ⟨Ed25519.Prime.order_prime⟩
  refine addOrderOf_eq_prime ?_ ?_
  · rw [smul_comm, order_base, smul_zero]
  · intro h0
    obtain ⟨n, -, -, -, -, -, hne⟩ := C72_scalar Sha2.sha512 seed
    exact hne (base_inj (scalar_lt _ _) order_pos (h0.trans (zero_smul Nat basePoint).symm))

/-- For a key made from a seed, the accepted signatures are those with `R = r B` and `s = r + k a` modulo the order, for some `r`. -/
theorem C72_seed_key (seed : Arr 32) (h : Hash256) (sig : Arr 64) : PublicKey.verify ed25519 (ed25519.expand seed) h sig = .ok true ↔
    ∃ r, r < order ∧ Encoded (r • basePoint) (sig.1.take 32) ∧ leNat (sig.1.drop 32) =
      (r + leNat (Sha2.sha512 (sig.1.take 32 ++ (ed25519.expand seed).1 ++ h.1)).1 * scalar Sha2.sha512 seed) % order := by
  rw [C72_accepts]
  have hp := publicKey_encoded Sha2.sha512 seed
  rw [← ed25519_expand] at hp
  generalize leNat (Sha2.sha512 (sig.1.take 32 ++ (ed25519.expand seed).1 ++ h.1)).1 = k
  generalize leNat (sig.1.drop 32) = s
  generalize scalar Sha2.sha512 seed = a at *
  have smul_mod : (k % order) • (a • basePoint) = (k * a) • basePoint := by
    rw [smul_comm, mod_order, smul_comm, mul_smul]
  constructor
  · rintro ⟨A, hA, hs, he⟩
    rw [decoded_unique hA (decoded_encoded hp), smul_mod] at he
    have hka : k * a ≤ s + k * a * order := le_trans (Nat.le_mul_of_pos_right _ order_pos) (Nat.le_add_left _ _)
    have hr : (s + k * a * order - k * a) • basePoint = s • basePoint - (k * a) • basePoint := by
      rw [eq_sub_iff_add_eq, ← _root_.add_smul, Nat.sub_add_cancel hka, _root_.add_smul, mul_smul, order_base, smul_zero, _root_.add_zero]
    refine ⟨(s + k * a * order - k * a) % order, Nat.mod_lt _ order_pos, by rw [mod_order, hr]; exact he, ?_⟩
    rw [Nat.mod_add_mod, Nat.sub_add_cancel hka, Nat.add_mul_mod_self_right, Nat.mod_eq_of_lt hs]
  · rintro ⟨r, -, hR, rfl⟩
    refine ⟨_, decoded_encoded hp, Nat.mod_lt _ order_pos, ?_⟩
    rw [smul_mod, mod_order, _root_.add_smul, add_sub_cancel_right]
    exact hR

/-- A signature accepted for two hashes by a key made from a seed gives two inputs of SHA-512 with the same remainder modulo the order. -/
theorem C72_binds (seed : Arr 32) (g h : Hash256) (sig : Arr 64) (hg : PublicKey.verify ed25519 (ed25519.expand seed) g sig = .ok true)
    (hh : PublicKey.verify ed25519 (ed25519.expand seed) h sig = .ok true) (hne : g ≠ h) :
    Collide (fun bs => leNat (Sha2.sha512 bs).1 % order) (sig.1.take 32 ++ (ed25519.expand seed).1 ++ g.1)
      (sig.1.take 32 ++ (ed25519.expand seed).1 ++ h.1) := by
  refine ⟨fun e => hne (Subtype.ext (List.append_cancel_left e)), ?_⟩
  rw [C72_accepts] at hg hh
  obtain ⟨A, hA, -, h1⟩ := hg
  obtain ⟨B, hB, -, h2⟩ := hh
  rw [← decoded_unique hA hB] at h2
  obtain ⟨C, hC, hord⟩ := C72_public_key seed
  rw [← decoded_unique hA (decoded_encoded hC)] at hord
  have := nsmul_injOn_Iio_addOrderOf (x := A)
  rw [hord] at this
  exact this (Nat.mod_lt _ order_pos) (Nat.mod_lt _ order_pos) (sub_right_inj.mp (encoded_inj h1 h2))

/-- Other keys need not bind: for the bytes `01 00 … 00`, which are those of the neutral element, one signature is accepted for every hash. -/
theorem C72_not_binds : ∃ key sig, ∀ h, PublicKey.verify ed25519 key h sig = .ok true := by
  have hz : Encoded 0 (1 :: List.replicate 31 0) := ⟨rfl, by
    rw [Point.zero_x, Point.zero_y, ZMod.val_zero, show (1 : F) = ((1 : Nat) : F) by simp, val_cast (by decide +kernel)]
    decide +kernel⟩
  refine ⟨⟨1 :: List.replicate 31 0, rfl⟩, ⟨1 :: List.replicate 63 0, rfl⟩, fun h => ?_⟩
  rw [C72_accepts]
  refine ⟨0, decoded_encoded hz, by decide +kernel, ?_⟩
  rw [show leNat (List.drop 32 (1 :: List.replicate 63 (0 : UInt8))) = 0 by decide +kernel, zero_smul, smul_zero, sub_zero]
  exact hz

/-- Nor does the point of a key determine its bytes: `ee ff … 7f`, one more than the prime, is the neutral element too. -/
theorem C72_not_canonical : ∃ (k l : Arr 32) (A : Point), k ≠ l ∧ Decoded k.1 A ∧ Decoded l.1 A := by
  refine ⟨⟨1 :: List.replicate 31 0, rfl⟩, ⟨0xee :: (List.replicate 30 0xff ++ [0x7f]), rfl⟩, 0, by decide +kernel, ⟨rfl, ?_, Or.inl rfl⟩,
    ⟨rfl, ?_, Or.inl rfl⟩⟩
  · rw [Point.zero_y, ← Nat.cast_one]; exact Curve.cast_eq (by decide +kernel)
  · rw [Point.zero_y, ← Nat.cast_one]; exact Curve.cast_eq (by decide +kernel)

/-! ## C41: public keys of different indices -/

/-- Public keys that coincide for different indices give a collision of the hash, or two different 32-byte seeds with the same clamped SHA-512 modulo
the order. -/
theorem C41_ed25519 (H : Hasher) (seed : Arr 16) (i j : U64) (hij : i ≠ j)
    (h : PrivateKey.publicKey (Seed.privateKey ed25519 H seed i) = PrivateKey.publicKey (Seed.privateKey ed25519 H seed j)) :
    Collide H ((H seed.1).1 ++ le64 i.toNat) ((H seed.1).1 ++ le64 j.toNat) ∨
      Collide (scalar Sha2.sha512) (H ((H seed.1).1 ++ le64 i.toNat)) (H ((H seed.1).1 ++ le64 j.toNat)) := by
  refine (C41_public ed25519 H seed i j hij h).imp id fun ⟨h1, h2⟩ => ⟨h1, ?_⟩
  have a := publicKey_encoded Sha2.sha512 (H ((H seed.1).1 ++ le64 i.toNat))
  have b := publicKey_encoded Sha2.sha512 (H ((H seed.1).1 ++ le64 j.toNat))
  rw [← ed25519_expand] at a b
  rw [h2] at a
  exact base_inj (scalar_lt _ _) (scalar_lt _ _) (encoded_inj a b)

/-! ## C49: the English words -/

/-- Normalisation to NFKD leaves ASCII alone. -/
def KeepsAscii (norm : List Char → List Char) : Prop := ∀ s, (∀ c ∈ s, c.toNat < 128) → norm s = s

/-- Everything C49 says, of the English list and SHA-256. -/
theorem C49_english (norm : List Char → List Char) (hn : KeepsAscii norm) :
    (∀ s seed, Seed.fromMnemonic (english norm) s = .ok seed ↔ IsPhrase (english norm) s seed.1) ∧
      (∀ s, Seed.fromMnemonic (english norm) s = .error .invalidLength ↔ ∃ e, e.length ∈ [20, 24, 28, 32] ∧ IsPhrase (english norm) s e) ∧
      (∀ s, Seed.fromMnemonic (english norm) s = .error .mnemonic ↔ ∀ e, ¬ IsPhrase (english norm) s e) ∧
      ∀ seed, ∃ s, Seed.toMnemonic (english norm) seed = .ok s ∧ Seed.fromMnemonic (english norm) s = .ok seed :=
  ⟨C49_accepts _ (english_wordlist norm hn), C49_too_long _ (english_wordlist norm hn), C49_rejects _ (english_wordlist norm hn),
    C49_round_trip _ (english_wordlist norm hn)⟩

/-- What is written does not depend on the normalisation, and is read back. -/
theorem C49_english_phrase (norm : List Char → List Char) (hn : KeepsAscii norm) (seed : Arr 16) (s : List Char)
    (h : Seed.toMnemonic (english id) seed = .ok s) : Seed.toMnemonic (english norm) seed = .ok s ∧ Seed.fromMnemonic (english norm) s = .ok seed := by
  obtain ⟨t, h1, h2⟩ := C49_round_trip _ (english_wordlist norm hn) seed
  have h3 : Seed.toMnemonic (english norm) seed = Seed.toMnemonic (english id) seed := by
    have hw : ∀ is, showWords (english norm) is = showWords (english id) is := by
      intro is
      induction is with
      | nil => rfl
      | cons i is ih =>
        cases is with
        | nil => rfl
        | cons j is =>
          show _ ++ ' ' :: showWords (english norm) (j :: is) = _ ++ ' ' :: showWords (english id) (j :: is)
          rw [ih]
          rfl
    unfold Seed.toMnemonic
    rw [show entropyWords (english norm) seed.1 = entropyWords (english id) seed.1 from rfl]
    split <;> simp [hw]
  rw [h3, h] at h1
  cases h1
  exact ⟨h3.trans h, h2⟩

example : KeepsAscii id := fun _ _ => rfl
example : Seed.fromMnemonic (english id) "zoo zoo zoo zoo zoo zoo zoo zoo zoo zoo zoo wrong".toList = .ok ⟨List.replicate 16 255, rfl⟩ :=
  (C49_english_phrase id (fun _ _ => rfl) _ _ (by decide +kernel)).2

end Verif
