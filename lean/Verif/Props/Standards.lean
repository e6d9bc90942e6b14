import Verif.Spec.Standards
import Verif.Props.Sha2
import Verif.Props.Layout
import Verif.Props.Ed25519
import Verif.Props.Helpers
import Verif.Lemmas.EnglishHash

/-!
# C82 for identifiers, keys, signatures and phrases

The digests of C82 put into what other properties say of the API: no hash function of the model is left on the side of the definitions.
-/

namespace Verif

open Spec Ed25519 Layout

/-- C82: identifiers and what is signed. -/
theorem C82_identifiers (t : V1.Transaction) (u : V2.Transaction) (d : Derivation) (cs : ChainState) (s : Signed) (p : Arr 32) (k l : U64) :
    Blake (v1Unsigned t) (t.id Blake2b.hash).1 ∧ Blake (v2Effects u) (u.id Blake2b.hash).1 ∧ Blake (derivation d) (d.eval Blake2b.hash).1 ∧
      Blake (wholeTransaction (replay cs) t p k l) (t.wholeSigHash Blake2b.hash cs p k l).1 ∧
      Blake (signedMessage (replay cs) s) (s.sigHash Blake2b.hash cs).1 := by
  simp only [Blake, C82_blake2b]
  rw [(C56_transaction_ids Blake2b.hash t u).1, (C56_transaction_ids Blake2b.hash t u).2, C56_derived_ids, C56_v1_whole, C56_v2_signatures]
  exact ⟨rfl, rfl, rfl, rfl, rfl⟩

theorem blake_iff (bs out : List UInt8) : Blake bs out ↔ out = (Blake2b.hash bs).1 := C82_blake2b bs out

theorem sha256_iff (bs out : List UInt8) (h : 8 * bs.length < 2 ^ 64) : Sha256 bs out ↔ out = (Sha2.sha256 bs).1 := C82_sha256 bs out h

theorem sha512_iff (bs out : List UInt8) (h : 8 * bs.length < 2 ^ 128) : Sha512 bs out ↔ out = (Sha2.sha512 bs).1 := C82_sha512 bs out h

/-- C82: a signature is accepted exactly if its second half is a number below the order and its first half encodes the point that the number, the SHA-512 of
first half, key and hash, and the point of the key determine. -/
theorem C82_accepts (key : Arr 32) (h : Hash256) (sig : Arr 64) : PublicKey.verify ed25519 key h sig = .ok true ↔
    ∃ A digest, Decoded key.1 A ∧ leNat (sig.1.drop 32) < order ∧ Sha512 (sig.1.take 32 ++ key.1 ++ h.1) digest ∧
      Encoded (leNat (sig.1.drop 32) • basePoint - (leNat digest % order) • A) (sig.1.take 32) := by
  have hl : 8 * (sig.1.take 32 ++ key.1 ++ h.1).length < 2 ^ 128 := by
    simp only [List.length_append, List.length_take, sig.2, key.2, h.2]
    decide
  rw [C72_accepts]
  constructor
  · rintro ⟨A, h1, h2, h3⟩
    exact ⟨A, _, h1, h2, (sha512_iff _ _ hl).mpr rfl, h3⟩
  · rintro ⟨A, digest, h1, h2, h3, h4⟩
    rw [(sha512_iff _ _ hl).mp h3] at h4
    exact ⟨A, h1, h2, h4⟩

theorem clamped_clamp (bs : List UInt8) (n : Nat) : Clamped bs n ↔ n = clamp (leVal bs) := by
  have key : Clamped bs (clamp (leVal bs)) := by
    refine ⟨by unfold clamp; omega, fun j hj => ?_⟩
    rw [leNat_eq]
    generalize leVal _ = n
    unfold clamp
    have e : n % 2 ^ 254 / 8 * 8 = 2 ^ 3 * (n % 2 ^ 254 / 2 ^ 3) := by omega
    have lt : n % 2 ^ 254 / 8 * 8 < 2 ^ 254 := by omega
    rcases Nat.lt_trichotomy j 254 with h | rfl | h
    · rw [Nat.add_comm, Nat.testBit_two_pow_add_gt h, e, Nat.testBit_two_pow_mul, Nat.testBit_div_two_pow, Nat.testBit_mod_two_pow]
      by_cases h3 : 3 ≤ j
      · simp [h3, show ¬ j < 3 by omega, show j ≠ 255 by omega, show j ≠ 254 by omega, h, Nat.sub_add_cancel h3]
      · simp [h3, show j < 3 by omega]
    · rw [Nat.add_comm, Nat.testBit_two_pow_add_eq, Nat.testBit_lt_two_pow lt]
      simp
    · obtain rfl : j = 255 := by omega
      rw [Nat.testBit_lt_two_pow (by omega)]
      simp
  refine ⟨fun h => Nat.eq_of_testBit_eq fun j => ?_, fun h => h ▸ key⟩
  by_cases hj : j < 256
  · rw [h.2 j hj, key.2 j hj]
  · have : (2 : Nat) ^ 256 ≤ 2 ^ j := Nat.pow_le_pow_right (by omega) (by omega)
    rw [Nat.testBit_lt_two_pow (h.1.trans_le this), Nat.testBit_lt_two_pow (key.1.trans_le this)]

theorem keyOf_iff (seed : Arr 32) (n : Nat) (nonce key : List UInt8) : KeyOf seed.1 n nonce key ↔
    n = clamp (leVal ((Sha2.sha512 seed.1).1.take 32)) ∧ nonce = nonceKey Sha2.sha512 seed ∧ key = (publicKey Sha2.sha512 seed).1 := by
  have hl : 8 * seed.1.length < 2 ^ 128 := by rw [seed.2]; decide
  have e : Encoded (clamp (leVal ((Sha2.sha512 seed.1).1.take 32)) • basePoint) (publicKey Sha2.sha512 seed).1 := by
    have := publicKey_encoded Sha2.sha512 seed
    rwa [scalar, mod_order] at this
  constructor
  · rintro ⟨c, h1, h2, h3, h4⟩
    obtain rfl := (sha512_iff _ _ hl).mp h1
    obtain rfl := (clamped_clamp _ _).mp h2
    exact ⟨Eq.refl _, h3, encoded_bytes h4 e⟩
  · rintro ⟨h1, h2, h3⟩
    rw [h1, h2, h3]
    exact ⟨_, (sha512_iff _ _ hl).mpr (Eq.refl _), (clamped_clamp _ _).mpr (Eq.refl _), Eq.refl _, e⟩

/-- C82: from the bytes of a seed to a key pair.  Hash the seed, hash that and the index, and take the result as the seed of a key pair. -/
theorem C82_private_key (seed : Arr 16) (index : U64) (key : Arr 64) : Seed.privateKey ed25519 Blake2b.hash seed index = key ↔
    ∃ a n nonce, Blake seed.1 a ∧ Blake (a ++ le64 index.toNat) (key.1.take 32) ∧ KeyOf (key.1.take 32) n nonce (key.1.drop 32) := by
  have e := C41_derivation ed25519 Blake2b.hash seed index
  rw [ed25519_expand] at e
  constructor
  · rintro rfl
    rw [e, List.take_left' (Blake2b.hash _).2, List.drop_left' (Blake2b.hash _).2]
    exact ⟨_, _, _, (blake_iff _ _).mpr rfl, (blake_iff _ _).mpr rfl, (keyOf_iff _ _ _ _).mpr ⟨rfl, rfl, rfl⟩⟩
  · rintro ⟨a, n, nonce, h1, h2, h3⟩
    obtain rfl := (blake_iff _ _).mp h1
    have h2 := (blake_iff _ _).mp h2
    rw [h2] at h3
    have h3 := ((keyOf_iff _ _ _ _).mp h3).2.2
    refine Subtype.ext ?_
    rw [e, ← h2, ← h3, List.take_append_drop]

/-- C82: what a private key signs is the signature of the standard, made with its first half. -/
theorem C82_signs (key : Arr 64) (h : Hash256) (sig : Arr 64) : PrivateKey.signHash ed25519 key h = sig ↔ SignatureOf (key.1.take 32) h.1 sig.1 := by
  have hs : (key.1.take 32).length = 32 := by rw [List.length_take, key.2]; rfl
  have l1 : 8 * (nonceKey Sha2.sha512 ⟨key.1.take 32, hs⟩ ++ h.1).length < 2 ^ 128 := by
    simp only [nonceKey, List.length_append, List.length_drop, (Sha2.sha512 _).2, h.2]
    decide
  have l2 : ∀ s : List UInt8, 8 * (s.take 32 ++ (publicKey Sha2.sha512 ⟨key.1.take 32, hs⟩).1 ++ h.1).length < 2 ^ 128 := fun s => by
    have : (s.take 32).length ≤ 32 := by rw [List.length_take]; omega
    have : 8 * (s.take 32 ++ (publicKey Sha2.sha512 ⟨key.1.take 32, hs⟩).1 ++ h.1).length ≤ 8 * 96 := by
      simp only [List.length_append, (publicKey _ _).2, h.2]
      omega
    exact this.trans_lt (by decide)
  have hR := encoded_compress (rep_mulBase (hashScalar Sha2.sha512 (nonceKey Sha2.sha512 ⟨key.1.take 32, hs⟩ ++ h.1)) ((hashScalar_lt _ _).trans order_lt))
  have hm : ∀ bs, hashScalar Sha2.sha512 bs • basePoint = leNat (Sha2.sha512 bs).1 • basePoint := fun bs => by rw [hashScalar, mod_order, leNat_eq]
  rw [hm] at hR
  have sum : ∀ r k n : Nat, (k % order * (n % order) + r % order) % order = (r + k * n) % order := fun r k n => by
    rw [Nat.add_comm, Nat.mod_add_mod, Nat.add_mod, ← Nat.mul_mod, ← Nat.add_mod]
  have lt : ∀ n, n % order < 256 ^ 32 := fun n => (Nat.mod_lt n order_pos).trans (by decide +kernel)
  have half : (PrivateKey.signHash ed25519 key h).1 =
      (mulBase (hashScalar Sha2.sha512 (nonceKey Sha2.sha512 ⟨key.1.take 32, hs⟩ ++ h.1))).compress.1 ++
        leBytes 32 ((hashScalar Sha2.sha512 ((mulBase (hashScalar Sha2.sha512 (nonceKey Sha2.sha512 ⟨key.1.take 32, hs⟩ ++ h.1))).compress.1 ++
          (publicKey Sha2.sha512 ⟨key.1.take 32, hs⟩).1 ++ h.1) * scalar Sha2.sha512 ⟨key.1.take 32, hs⟩ +
          hashScalar Sha2.sha512 (nonceKey Sha2.sha512 ⟨key.1.take 32, hs⟩ ++ h.1)) % order) := rfl
  have good : SignatureOf (key.1.take 32) h.1 (PrivateKey.signHash ed25519 key h).1 := by
    refine ⟨_, _, _, _, _, (keyOf_iff ⟨key.1.take 32, hs⟩ _ _ _).mpr ⟨rfl, rfl, rfl⟩, (sha512_iff _ _ l1).mpr rfl, (PrivateKey.signHash ed25519 key h).2, ?_,
      (sha512_iff _ _ (l2 _)).mpr rfl, ?_⟩
    · rw [half, List.take_left' (Pt.compress _).2]
      exact hR
    · rw [half, List.take_left' (Pt.compress _).2, List.drop_left' (Pt.compress _).2, leNat_eq, leVal_leBytes_of_lt (lt _)]
      rw [leNat_eq, leNat_eq, ← sum]
      rfl
  constructor
  · rintro rfl
    exact good
  · rintro ⟨n, nonce, pk, r, k, h1, h2, h3, h4, h5, h6⟩
    obtain ⟨n', nonce', pk', r', k', g1, g2, g3, g4, g5, g6⟩ := good
    obtain ⟨a1, a2, a3⟩ := (keyOf_iff ⟨key.1.take 32, hs⟩ _ _ _).mp h1
    obtain ⟨b1, b2, b3⟩ := (keyOf_iff ⟨key.1.take 32, hs⟩ _ _ _).mp g1
    rw [a2] at h2
    rw [b2] at g2
    rw [a3] at h5
    rw [b3] at g5
    rw [a1] at h6
    rw [b1] at g6
    have h2 := (sha512_iff _ _ l1).mp h2
    have g2 := (sha512_iff _ _ l1).mp g2
    rw [h2] at h4 h6
    rw [g2] at g4 g6
    have e := encoded_bytes g4 h4
    have h5 := (sha512_iff _ _ (l2 _)).mp h5
    have g5 := (sha512_iff _ _ (l2 _)).mp g5
    rw [e, ← h5] at g5
    rw [g5] at g6
    have e' : leVal ((PrivateKey.signHash ed25519 key h).1.drop 32) = leVal (sig.1.drop 32) := by rw [← leNat_eq, ← leNat_eq, g6, h6]
    have a := leBytes_leVal ((PrivateKey.signHash ed25519 key h).1.drop 32)
    have b := leBytes_leVal (sig.1.drop 32)
    rw [List.length_drop, (PrivateKey.signHash ed25519 key h).2, e'] at a
    rw [List.length_drop, sig.2, a] at b
    exact Subtype.ext (by rw [← List.take_append_drop 32 (PrivateKey.signHash ed25519 key h).1, ← List.take_append_drop 32 sig.1, e, b])

/-- C82: the phrases that are read.  Twelve words of the English list whose positions in base 2048 are the seed and the first four bits of its SHA-256. -/
theorem C82_phrase (norm : List Char → List Char) (hn : KeepsAscii norm) (s : List Char) (seed : Arr 16) : Seed.fromMnemonic (english norm) s = .ok seed ↔
    ∃ digest is, Sha256 seed.1 digest ∧ is.length = 12 ∧ (∀ i ∈ is, i < 2048) ∧ base2048 is = beNat seed.1 * 16 + beNat digest / 2 ^ 252 ∧
      Spaced (is.map fun i => English.list.getD i []) (norm s) := by
  have hl : 8 * seed.1.length < 2 ^ 64 := by rw [seed.2]; decide
  rw [(C49_english norm hn).1]
  constructor
  · rintro ⟨is, ⟨h1, h2, h3, h4⟩, h5⟩
    rw [seed.2] at h3 h4
    exact ⟨_, is, (sha256_iff _ _ hl).mpr rfl, by omega, h1, h4, h5⟩
  · rintro ⟨digest, is, h0, h1, h2, h3, h4⟩
    rw [(sha256_iff _ _ hl).mp h0] at h3
    refine ⟨is, ⟨h2, by simp [h1], by rw [h1, seed.2], ?_⟩, h4⟩
    rw [seed.2]
    exact h3

/-- C82: the address of the standard unlock conditions of a key. -/
theorem C82_standard_address (k : PublicKey) (a : Address) : (UnlockConditions.standard k).address Blake2b.hash = .ok a ↔
    ∃ t l s n, Blake Standard.timelockLeaf t ∧ Blake (Standard.keyLeaf k) l ∧ Blake Standard.signaturesLeaf s ∧ Blake (1 :: (t ++ l)) n ∧ Blake (1 :: (n ++ s)) a.1 := by
  rw [C61_standard_address, Res.ok.injEq]
  constructor
  · rintro rfl
    exact ⟨_, _, _, _, (blake_iff _ _).mpr rfl, (blake_iff _ _).mpr rfl, (blake_iff _ _).mpr rfl, (blake_iff _ _).mpr rfl, (blake_iff _ _).mpr rfl⟩
  · rintro ⟨t, l, s, n, h1, h2, h3, h4, h5⟩
    rw [blake_iff] at h1 h2 h3 h4 h5
    subst h1 h2 h3 h4
    exact Subtype.ext h5.symm

/-- C82: the address of the policy of a key. -/
theorem C82_key_address (k : PublicKey) (a : Address) : (SpendPolicy.publicKey k).address Blake2b.hash = .ok a ↔
    Blake (Layout.text "sia/address|" ++ [1, 3] ++ k.1) a.1 := by
  rw [address_of (.publicKey k), blake_iff, Res.ok.injEq]
  exact ⟨fun h => h ▸ rfl, fun h => Subtype.ext h.symm⟩

/-- C82: the texts that are read as an address: the hex text of the address and the first six bytes of its hash. -/
theorem C82_address_text (s : List UInt8) (a : Address) : parseAddress Blake2b.hash s = .ok a ↔ ∃ c, Blake a.1 c ∧ HexText s (a.1 ++ c.take 6) := by
  rw [C18_accepts]
  exact ⟨fun h => ⟨_, (blake_iff _ _).mpr rfl, h⟩, fun ⟨c, h1, h2⟩ => by rwa [(blake_iff _ _).mp h1] at h2⟩

/-- C82: the word list is that of the BIP39 document: 2048 words, and the SHA-256 of the file of one word per line is the published one. -/
theorem C82_words : English.list.length = 2048 ∧
    Sha256 (English.list.flatMap fun w => w.map (fun c => UInt8.ofNat c.toNat) ++ [10])
      [0x2f, 0x5e, 0xed, 0x53, 0xa4, 0x72, 0x7b, 0x4b, 0xf8, 0x88, 0x0d, 0x8f, 0x3f, 0x19, 0x9e, 0xfc, 0x90, 0xe5, 0x85, 0x03, 0x64, 0x6d, 0x9f, 0xf8,
        0xef, 0xf3, 0xa2, 0xed, 0x3b, 0x24, 0xdb, 0xda] := by
  refine ⟨by decide +kernel, ?_⟩
  have h := English.file_length
  rw [English.file] at h
  refine (sha256_iff _ _ (by rw [h]; decide)).mpr ?_
  exact English.sha_file.symm

/-- The signature of a hash, and the phrase of the seed of zeros. -/
example : SignatureOf ((PrivateKey.fromSeed ed25519 (Sample.h 5)).1.take 32) (Sample.h 9).1 (PrivateKey.signHash ed25519 (PrivateKey.fromSeed ed25519 (Sample.h 5))
    (Sample.h 9)).1 := (C82_signs _ _ _).mp rfl

example : KeepsAscii id ∧ ∃ s, Seed.fromMnemonic (english id) s = .ok ⟨List.replicate 16 0, rfl⟩ :=
  ⟨fun _ _ => rfl, ((C49_english id fun _ _ => rfl).2.2.2 ⟨List.replicate 16 0, rfl⟩).imp fun _ h => h.2⟩

/-- Seeds are not private keys: the key of a seed is not the seed. -/
example : ¬ ∃ a n nonce, Blake (List.replicate 16 0) a ∧ Blake (a ++ le64 0) (List.replicate 32 0) ∧ KeyOf (List.replicate 32 0) n nonce (List.replicate 32 0) := by
  intro h
  have := (C82_private_key ⟨List.replicate 16 0, rfl⟩ 0 ⟨List.replicate 64 0, rfl⟩).mpr h
  have := congrArg (fun k : Arr 64 => k.1.take 32) this
  revert this
  simp only [C41_derivation, List.take_left' (Blake2b.hash _).2]
  decide +kernel

/-- The address of nothing but zeros, as the documents of the tests show it. -/
example : ∃ c, Blake (List.replicate 32 0) c ∧ HexText (ascii "000000000000000000000000000000000000000000000000000000000000000089eb0d6a8a69") (List.replicate 32 0 ++ c.take 6) :=
  (C82_address_text _ ⟨List.replicate 32 0, rfl⟩).mp (by decide +kernel)

end Verif
