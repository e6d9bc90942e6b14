import Verif.Lemmas.Sha2
import Verif.Lemmas.Blake2bSpec

/-!
# C82 the digests behind identifiers, keys and phrases
-/

namespace Verif

open Sha2 Spec.Sha2

/-- C82.  The checksum of a phrase is taken from SHA-256 as the standard defines it: for every message whose length fits, the model gives the one digest
that the definition allows. -/
theorem C82_sha256 (bs out : List UInt8) (h : 8 * bs.length < 2 ^ 64) : Hashes 32 turns256 (primesBelow 312) bs out ↔ out = (sha256 bs).1 := by
  have G : Good p256 := ⟨by decide, by decide, by decide, by decide, rfl, by decide, by decide +kernel⟩
  have hk : AllRootBits 3 p256.bits (primesBelow 312) p256.k := allRootBits_check (by decide +kernel) (by decide +kernel)
  have hv : AllRootBits 2 p256.bits (primesBelow 20) p256.iv := allRootBits_check (by decide +kernel) (by decide +kernel)
  have key := hashes_iff G hk ⟨0x6a09e667, 0xbb67ae85, 0x3c6ef372, 0xa54ff53a, 0x510e527f, 0x9b05688c, 0x1f83d9ab, 0x5be0cd19⟩ rfl hv bs h
  refine (key out).trans ⟨?_, fun e => ?_⟩
  · rintro ⟨s, h1, rfl⟩
    simp [sha256, h1, list, show p256.size = 4 from rfl]
  · obtain ⟨s, h1⟩ := final_list G ⟨0x6a09e667, 0xbb67ae85, 0x3c6ef372, 0xa54ff53a, 0x510e527f, 0x9b05688c, 0x1f83d9ab, 0x5be0cd19⟩ rfl bs
    refine ⟨s, h1, ?_⟩
    rw [e]
    simp [sha256, h1, list, show p256.size = 4 from rfl]

/-- C82.  Keys and signatures are made with SHA-512 as the standard defines it. -/
theorem C82_sha512 (bs out : List UInt8) (h : 8 * bs.length < 2 ^ 128) : Hashes 64 turns512 (primesBelow 410) bs out ↔ out = (sha512 bs).1 := by
  have G : Good p512 := ⟨by decide, by decide, by decide, by decide, rfl, by decide, by decide +kernel⟩
  have hk : AllRootBits 3 p512.bits (primesBelow 410) p512.k := allRootBits_check (by decide +kernel) (by decide +kernel)
  have hv : AllRootBits 2 p512.bits (primesBelow 20) p512.iv := allRootBits_check (by decide +kernel) (by decide +kernel)
  have key := hashes_iff G hk ⟨0x6a09e667f3bcc908, 0xbb67ae8584caa73b, 0x3c6ef372fe94f82b, 0xa54ff53a5f1d36f1, 0x510e527fade682d1, 0x9b05688c2b3e6c1f,
    0x1f83d9abfb41bd6b, 0x5be0cd19137e2179⟩ rfl hv bs h
  refine (key out).trans ⟨?_, fun e => ?_⟩
  · rintro ⟨s, h1, rfl⟩
    simp [sha512, h1, list, show p512.size = 8 from rfl]
  · obtain ⟨s, h1⟩ := final_list G ⟨0x6a09e667f3bcc908, 0xbb67ae8584caa73b, 0x3c6ef372fe94f82b, 0xa54ff53a5f1d36f1, 0x510e527fade682d1, 0x9b05688c2b3e6c1f,
      0x1f83d9abfb41bd6b, 0x5be0cd19137e2179⟩ rfl bs
    refine ⟨s, h1, ?_⟩
    rw [e]
    simp [sha512, h1, list, show p512.size = 8 from rfl]

/-- C82.  Identifiers, roots and addresses are made with BLAKE2b as the RFC defines it, for every message. -/
theorem C82_blake2b (bs out : List UInt8) : Spec.Blake2b.Hashes bs out ↔ out = (Blake2b.hash bs).1 :=
  Blake2b.hashes_iff bs out (allRootBits_check (by decide +kernel) (by decide +kernel))

/-- The hash of no bytes. -/
example : Spec.Blake2b.Hashes [] [0x0e, 0x57, 0x51, 0xc0, 0x26, 0xe5, 0x43, 0xb2, 0xe8, 0xab, 0x2e, 0xb0, 0x60, 0x99, 0xda, 0xa1, 0xd1, 0xe5, 0xdf, 0x47,
    0x77, 0x8f, 0x77, 0x87, 0xfa, 0xab, 0x45, 0xcd, 0xf1, 0x2f, 0xe3, 0xa8] := (C82_blake2b _ _).mpr (by decide +kernel)

/-- A message of two blocks has one and only one hash, and not that of its first block. -/
example : Spec.Blake2b.Hashes (List.replicate 129 0) (Blake2b.hash (List.replicate 129 0)).1 ∧
    ¬ Spec.Blake2b.Hashes (List.replicate 129 0) (Blake2b.hash (List.replicate 128 0)).1 :=
  ⟨(C82_blake2b _ _).mpr rfl, fun h => absurd ((C82_blake2b _ _).mp h) (by decide +kernel)⟩

/-- Sixty-four and eighty primes. -/
example : (primesBelow 312).length = 64 ∧ (primesBelow 410).length = 80 ∧ primesBelow 20 = [2, 3, 5, 7, 11, 13, 17, 19] := by decide +kernel

/-- The digest of "abc". -/
example : Hashes 32 turns256 (primesBelow 312) [97, 98, 99] [0xba, 0x78, 0x16, 0xbf, 0x8f, 0x01, 0xcf, 0xea, 0x41, 0x41, 0x40, 0xde, 0x5d, 0xae, 0x22, 0x23,
    0xb0, 0x03, 0x61, 0xa3, 0x96, 0x17, 0x7a, 0x9c, 0xb4, 0x10, 0xff, 0x61, 0xf2, 0x00, 0x15, 0xad] :=
  (C82_sha256 _ _ (by decide)).mpr (by decide +kernel)

end Verif
