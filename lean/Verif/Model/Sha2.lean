import Verif.Model.Blake2b

/-!
# SHA-256 and SHA-512 (FIPS 180-4)

`bip39` takes the checksum of a phrase from SHA-256 and `ed25519_dalek` hashes with SHA-512.  Neither crate is part of the repository, so this follows
the standard.  The two functions have the same shape and differ in the numbers of `Params`.  Words are natural numbers below `2 ^ bits`.
-/

namespace Verif.Sha2

open Blake2b (force)

/-- The numbers in which the two functions differ. -/
structure Params where
  /-- Width of a word. -/
  bits : Nat
  /-- One constant for each round (FIPS 180-4 section 4.2). -/
  k : List Nat
  /-- The first chaining value (section 5.3). -/
  iv : List Nat
  /-- Rotations of the functions Σ₀ and Σ₁ (section 4.1). -/
  big0 : Nat × Nat × Nat
  big1 : Nat × Nat × Nat
  /-- Two rotations and a shift, of the functions σ₀ and σ₁ (section 4.1). -/
  small0 : Nat × Nat × Nat
  small1 : Nat × Nat × Nat

/-- The round constants of SHA-256: the first 32 bits of the fractional parts of the cube roots of the first 64 primes (section 4.2.2). -/
def k256 : List Nat :=
  [0x428a2f98, 0x71374491, 0xb5c0fbcf, 0xe9b5dba5, 0x3956c25b, 0x59f111f1, 0x923f82a4, 0xab1c5ed5, 0xd807aa98, 0x12835b01, 0x243185be,
   0x550c7dc3, 0x72be5d74, 0x80deb1fe, 0x9bdc06a7, 0xc19bf174, 0xe49b69c1, 0xefbe4786, 0x0fc19dc6, 0x240ca1cc, 0x2de92c6f, 0x4a7484aa,
   0x5cb0a9dc, 0x76f988da, 0x983e5152, 0xa831c66d, 0xb00327c8, 0xbf597fc7, 0xc6e00bf3, 0xd5a79147, 0x06ca6351, 0x14292967, 0x27b70a85,
   0x2e1b2138, 0x4d2c6dfc, 0x53380d13, 0x650a7354, 0x766a0abb, 0x81c2c92e, 0x92722c85, 0xa2bfe8a1, 0xa81a664b, 0xc24b8b70, 0xc76c51a3,
   0xd192e819, 0xd6990624, 0xf40e3585, 0x106aa070, 0x19a4c116, 0x1e376c08, 0x2748774c, 0x34b0bcb5, 0x391c0cb3, 0x4ed8aa4a, 0x5b9cca4f,
   0x682e6ff3, 0x748f82ee, 0x78a5636f, 0x84c87814, 0x8cc70208, 0x90befffa, 0xa4506ceb, 0xbef9a3f7, 0xc67178f2]

/-- The round constants of SHA-512: the first 64 bits of the fractional parts of the cube roots of the first 80 primes (section 4.2.3). -/
def k512 : List Nat :=
  [0x428a2f98d728ae22, 0x7137449123ef65cd, 0xb5c0fbcfec4d3b2f, 0xe9b5dba58189dbbc, 0x3956c25bf348b538, 0x59f111f1b605d019,
   0x923f82a4af194f9b, 0xab1c5ed5da6d8118, 0xd807aa98a3030242, 0x12835b0145706fbe, 0x243185be4ee4b28c, 0x550c7dc3d5ffb4e2,
   0x72be5d74f27b896f, 0x80deb1fe3b1696b1, 0x9bdc06a725c71235, 0xc19bf174cf692694, 0xe49b69c19ef14ad2, 0xefbe4786384f25e3,
   0x0fc19dc68b8cd5b5, 0x240ca1cc77ac9c65, 0x2de92c6f592b0275, 0x4a7484aa6ea6e483, 0x5cb0a9dcbd41fbd4, 0x76f988da831153b5,
   0x983e5152ee66dfab, 0xa831c66d2db43210, 0xb00327c898fb213f, 0xbf597fc7beef0ee4, 0xc6e00bf33da88fc2, 0xd5a79147930aa725,
   0x06ca6351e003826f, 0x142929670a0e6e70, 0x27b70a8546d22ffc, 0x2e1b21385c26c926, 0x4d2c6dfc5ac42aed, 0x53380d139d95b3df,
   0x650a73548baf63de, 0x766a0abb3c77b2a8, 0x81c2c92e47edaee6, 0x92722c851482353b, 0xa2bfe8a14cf10364, 0xa81a664bbc423001,
   0xc24b8b70d0f89791, 0xc76c51a30654be30, 0xd192e819d6ef5218, 0xd69906245565a910, 0xf40e35855771202a, 0x106aa07032bbd1b8,
   0x19a4c116b8d2d0c8, 0x1e376c085141ab53, 0x2748774cdf8eeb99, 0x34b0bcb5e19b48a8, 0x391c0cb3c5c95a63, 0x4ed8aa4ae3418acb,
   0x5b9cca4f7763e373, 0x682e6ff3d6b2b8a3, 0x748f82ee5defb2fc, 0x78a5636f43172f60, 0x84c87814a1f0ab72, 0x8cc702081a6439ec,
   0x90befffa23631e28, 0xa4506cebde82bde9, 0xbef9a3f7b2c67915, 0xc67178f2e372532b, 0xca273eceea26619c, 0xd186b8c721c0c207,
   0xeada7dd6cde0eb1e, 0xf57d4f7fee6ed178, 0x06f067aa72176fba, 0x0a637dc5a2c898a6, 0x113f9804bef90dae, 0x1b710b35131c471b,
   0x28db77f523047d84, 0x32caab7b40c72493, 0x3c9ebe0a15c9bebc, 0x431d67c49c100d4c, 0x4cc5d4becb3e42b6, 0x597f299cfc657e2a,
   0x5fcb6fab3ad6faec, 0x6c44198c4a475817]

def p256 : Params where
  bits := 32
  k := k256
  iv :=
    [0x6a09e667, 0xbb67ae85, 0x3c6ef372, 0xa54ff53a, 0x510e527f, 0x9b05688c, 0x1f83d9ab, 0x5be0cd19]
  big0 := (2, 13, 22)
  big1 := (6, 11, 25)
  small0 := (7, 18, 3)
  small1 := (17, 19, 10)

def p512 : Params where
  bits := 64
  k := k512
  iv :=
    [0x6a09e667f3bcc908, 0xbb67ae8584caa73b, 0x3c6ef372fe94f82b, 0xa54ff53a5f1d36f1, 0x510e527fade682d1, 0x9b05688c2b3e6c1f,
     0x1f83d9abfb41bd6b, 0x5be0cd19137e2179]
  big0 := (28, 34, 39)
  big1 := (14, 18, 41)
  small0 := (1, 8, 7)
  small1 := (19, 61, 6)

variable (P : Params)

/-- Rotate a word right. -/
def rotr (x n : Nat) : Nat := (x >>> n) ||| ((x <<< (P.bits - n)) % 2 ^ P.bits)

/-- Σ: three rotations. -/
def big (r : Nat × Nat × Nat) (x : Nat) : Nat := rotr P x r.1 ^^^ rotr P x r.2.1 ^^^ rotr P x r.2.2

/-- σ: two rotations and a shift. -/
def small (r : Nat × Nat × Nat) (x : Nat) : Nat := rotr P x r.1 ^^^ rotr P x r.2.1 ^^^ (x >>> r.2.2)

/-- Ch: the first word selects between the other two. -/
def choose (x y z : Nat) : Nat := (x &&& y) ^^^ ((x ^^^ (2 ^ P.bits - 1)) &&& z)

/-- Maj: the majority of three words. -/
def majority (x y z : Nat) : Nat := (x &&& y) ^^^ (x &&& z) ^^^ (y &&& z)

/-- The next word of the message schedule (section 6.2.2 step 1), from the last sixteen. -/
def next (w : List Nat) : Nat :=
  (small P P.small1 (w.getD 14 0) + w.getD 9 0 + small P P.small0 (w.getD 1 0) + w.getD 0 0) % 2 ^ P.bits

/-- The rounds (section 6.2.2 step 3), one for each constant; `w` is the window of the next sixteen words of the schedule. -/
def rounds : List Nat → List Nat → Nat → Nat → Nat → Nat → Nat → Nat → Nat → Nat → List Nat
  | [], _, a, b, c, d, e, f, g, h => [a, b, c, d, e, f, g, h]
  | k :: ks, w, a, b, c, d, e, f, g, h =>
    force (h + big P P.big1 e + choose P e f g + k + w.getD 0 0) fun t1 =>
    force (big P P.big0 a + majority a b c) fun t2 =>
    force ((t1 + t2) % 2 ^ P.bits) fun a' =>
    force ((d + t1) % 2 ^ P.bits) fun e' =>
    force (next P w) fun n =>
    rounds ks (w.drop 1 ++ [n]) a' a b c e' e f g

/-- One block: chaining value and sixteen words. -/
def compress (h w : List Nat) : List Nat :=
  List.zipWith (fun x y => (x + y) % 2 ^ P.bits) h
    (rounds P P.k w (h.getD 0 0) (h.getD 1 0) (h.getD 2 0) (h.getD 3 0) (h.getD 4 0) (h.getD 5 0) (h.getD 6 0) (h.getD 7 0))

/-- Bytes in a word. -/
def Params.size : Nat := P.bits / 8

/-- The sixteen words of a block. -/
def words (block : List UInt8) : List Nat := (List.range 16).map fun i => beVal ((block.drop (P.size * i)).take P.size)

/-- Padding (section 5.1): a one bit, zeros up to the last two words of a block, and the length in bits in those two words. -/
def pad (bs : List UInt8) : List UInt8 :=
  bs ++ 0x80 :: (List.replicate ((16 * P.size - (bs.length + 1 + 2 * P.size) % (16 * P.size)) % (16 * P.size)) 0 ++ beBytes (2 * P.size) (bs.length * 8))

/-- All blocks.  The first argument is their number. -/
def chain : Nat → List Nat → List UInt8 → List Nat
  | 0, h, _ => h
  | n + 1, h, bs => chain n (compress P h (words P (bs.take (16 * P.size)))) (bs.drop (16 * P.size))

/-- The last chaining value of a message. -/
def final (bs : List UInt8) : List Nat := chain P ((pad P bs).length / (16 * P.size)) P.iv (pad P bs)

/-- SHA-256. -/
def sha256 (bs : List UInt8) : Arr 32 :=
  let h := final p256 bs
  ⟨beBytes 4 (h.getD 0 0) ++ beBytes 4 (h.getD 1 0) ++ beBytes 4 (h.getD 2 0) ++ beBytes 4 (h.getD 3 0) ++ beBytes 4 (h.getD 4 0)
    ++ beBytes 4 (h.getD 5 0) ++ beBytes 4 (h.getD 6 0) ++ beBytes 4 (h.getD 7 0), rfl⟩

/-- SHA-512. -/
def sha512 (bs : List UInt8) : Arr 64 :=
  let h := final p512 bs
  ⟨beBytes 8 (h.getD 0 0) ++ beBytes 8 (h.getD 1 0) ++ beBytes 8 (h.getD 2 0) ++ beBytes 8 (h.getD 3 0) ++ beBytes 8 (h.getD 4 0)
    ++ beBytes 8 (h.getD 5 0) ++ beBytes 8 (h.getD 6 0) ++ beBytes 8 (h.getD 7 0), rfl⟩

end Verif.Sha2
