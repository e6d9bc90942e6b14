import Verif.Model.Prim

/-!
# SHA-256 and SHA-512 as FIPS 180-4 defines them

Words are bit vectors of 32 or 64 bits.  Nothing of the model of the two functions is used.
-/

namespace Verif.Spec.Sha2

/-- The number a byte string is with the most significant byte first. -/
def bigEndian (bs : List UInt8) : Nat := bs.foldl (fun x b => 256 * x + b.toNat) 0

/-- Three numbers for each of the functions Σ₀, Σ₁, σ₀ and σ₁ (section 4.1). -/
structure Turns where
  big0 : Nat × Nat × Nat
  big1 : Nat × Nat × Nat
  small0 : Nat × Nat × Nat
  small1 : Nat × Nat × Nat

/-- Section 4.1.2. -/
def turns256 : Turns := ⟨(2, 13, 22), (6, 11, 25), (7, 18, 3), (17, 19, 10)⟩

/-- Section 4.1.3. -/
def turns512 : Turns := ⟨(28, 34, 39), (14, 18, 41), (1, 8, 7), (19, 61, 6)⟩

/-- The first `n` bits of the fractional part of the `r`-th root of `p` are `k`. -/
def RootBits (r n p k : Nat) : Prop := k < 2 ^ n ∧ ∃ c, (c * 2 ^ n + k) ^ r ≤ p * 2 ^ (r * n) ∧ p * 2 ^ (r * n) < (c * 2 ^ n + k + 1) ^ r

/-- One number for each prime. -/
def AllRootBits (r n : Nat) (ps ks : List Nat) : Prop := ks.length = ps.length ∧ ∀ pk ∈ ps.zip ks, RootBits r n pk.1 pk.2

/-- The prime numbers below `m` in order. -/
def primesBelow (m : Nat) : List Nat := (List.range m).filter fun p => 2 ≤ p ∧ ∀ d < p, d ∣ p → d = 1

variable {n : Nat}

/-- Three rotations. -/
def bigSigma (r : Nat × Nat × Nat) (x : BitVec n) : BitVec n := x.rotateRight r.1 ^^^ x.rotateRight r.2.1 ^^^ x.rotateRight r.2.2

/-- Two rotations and a shift. -/
def smallSigma (r : Nat × Nat × Nat) (x : BitVec n) : BitVec n := x.rotateRight r.1 ^^^ x.rotateRight r.2.1 ^^^ (x >>> r.2.2)

def ch (x y z : BitVec n) : BitVec n := (x &&& y) ^^^ (~~~x &&& z)

def maj (x y z : BitVec n) : BitVec n := (x &&& y) ^^^ (x &&& z) ^^^ (y &&& z)

/-- The message schedule (section 6.2.2 step 1) of a block `m` of sixteen words. -/
def schedule (T : Turns) (m : Nat → BitVec n) (t : Nat) : BitVec n :=
  if t < 16 then m t
  else smallSigma T.small1 (schedule T m (t - 2)) + schedule T m (t - 7) + smallSigma T.small0 (schedule T m (t - 15)) + schedule T m (t - 16)

/-- The working variables. -/
structure Vars (n : Nat) where
  a : BitVec n
  b : BitVec n
  c : BitVec n
  d : BitVec n
  e : BitVec n
  f : BitVec n
  g : BitVec n
  h : BitVec n

/-- A round (section 6.2.2 step 3). -/
def step (T : Turns) (k w : BitVec n) (s : Vars n) : Vars n :=
  let t1 := s.h + bigSigma T.big1 s.e + ch s.e s.f s.g + k + w
  let t2 := bigSigma T.big0 s.a + maj s.a s.b s.c
  ⟨t1 + t2, s.a, s.b, s.c, s.d + t1, s.e, s.f, s.g⟩

/-- A round for each constant, from round `t` on. -/
def run (T : Turns) (w : Nat → BitVec n) : List Nat → Nat → Vars n → Vars n
  | [], _, s => s
  | k :: ks, t, s => run T w ks (t + 1) (step T (BitVec.ofNat n k) (w t) s)

/-- Sums of the words (section 6.2.2 step 4). -/
def Vars.add (s t : Vars n) : Vars n := ⟨s.a + t.a, s.b + t.b, s.c + t.c, s.d + t.d, s.e + t.e, s.f + t.f, s.g + t.g, s.h + t.h⟩

/-- Word `j` of block `i`. -/
def word (n : Nat) (padded : List UInt8) (i j : Nat) : BitVec n := BitVec.ofNat n (bigEndian ((padded.drop ((16 * i + j) * (n / 8))).take (n / 8)))

/-- The hash value after `i` blocks. -/
def value (T : Turns) (ks : List Nat) (iv : Vars n) (padded : List UInt8) : Nat → Vars n
  | 0 => iv
  | i + 1 => (value T ks iv padded i).add (run T (schedule T (word n padded i)) ks 0 (value T ks iv padded i))

/-- Padding (section 5.1): a one bit, the fewest zeros after which the length of the message in bits, in two words, ends a block. -/
def Padded (n : Nat) (bs padded : List UInt8) : Prop := ∃ zeros length,
  padded = bs ++ 0x80 :: (List.replicate zeros 0 ++ length) ∧ zeros < 16 * (n / 8) ∧ length.length = 2 * (n / 8) ∧ bigEndian length = 8 * bs.length ∧
  16 * (n / 8) ∣ padded.length

/-- The words of the variables one after the other. -/
def Digest (s : Vars n) (out : List UInt8) : Prop := out.length = 8 * (n / 8) ∧
  ∀ i x, [s.a, s.b, s.c, s.d, s.e, s.f, s.g, s.h][i]? = some x → bigEndian ((out.drop (i * (n / 8))).take (n / 8)) = x.toNat

/-- `out` is the digest of the message: the constants are bits of cube roots and the first value bits of square roots of primes. -/
def Hashes (n : Nat) (T : Turns) (primes : List Nat) (bs out : List UInt8) : Prop := ∃ (ks : List Nat) (iv : Vars n) (padded : List UInt8),
  AllRootBits 3 n primes ks ∧
  AllRootBits 2 n (primesBelow 20) ([iv.a, iv.b, iv.c, iv.d, iv.e, iv.f, iv.g, iv.h].map BitVec.toNat) ∧
  Padded n bs padded ∧ Digest (value T ks iv padded (padded.length / (16 * (n / 8)))) out

end Verif.Spec.Sha2
