import Verif.Spec.Sha2

/-!
# BLAKE2b with 32 bytes of output and no key as RFC 7693 defines it

Words are bit vectors, vectors of words are functions, and assignments are made one after the other as in the RFC.  Nothing of the model of the function is
used.
-/

namespace Verif.Spec.Blake2b

abbrev Word := BitVec 64

/-- `v[i] := x`. -/
def assign (v : Nat → Word) (i : Nat) (x : Word) : Nat → Word := fun j => if j = i then x else v j

/-- The mixing function G (section 3.1). -/
def G (v : Nat → Word) (a b c d : Nat) (x y : Word) : Nat → Word :=
  let v := assign v a (v a + v b + x)
  let v := assign v d ((v d ^^^ v a).rotateRight 32)
  let v := assign v c (v c + v d)
  let v := assign v b ((v b ^^^ v c).rotateRight 24)
  let v := assign v a (v a + v b + y)
  let v := assign v d ((v d ^^^ v a).rotateRight 16)
  let v := assign v c (v c + v d)
  assign v b ((v b ^^^ v c).rotateRight 63)

/-- SIGMA (section 2.7). -/
def SIGMA : List (List Nat) :=
  [[0, 1, 2, 3, 4, 5, 6, 7, 8, 9, 10, 11, 12, 13, 14, 15],
   [14, 10, 4, 8, 9, 15, 13, 6, 1, 12, 0, 2, 11, 7, 5, 3],
   [11, 8, 12, 0, 5, 2, 15, 13, 10, 14, 3, 6, 7, 1, 9, 4],
   [7, 9, 3, 1, 13, 12, 11, 14, 2, 6, 5, 10, 4, 0, 15, 8],
   [9, 0, 5, 7, 2, 4, 10, 15, 14, 1, 11, 12, 6, 8, 3, 13],
   [2, 12, 6, 10, 0, 11, 8, 3, 4, 13, 7, 5, 15, 14, 1, 9],
   [12, 5, 1, 15, 14, 13, 4, 10, 0, 7, 6, 3, 9, 2, 8, 11],
   [13, 11, 7, 14, 12, 1, 3, 9, 5, 0, 15, 4, 8, 6, 2, 10],
   [6, 15, 14, 9, 11, 3, 0, 8, 12, 2, 13, 7, 1, 4, 10, 5],
   [10, 2, 8, 4, 7, 6, 1, 5, 15, 11, 9, 14, 3, 12, 13, 0]]

/-- Round `i` (section 3.2): the columns and then the diagonals. -/
def oneRound (m : Nat → Word) (i : Nat) (v : Nat → Word) : Nat → Word :=
  let s := fun j => m ((SIGMA.getD (i % 10) []).getD j 0)
  let v := G v 0 4 8 12 (s 0) (s 1)
  let v := G v 1 5 9 13 (s 2) (s 3)
  let v := G v 2 6 10 14 (s 4) (s 5)
  let v := G v 3 7 11 15 (s 6) (s 7)
  let v := G v 0 5 10 15 (s 8) (s 9)
  let v := G v 1 6 11 12 (s 10) (s 11)
  let v := G v 2 7 8 13 (s 12) (s 13)
  G v 3 4 9 14 (s 14) (s 15)

/-- The first rounds. -/
def manyRounds (m : Nat → Word) : Nat → (Nat → Word) → Nat → Word
  | 0, v => v
  | i + 1, v => oneRound m i (manyRounds m i v)

/-- The compression function F (section 3.2); `t` is the offset and `f` the final block flag. -/
def F (IV h m : Nat → Word) (t : Nat) (f : Bool) : Nat → Word :=
  let v : Nat → Word := fun i => if i < 8 then h i else IV (i - 8)
  let v := assign v 12 (v 12 ^^^ BitVec.ofNat 64 t)
  let v := assign v 13 (v 13 ^^^ BitVec.ofNat 64 (t / 2 ^ 64))
  let v := if f then assign v 14 (~~~ (v 14)) else v
  let v := manyRounds m 12 v
  fun i => h i ^^^ v i ^^^ v (i + 8)

/-- Word `j` of block `i`, least significant byte first; bytes after the end are zero. -/
def word (bs : List UInt8) (i j : Nat) : Word := BitVec.ofNat 64 (((List.range 8).map fun b => (bs.getD (128 * i + 8 * j + b) 0).toNat * 256 ^ b).sum)

/-- The number of blocks; the empty message has one. -/
def blocks (bs : List UInt8) : Nat := max 1 ((bs.length + 127) / 128)

/-- The value before block `i` (section 3.3), for an output of 32 bytes and no key. -/
def value (IV : Nat → Word) (bs : List UInt8) : Nat → Nat → Word
  | 0 => assign IV 0 (IV 0 ^^^ 0x01010000 ^^^ 32)
  | i + 1 => F IV (value IV bs i) (word bs i) (128 * (i + 1)) false

/-- `out` is the hash of the message: its bytes are those of the first four words of the last value, least significant first.  The initialisation vector are bits
of the square roots of the first eight primes (section 2.6). -/
def Hashes (bs out : List UInt8) : Prop := ∃ IV : Nat → Word, Sha2.AllRootBits 2 64 (Sha2.primesBelow 20) ((List.range 8).map fun i => (IV i).toNat) ∧
  out.length = 32 ∧ ∀ i < 32, (out.getD i 0).toNat =
    (F IV (value IV bs (blocks bs - 1)) (word bs (blocks bs - 1)) bs.length true (i / 8)).toNat / 256 ^ (i % 8) % 256

end Verif.Spec.Blake2b
