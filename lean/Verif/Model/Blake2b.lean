import Verif.Model.Merkle

/-!
# BLAKE2b with 32 bytes of output (RFC 7693)

The model takes the hash function as a parameter.  This is the function the code passes for it, `Params::new().hash_length(32)` of `blake2b_simd`: no
key, no salt, sequential.  The crate's source is not part of the repository, so this follows the RFC.  Words are numbers below 2^64.
-/

namespace Verif.Blake2b

/-- The initialisation vector (RFC 7693 section 2.6). -/
def iv : List Nat := [0x6a09e667f3bcc908, 0xbb67ae8584caa73b, 0x3c6ef372fe94f82b, 0xa54ff53a5f1d36f1, 0x510e527fade682d1, 0x9b05688c2b3e6c1f,
  0x1f83d9abfb41bd6b, 0x5be0cd19137e2179]

/-- The message schedule (RFC 7693 section 2.7), one row for each of the twelve rounds. -/
def sigma : List (List Nat) :=
  [[0, 1, 2, 3, 4, 5, 6, 7, 8, 9, 10, 11, 12, 13, 14, 15],
   [14, 10, 4, 8, 9, 15, 13, 6, 1, 12, 0, 2, 11, 7, 5, 3],
   [11, 8, 12, 0, 5, 2, 15, 13, 10, 14, 3, 6, 7, 1, 9, 4],
   [7, 9, 3, 1, 13, 12, 11, 14, 2, 6, 5, 10, 4, 0, 15, 8],
   [9, 0, 5, 7, 2, 4, 10, 15, 14, 1, 11, 12, 6, 8, 3, 13],
   [2, 12, 6, 10, 0, 11, 8, 3, 4, 13, 7, 5, 15, 14, 1, 9],
   [12, 5, 1, 15, 14, 13, 4, 10, 0, 7, 6, 3, 9, 2, 8, 11],
   [13, 11, 7, 14, 12, 1, 3, 9, 5, 0, 15, 4, 8, 6, 2, 10],
   [6, 15, 14, 9, 11, 3, 0, 8, 12, 2, 13, 7, 1, 4, 10, 5],
   [10, 2, 8, 4, 7, 6, 1, 5, 15, 11, 9, 14, 3, 12, 13, 0],
   [0, 1, 2, 3, 4, 5, 6, 7, 8, 9, 10, 11, 12, 13, 14, 15],
   [14, 10, 4, 8, 9, 15, 13, 6, 1, 12, 0, 2, 11, 7, 5, 3]]

/-- Rotate a word right. -/
def rotr (x n : Nat) : Nat := (x >>> n) ||| ((x <<< (64 - n)) % 2 ^ 64)

/-- `k n`, evaluating `n` first. -/
def force {α : Type} (n : Nat) (k : Nat → α) : α :=
  match n with
  | 0 => k 0
  | n + 1 => k (n + 1)

/-- The mixing function G (RFC 7693 section 3.1). -/
def mix (v : List Nat) (i j k l x y : Nat) : List Nat :=
  force ((v.getD i 0 + v.getD j 0 + x) % 2 ^ 64) fun a =>
  force (rotr (v.getD l 0 ^^^ a) 32) fun d =>
  force ((v.getD k 0 + d) % 2 ^ 64) fun c =>
  force (rotr (v.getD j 0 ^^^ c) 24) fun b =>
  force ((a + b + y) % 2 ^ 64) fun a =>
  force (rotr (d ^^^ a) 16) fun d =>
  force ((c + d) % 2 ^ 64) fun c =>
  force (rotr (b ^^^ c) 63) fun b =>
  (((v.set i a).set j b).set k c).set l d

/-- One round with the schedule row `s`. -/
def round (m v s : List Nat) : List Nat :=
  let w := fun i => m.getD (s.getD i 0) 0
  let v := mix v 0 4 8 12 (w 0) (w 1)
  let v := mix v 1 5 9 13 (w 2) (w 3)
  let v := mix v 2 6 10 14 (w 4) (w 5)
  let v := mix v 3 7 11 15 (w 6) (w 7)
  let v := mix v 0 5 10 15 (w 8) (w 9)
  let v := mix v 1 6 11 12 (w 10) (w 11)
  let v := mix v 2 7 8 13 (w 12) (w 13)
  mix v 3 4 9 14 (w 14) (w 15)

/-- The compression function F (RFC 7693 section 3.2): chaining value, message words, bytes so far, whether this is the last block. -/
def compress (h m : List Nat) (t : Nat) (last : Bool) : List Nat :=
  let v := h ++ iv
  let v := v.set 12 (v.getD 12 0 ^^^ (t % 2 ^ 64))
  let v := v.set 13 (v.getD 13 0 ^^^ (t / 2 ^ 64 % 2 ^ 64))
  let v := if last then v.set 14 (v.getD 14 0 ^^^ (2 ^ 64 - 1)) else v
  let v := sigma.foldl (round m) v
  (List.range 8).map fun i => h.getD i 0 ^^^ v.getD i 0 ^^^ v.getD (i + 8) 0

/-- The sixteen little-endian words of a block, padded with zeros. -/
def words (block : List UInt8) : List Nat := (List.range 16).map fun i => leVal ((block.drop (8 * i)).take 8)

/-- The first chaining value: the parameter block of an unkeyed hash of 32 bytes mixed into the vector. -/
def start : List Nat := iv.set 0 (iv.getD 0 0 ^^^ 0x01010020)

/-- All blocks of 128 bytes, the last possibly shorter (or empty, for the empty message); `t` bytes came before.  The first argument bounds the
number of blocks. -/
def chain : Nat → List Nat → Nat → List UInt8 → List Nat
  | 0, h, _, _ => h
  | fuel + 1, h, t, bs =>
    if bs.length ≤ 128 then compress h (words bs) (t + bs.length) true
    else chain fuel (compress h (words (bs.take 128)) (t + 128) false) (t + 128) (bs.drop 128)

/-- The first four words of a chaining value as bytes. -/
def digest (h : List Nat) : Hash256 :=
  ⟨leBytes 8 (h.getD 0 0) ++ leBytes 8 (h.getD 1 0) ++ leBytes 8 (h.getD 2 0) ++ leBytes 8 (h.getD 3 0), rfl⟩

/-- The hash of a message (RFC 7693 section 3.3). -/
def hash : Hasher := fun bs => digest (chain (bs.length + 1) start 0 bs)

/-! ## Hashing in pieces -/

/-- `blake2b_simd::State`: the chaining value, the bytes compressed so far, and the bytes waiting in the buffer of 128. -/
structure Stream where
  h : List Nat
  count : Nat
  buf : List UInt8
  deriving DecidableEq, Repr

namespace Stream

/-- `Params::new().hash_length(32).to_state()`. -/
def new : Stream := ⟨start, 0, []⟩

/-- Compress the first 128 bytes of the buffer. -/
def step (s : Stream) : Stream := ⟨compress s.h (words (s.buf.take 128)) (s.count + 128) false, s.count + 128, s.buf.drop 128⟩

/-- Compress while more than 128 bytes wait: the last block must stay, even if it is full. -/
def absorb : Nat → Stream → Stream
  | 0, s => s
  | fuel + 1, s => if s.buf.length ≤ 128 then s else absorb fuel s.step

/-- `State::update`, and `write` of its `std::io::Write`. -/
def update (s : Stream) (bs : List UInt8) : Stream :=
  absorb (s.buf.length + bs.length) { s with buf := s.buf ++ bs }

/-- `State::finalize`. -/
def finalize (s : Stream) : Hash256 := digest (compress s.h (words s.buf) (s.count + s.buf.length) true)

end Stream

end Verif.Blake2b
