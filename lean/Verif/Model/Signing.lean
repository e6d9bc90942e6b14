import Verif.Model.Number

/-!
# Keys, signatures and seeds

ed25519, blake2b-256, SHA-256, the English word list and Unicode normalisation are parameters.  All but the last have concrete models, in
`Model/Ed25519`, `Model/Blake2b`, `Model/Sha2` and `Model/English`.
-/

namespace Verif

/-- ed25519 as used through `ed25519_dalek`: `expand` is the public key of `SigningKey::from_bytes`, `sign` is `SigningKey::sign`, `point` tells
whether `VerifyingKey::from_bytes` accepts, `check` whether `VerifyingKey::verify` does. -/
structure Ed where
  expand : Arr 32 → Arr 32
  sign : Arr 32 → List UInt8 → Arr 64
  point : Arr 32 → Bool
  check : Arr 32 → List UInt8 → Arr 64 → Bool

/-- `PrivateKey::from_seed` (sia/src/signing.rs 69-72): `to_keypair_bytes` is the seed followed by the public key.  Also
`From<Hash256> for PrivateKey` (95-99). -/
def PrivateKey.fromSeed (E : Ed) (seed : Arr 32) : Arr 64 :=
  ⟨seed.1 ++ (E.expand seed).1, by rw [List.length_append, seed.2, (E.expand seed).2]⟩

/-- `PrivateKey::public_key` (signing.rs 74-78). -/
def PrivateKey.publicKey (k : Arr 64) : Arr 32 := ⟨k.1.drop 32, by rw [List.length_drop, k.2]⟩

/-- `PrivateKey::sign_hash` (signing.rs 80-83).  The conversion of the first 32 bytes cannot fail. -/
def PrivateKey.signHash (E : Ed) (k : Arr 64) (h : Hash256) : Arr 64 :=
  E.sign ⟨k.1.take 32, by rw [List.length_take, k.2]; rfl⟩ h.1

/-- `PublicKey::verify` (signing.rs 50-57).  The key is unwrapped. -/
def PublicKey.verify (E : Ed) (k : Arr 32) (h : Hash256) (s : Arr 64) : Res Bool :=
  if E.point k then .ok (E.check k h.1 s) else .panic

/-- `Seed::private_key` (sia/src/seed.rs 48-62). -/
def Seed.privateKey (E : Ed) (H : Hasher) (seed : Arr 16) (index : U64) : Arr 64 :=
  let entropy := H seed.1
  PrivateKey.fromSeed E (H (entropy.1 ++ le8 index))

/-! ## Mnemonics (the `bip39` crate, version 2.1.0) -/

/-- `char::is_whitespace` (Unicode White_Space). -/
def isWhiteChar (c : Char) : Bool :=
  let n := c.toNat
  (9 ≤ n && n ≤ 13) || n == 32 || n == 0x85 || n == 0xA0 || n == 0x1680 || (0x2000 ≤ n && n ≤ 0x200A) || n == 0x2028 || n == 0x2029
    || n == 0x202F || n == 0x205F || n == 0x3000

/-- `str::split_whitespace`; `acc` is the word being read. -/
def splitWhite : List Char → List Char → List (List Char)
  | acc, [] => if acc = [] then [] else [acc]
  | acc, c :: cs =>
    if isWhiteChar c then (if acc = [] then splitWhite [] cs else acc :: splitWhite [] cs)
    else splitWhite (acc ++ [c]) cs

/-- The `w` low bits of `x`, most significant first. -/
def natBits : Nat → Nat → List Bool
  | 0, _ => []
  | w + 1, x => x.testBit w :: natBits w x

/-- Value of bits, most significant first. -/
def bitsNat : List Bool → Nat
  | [] => 0
  | b :: bs => b.toNat * 2 ^ bs.length + bitsNat bs

/-- Bits of a byte string, most significant first. -/
def byteBits (bs : List UInt8) : List Bool := bs.flatMap fun b => natBits 8 b.toNat

/-- The first `n` groups of `w` bits. -/
def groups (w : Nat) : Nat → List Bool → List (List Bool)
  | 0, _ => []
  | n + 1, bs => bs.take w :: groups w n (bs.drop w)

/-- What the `bip39` crate takes from elsewhere: the 2048 words, SHA-256 and NFKD normalisation. -/
structure Lang where
  word : Nat → List Char
  sha : List UInt8 → Arr 32
  norm : List Char → List Char

/-- `Language::find_word`: the position of a word in the list. -/
def findWord (L : Lang) (w : List Char) : Option Nat := (List.range 2048).find? fun i => L.word i == w

/-- A lookup of every word, in order; fails at the first word it does not find. -/
def lookups (find : List Char → Option Nat) : List (List Char) → Option (List Nat)
  | [] => some []
  | w :: ws =>
    match find w with
    | none => none
    | some i =>
      match lookups find ws with
      | none => none
      | some is => some (i :: is)

/-- `find_word` on every word. -/
def findWords (L : Lang) (ws : List (List Char)) : Option (List Nat) := lookups (findWord L) ws

/-- `Mnemonic::parse_in` followed by `Mnemonic::to_entropy`, as called in seed.rs 26-27: 12, 15, 18, 21 or 24 words, each in the list, 11 bits a word; the last bits must be those of
the SHA-256 of the entropy.  Simplification: the kinds of failure are not told apart, as `SeedError` does not (seed.rs 14-18). -/
def parseMnemonic (L : Lang) (s : List Char) : Option (List UInt8) :=
  let ws := splitWhite [] (L.norm s)
  if ws.length < 12 ∨ ws.length % 3 ≠ 0 ∨ 24 < ws.length then none
  else
    match findWords L ws with
    | none => none
    | some is =>
      let bits := is.flatMap (natBits 11)
      let n := ws.length / 3 * 4
      let entropy := (groups 8 n bits).map fun g => UInt8.ofNat (bitsNat g)
      if (bits.drop (8 * n)).take (n / 4) = (byteBits (L.sha entropy).1).take (n / 4) then some entropy else none

/-- `Mnemonic::from_entropy_in`: the positions of the words.  `none` for a bad length. -/
def entropyWords (L : Lang) (e : List UInt8) : Option (List Nat) :=
  if e.length * 8 % 32 ≠ 0 ∨ e.length * 8 < 128 ∨ 256 < e.length * 8 then none
  else
    let bits := byteBits e ++ (byteBits (L.sha e).1).take (e.length / 4)
    some ((groups 11 (e.length * 3 / 4) bits).map bitsNat)

/-- `Mnemonic::to_string`: the words with a space between each two. -/
def showWords (L : Lang) : List Nat → List Char
  | [] => []
  | [i] => L.word i
  | i :: is => L.word i ++ ' ' :: showWords L is

/-- `SeedError` (seed.rs 8-12). -/
inductive SeedErr where
  | mnemonic
  | invalidLength
  deriving DecidableEq

/-- `Seed::from_mnemonic` (seed.rs 25-35). -/
def Seed.fromMnemonic (L : Lang) (s : List Char) : Except SeedErr (Arr 16) :=
  match parseMnemonic L s with
  | none => .error .mnemonic
  | some buf => if h : buf.length = 16 then .ok ⟨buf, h⟩ else .error .invalidLength

/-- `Seed::to_mnemonic` (seed.rs 37-41): unwraps. -/
def Seed.toMnemonic (L : Lang) (seed : Arr 16) : Res (List Char) :=
  match entropyWords L seed.1 with
  | none => .panic
  | some is => .ok (showWords L is)

end Verif
