import Verif.Model.Signing
import Verif.Spec.Bytes

/-!
# What keys and mnemonics should be
-/

namespace Verif.Spec

/-- Correctness of a signature scheme: derived keys are accepted, and what a key signs, its public key accepts. -/
def Signs (E : Ed) : Prop := ∀ seed, E.point (E.expand seed) = true ∧ ∀ m, E.check (E.expand seed) m (E.sign seed m) = true

/-- `x` and `y` are a collision of `f`. -/
def Collide {α β : Type} (f : α → β) (x y : α) : Prop := x ≠ y ∧ f x = f y

/-- A list of 2048 different non-empty words of lower-case letters, and a normalisation that leaves ASCII alone. -/
structure Wordlist (L : Lang) : Prop where
  distinct : ∀ i j, i < 2048 → j < 2048 → L.word i = L.word j → i = j
  letters : ∀ i, i < 2048 → L.word i ≠ [] ∧ ∀ c ∈ L.word i, 'a' ≤ c ∧ c ≤ 'z'
  ascii : ∀ s, (∀ c ∈ s, c.toNat < 128) → L.norm s = s

/-- White space, by code point. -/
def White (c : Char) : Prop :=
  c.toNat ∈ [9, 10, 11, 12, 13, 32, 0x85, 0xA0, 0x1680, 0x2000, 0x2001, 0x2002, 0x2003, 0x2004, 0x2005, 0x2006, 0x2007, 0x2008, 0x2009, 0x200A,
    0x2028, 0x2029, 0x202F, 0x205F, 0x3000]

/-- `s` is the words `ws` with white space between, before and after. -/
def Spaced : List (List Char) → List Char → Prop
  | [], s => ∀ c ∈ s, White c
  | w :: ws, s => ∃ g r, s = g ++ w ++ r ∧ (∀ c ∈ g, White c) ∧ w ≠ [] ∧ (∀ c ∈ w, ¬ White c) ∧ (∀ c, r.head? = some c → White c) ∧ Spaced ws r

/-- Value of digits in base 2048, most significant first. -/
def base2048 (is : List Nat) : Nat := is.foldl (fun a i => a * 2048 + i) 0

/-- BIP39: the positions `is` encode the bytes `e`.  The digits in base 2048 are the big-endian number `e` followed by one bit of its SHA-256 for every
32 bits of `e`. -/
def Encodes (sha : List UInt8 → Arr 32) (is : List Nat) (e : List UInt8) : Prop :=
  (∀ i ∈ is, i < 2048) ∧ is.length ∈ [12, 15, 18, 21, 24] ∧ 4 * is.length = 3 * e.length ∧
    base2048 is = beNat e * 2 ^ (e.length / 4) + beNat (sha e).1 / 2 ^ (256 - e.length / 4)

/-- `s` is a mnemonic phrase of the bytes `e`. -/
def IsPhrase (L : Lang) (s : List Char) (e : List UInt8) : Prop := ∃ is, Encodes L.sha is e ∧ Spaced (is.map L.word) (L.norm s)

end Verif.Spec
