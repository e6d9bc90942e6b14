import Verif.Model.Hashing

/-!
# Text forms of identifiers, addresses, keys and signatures

A `&str` is the list of its UTF-8 bytes; nothing below depends on the bytes being valid UTF-8 except `Specifier`'s `Display`.
-/

namespace Verif

deriving instance DecidableEq for Except

/-! ## The `hex` crate -/

/-- `hex::FromHexError`. -/
inductive HexErr where
  | oddLength
  | invalidStringLength
  | invalidChar (c : UInt8) (index : Nat)
  deriving DecidableEq

/-- `val` of the `hex` crate: the value of a hex digit of either case. -/
def hexVal (c : UInt8) : Option UInt8 :=
  if 48 ≤ c ∧ c ≤ 57 then some (c - 48)
  else if 97 ≤ c ∧ c ≤ 102 then some (c - 97 + 10)
  else if 65 ≤ c ∧ c ≤ 70 then some (c - 65 + 10)
  else none

/-- The loop of `hex::decode` and `hex::decode_to_slice` over pairs of digits, starting at index `i`. -/
def hexPairs : Nat → List UInt8 → Except HexErr (List UInt8)
  | i, hi :: lo :: rest =>
    match hexVal hi with
    | none => .error (.invalidChar hi i)
    | some h =>
      match hexVal lo with
      | none => .error (.invalidChar lo (i + 1))
      | some l =>
        match hexPairs (i + 2) rest with
        | .error e => .error e
        | .ok bs => .ok ((h <<< 4 ||| l) :: bs)
  | _, _ => .ok []

/-- `hex::decode`. -/
def hexDecode (s : List UInt8) : Except HexErr (List UInt8) :=
  if s.length % 2 ≠ 0 then .error .oddLength else hexPairs 0 s

/-- `hex::decode_to_slice` into a slice of `n` bytes. -/
def hexDecodeTo (n : Nat) (s : List UInt8) : Except HexErr (List UInt8) :=
  if s.length % 2 ≠ 0 then .error .oddLength
  else if s.length / 2 ≠ n then .error .invalidStringLength
  else hexPairs 0 s

/-- A digit of `hex::encode` (lower case). -/
def hexDigit (x : UInt8) : UInt8 := if x < 10 then x + 48 else x - 10 + 97

/-- `hex::encode`. -/
def hexEncode (bs : List UInt8) : List UInt8 := bs.flatMap fun (b : UInt8) => [hexDigit (b >>> 4), hexDigit (b &&& 15)]

/-! ## Parsing and displaying -/

/-- `HexParseError` (sia/src/types/common.rs 203-211). -/
inductive ParseErr where
  | missingPrefix
  | invalidLength
  | invalidPrefix
  | invalidChecksum
  | hexError (e : HexErr)
  deriving DecidableEq

/-- `[0u8; n]` filled by `copy_from_slice`; the lengths agree in all uses, otherwise the code would panic. -/
def toArr (n : Nat) (bs : List UInt8) : Arr n := if h : bs.length = n then ⟨bs, h⟩ else Arr.zero n

/-- `split_once(':')`: before and after the first colon. -/
def splitColon : List UInt8 → Option (List UInt8 × List UInt8)
  | [] => none
  | c :: s =>
    if c = 58 then some ([], s)
    else match splitColon s with
      | some (a, b) => some (c :: a, b)
      | none => none

/-- `parse_string` of the identifier types (sia/src/macros.rs 43-57). -/
def parseId (s : List UInt8) : Except ParseErr Hash256 :=
  let s := match splitColon s with
    | some (_, suffix) => suffix
    | none => s
  if s.length ≠ 64 then .error .invalidLength
  else match hexDecodeTo 32 s with
    | .error e => .error (.hexError e)
    | .ok data => .ok (toArr 32 data)

/-- `Display` of the identifier types (sia/src/macros.rs 60-64). -/
def showId (h : Hash256) : List UInt8 := hexEncode h.1

/-- `Address::parse_string` (sia/src/types/common.rs 241-262). -/
def parseAddress (H : Hasher) (s : List UInt8) : Except ParseErr Address :=
  if s.length ≠ 76 then .error .invalidLength
  else match hexDecodeTo 38 s with
    | .error e => .error (.hexError e)
    | .ok data =>
      if (H (data.take 32)).1.take 6 ≠ data.drop 32 then .error .invalidChecksum
      else .ok (toArr 32 (data.take 32))

/-- `Display` of `Address` (sia/src/types/common.rs 284-298). -/
def showAddress (H : Hasher) (a : Address) : List UInt8 := hexEncode (a.1 ++ (H a.1).1.take 6)

/-- `Leaf::parse_string` (sia/src/types/common.rs 347-356). -/
def parseLeaf (s : List UInt8) : Except ParseErr (Arr 64) :=
  if s.length ≠ 128 then .error .invalidLength
  else match hexDecodeTo 64 s with
    | .error e => .error (.hexError e)
    | .ok data => .ok (toArr 64 data)

/-- `Deserialize` of `Leaf` from a string (sia/src/types/common.rs 376-387); all errors are custom messages. -/
def deserializeLeaf (s : List UInt8) : Option (Arr 64) :=
  match hexDecode s with
  | .error _ => none
  | .ok data => if data.length ≠ 64 then none else some (toArr 64 data)

/-- `Display` and `Serialize` of `Leaf` (sia/src/types/common.rs 364-374). -/
def showLeaf (l : Arr 64) : List UInt8 := hexEncode l.1

/-- `Signature::parse_string` (sia/src/signing.rs 145-154). -/
def parseSignature (s : List UInt8) : Except ParseErr Signature :=
  match hexDecode s with
  | .error e => .error (.hexError e)
  | .ok data => if data.length ≠ 64 then .error .invalidLength else .ok (toArr 64 data)

/-- `Deserialize` of `Signature` from a string (sia/src/signing.rs 121-133). -/
def deserializeSignature (s : List UInt8) : Option Signature :=
  match hexDecode s with
  | .error _ => none
  | .ok data => if data.length ≠ 64 then none else some (toArr 64 data)

/-- `Display` and `Serialize` of `Signature` (sia/src/signing.rs 115-119, 175-179). -/
def showSignature (x : Signature) : List UInt8 := hexEncode x.1

/-- `PublicKey::PREFIX` (sia/src/signing.rs 14). -/
def keyPrefix : List UInt8 := ascii "ed25519:"

/-- `strip_prefix`. -/
def stripPrefix : List UInt8 → List UInt8 → Option (List UInt8)
  | [], s => some s
  | p :: ps, c :: s => if p = c then stripPrefix ps s else none
  | _ :: _, [] => none

/-- `Deserialize` of `PublicKey` from a string (sia/src/signing.rs 23-37). -/
def deserializeKey (s : List UInt8) : Option PublicKey :=
  match stripPrefix keyPrefix s with
  | none => none
  | some s =>
    match hexDecodeTo 32 s with
    | .error _ => none
    | .ok pk => some (toArr 32 pk)

/-- `Display` and `Serialize` of `PublicKey` (sia/src/signing.rs 17-21, 39-43). -/
def showKey (k : PublicKey) : List UInt8 := keyPrefix ++ hexEncode k.1

/-! ## Specifiers -/

/-- `From<&str> for Specifier` (sia/src/types/specifier.rs 34-43). -/
def specifierOf (s : List UInt8) : Specifier :=
  ⟨s.take 16 ++ List.replicate (16 - s.length) 0, by
    rw [List.length_append, List.length_take, List.length_replicate]; omega⟩

/-- `rev().position(|x| x != 0)`. -/
def zerosAtEnd (l : List UInt8) : Option Nat := l.reverse.findIdx? (· ≠ 0)

/-- The text of `Display` for `Specifier` (sia/src/types/specifier.rs 45-57); `none` is `fmt::Error`, on which `to_string`
panics. -/
def showSpecifier (x : Specifier) : Option (List UInt8) :=
  let index := match zerosAtEnd x.1 with
    | none => 0
    | some pos => 16 - pos
  match strOfBytes (x.1.take index) with
  | none => none
  | some _ => some (x.1.take index)

/-- The `specifier!` macro (sia/src/types/specifier.rs 59-72): `none` is a failed assertion. -/
def specifierLit (s : List UInt8) : Option Specifier := if s.length ≤ 16 then some (specifierOf s) else none

/-! ## Unlock keys -/

/-- `Display` of `UnlockKey` (sia/src/types/v1.rs 60-64). -/
def showUnlockKey (k : UnlockKey) : Option (List UInt8) :=
  match showSpecifier k.algorithm with
  | none => none
  | some a => some (a ++ [58] ++ hexEncode k.key)

/-- `UnlockKey::parse_string` (sia/src/types/v1.rs 69-75). -/
def parseUnlockKey (s : List UInt8) : Except ParseErr UnlockKey :=
  match splitColon s with
  | none => .error .missingPrefix
  | some (pre, key) =>
    match hexDecode key with
    | .error e => .error (.hexError e)
    | .ok k => .ok ⟨specifierOf pre, k⟩

/-! ## Literal macros -/

/-- `decode_hex_char` (sia/src/macros.rs 108-115). -/
def decodeHexChar (c : UInt8) : Option UInt8 :=
  if 48 ≤ c ∧ c ≤ 57 then some (c - 48)
  else if 97 ≤ c ∧ c ≤ 102 then some (c - 97 + 10)
  else if 65 ≤ c ∧ c ≤ 70 then some (c - 65 + 10)
  else none

/-- `decode_hex_pair` (sia/src/macros.rs 118-125). -/
def decodeHexPair (hi lo : UInt8) : Option UInt8 :=
  match decodeHexChar hi, decodeHexChar lo with
  | some hi, some lo => some (hi <<< 4 ||| lo)
  | _, _ => none

/-- The loop of `decode_hex_256` (sia/src/macros.rs 132-138), `k` iterations left; `none` is a panic, of `panic!` or of an
index out of bounds. -/
def decodeHexLoop (input : List UInt8) : (k i : Nat) → Option (List UInt8)
  | 0, _ => some []
  | k + 1, i =>
    match input[i]?, input[i + 1]? with
    | some hi, some lo =>
      match decodeHexPair hi lo with
      | some byte =>
        match decodeHexLoop input k (i + 2) with
        | some rest => some (byte :: rest)
        | none => none
      | none => none
    | _, _ => none

/-- `decode_hex_256` (sia/src/macros.rs 129-140). -/
def decodeHex256 (input : List UInt8) : Option Hash256 :=
  match decodeHexLoop input 32 0 with
  | some bs => some (toArr 32 bs)
  | none => none

/-- `hash_256!`, `siacoin_id!`, `siafund_id!`, `contract_id!`, `transaction_id!`, `block_id!` (sia/src/macros.rs 170-264). -/
def idLit (text : List UInt8) : Option Hash256 := if text.length ≠ 64 then none else decodeHex256 text

/-- `address!` (sia/src/macros.rs 151-160). -/
def addressLit (text : List UInt8) : Option Address := if text.length ≠ 76 then none else decodeHex256 text

/-- `public_key!` (sia/src/macros.rs 274-299).  The loop compares the first 8 bytes and copies the other 64. -/
def keyLit (text : List UInt8) : Option PublicKey :=
  if text.length ≠ 72 then none
  else if text.take 8 ≠ keyPrefix then none
  else decodeHex256 (text.drop 8)

end Verif
