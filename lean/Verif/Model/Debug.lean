import Verif.Model.Signing

/-!
# Debug texts

`#[derive(Debug)]` on the tuple structs of bytes: `PublicKey`, `PrivateKey` and `Signature` (sia/src/signing.rs 10-11, 67-68, 113-114), `Specifier`
(sia/src/types/specifier.rs 10-22), `Address` and `Leaf` (sia/src/types/common.rs 214-215, 342-343) and the identifiers (sia/src/macros.rs 5-25).  The derived code is
`debug_tuple(name).field(&self.0).finish()` of the standard library, and an array is `debug_list().entries(..).finish()`.

Simplification: flags other than `#` (width, `x?`) are left out.
-/

namespace Verif

/-- `{:?}` and `{:#?}`. -/
inductive Layout
  | plain
  | pretty
deriving DecidableEq, Repr

namespace Debug

/-- `PadAdapter` of the standard library: four spaces at the beginning of each line.  The first argument says that a line begins. -/
def pad : Bool → List Char → List Char
  | _, [] => []
  | true, c :: cs => ' ' :: ' ' :: ' ' :: ' ' :: c :: pad (c == '\n') cs
  | false, c :: cs => c :: pad (c == '\n') cs

/-- `u8` in decimal. -/
def byte (b : UInt8) : List Char := Nat.toDigits 10 b.toNat

/-- The entries after the first with `{:?}`. -/
def more : List (List Char) → List Char
  | [] => []
  | e :: es => ',' :: ' ' :: (e ++ more es)

/-- The entries with `{:?}`. -/
def entries : List (List Char) → List Char
  | [] => []
  | e :: es => e ++ more es

/-- The entries with `{:#?}`, each on a line of its own. -/
def rows : List (List Char) → List Char
  | [] => []
  | e :: es => pad true (e ++ [',', '\n']) ++ rows es

/-- `debug_list`. -/
def list (f : Layout) (es : List (List Char)) : List Char :=
  match f with
  | .plain => '[' :: (entries es ++ [']'])
  | .pretty => if es.isEmpty then ['[', ']'] else '[' :: '\n' :: (rows es ++ [']'])

/-- `debug_tuple` with one field. -/
def tuple (f : Layout) (name field : List Char) : List Char :=
  match f with
  | .plain => name ++ '(' :: (field ++ [')'])
  | .pretty => name ++ '(' :: '\n' :: (pad true (field ++ [',', '\n']) ++ [')'])

/-- The derived text of a tuple struct of bytes. -/
def struct (f : Layout) (name : List Char) (bs : List UInt8) : List Char := tuple f name (list f (bs.map byte))

end Debug

/-- `Debug for PrivateKey` (sia/src/signing.rs 67-68). -/
def PrivateKey.debug (f : Layout) (k : Arr 64) : List Char := Debug.struct f "PrivateKey".toList k.1

/-- `Debug for PublicKey` (signing.rs 10-11). -/
def PublicKey.debug (f : Layout) (k : Arr 32) : List Char := Debug.struct f "PublicKey".toList k.1

/-- `Debug for Signature` (signing.rs 113-114). -/
def Signature.debug (f : Layout) (s : Arr 64) : List Char := Debug.struct f "Signature".toList s.1

/-- `Debug for PrivateKey` as it would be with a field that is not shown (`finish_non_exhaustive`). -/
def PrivateKey.debugHidden (_ : Layout) (_ : Arr 64) : List Char := "PrivateKey(..)".toList

end Verif
