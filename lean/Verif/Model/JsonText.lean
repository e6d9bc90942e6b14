import Verif.Model.JsonValue

/-!
# The text of JSON documents

`serde_json` 1.0.134 without the features `preserve_order`, `arbitrary_precision` and `float_roundtrip`.  The crate is not in /repo; this follows its
documentation and RFC 8259.  Text is a list of characters.
-/

namespace Verif

namespace Json

/-! ## Writing -/

/-- `CompactFormatter`, `write_char_escape`: a character within a string. -/
def escape (c : Char) : List Char :=
  if c = '"' then ['\\', '"']
  else if c = '\\' then ['\\', '\\']
  else if c.toNat = 8 then ['\\', 'b']
  else if c.toNat = 12 then ['\\', 'f']
  else if c.toNat = 10 then ['\\', 'n']
  else if c.toNat = 13 then ['\\', 'r']
  else if c.toNat = 9 then ['\\', 't']
  else if c.toNat < 32 then ['\\', 'u', '0', '0', Nat.digitChar (c.toNat / 16), Nat.digitChar (c.toNat % 16)]
  else [c]

/-- `format_escaped_str`. -/
def quote (s : String) : List Char := '"' :: (s.toList.flatMap escape ++ ['"'])

mutual

/-- `serde_json::to_string`.  `Json` does not keep the digits of a number that is not an integer; no type of this library writes one. -/
def print : Json → List Char
  | .null => ['n', 'u', 'l', 'l']
  | .bool true => ['t', 'r', 'u', 'e']
  | .bool false => ['f', 'a', 'l', 's', 'e']
  | .nat n => showNat n.toNat
  | .neg k => '-' :: showNat (k.toNat + 1)
  | .float => ['0', '.', '5']
  | .str s => quote s
  | .arr l => '[' :: (printList l ++ [']'])
  | .obj m => '{' :: (printMembers m ++ ['}'])

/-- Elements, separated by commas. -/
def printList : List Json → List Char
  | [] => []
  | j :: l => print j ++ printMore l

/-- A comma before each element. -/
def printMore : List Json → List Char
  | [] => []
  | j :: l => ',' :: (print j ++ printMore l)

/-- Members, separated by commas. -/
def printMembers : List (String × Json) → List Char
  | [] => []
  | (k, v) :: m => quote k ++ ':' :: (print v ++ printMoreMembers m)

/-- A comma before each member. -/
def printMoreMembers : List (String × Json) → List Char
  | [] => []
  | (k, v) :: m => ',' :: (quote k ++ ':' :: (print v ++ printMoreMembers m))

end

/-! ## Reading -/

/-- `parse_whitespace`. -/
def isSpace (c : Char) : Bool := c == ' ' || c == '\n' || c == '\t' || c == '\r'

/-- `parse_whitespace`. -/
def skip (s : List Char) : List Char := s.dropWhile isSpace

/-- `decode_hex_val`. -/
def hexValue (c : Char) : Option Nat :=
  if isDigit c then some (c.toNat - 48)
  else if 97 ≤ c.toNat ∧ c.toNat ≤ 102 then some (c.toNat - 87)
  else if 65 ≤ c.toNat ∧ c.toNat ≤ 70 then some (c.toNat - 55)
  else none

/-- `decode_hex_escape`: four digits. -/
def hex4 : List Char → Option (Nat × List Char)
  | a :: b :: c :: d :: s => do
    let a ← hexValue a
    let b ← hexValue b
    let c ← hexValue c
    let d ← hexValue d
    some (((a * 16 + b) * 16 + c) * 16 + d, s)
  | _ => none

/-- `parse_unicode_escape`: a surrogate must be one of a pair. -/
def unicodeEscape (s : List Char) : Option (Char × List Char) := do
  let (n, s) ← hex4 s
  if 0xdc00 ≤ n ∧ n ≤ 0xdfff then none
  else if n < 0xd800 ∨ 0xdbff < n then some (Char.ofNat n, s)
  else match s with
    | b :: u :: s =>
      if b = '\\' ∧ u = 'u' then do
        let (m, s) ← hex4 s
        if m < 0xdc00 ∨ 0xdfff < m then none else some (Char.ofNat (0x10000 + (n - 0xd800) * 1024 + (m - 0xdc00)), s)
      else none
    | _ => none

/-- `parse_escape`, after the backslash. -/
def readEscape : List Char → Option (Char × List Char)
  | [] => none
  | c :: s =>
    if c = '"' ∨ c = '\\' ∨ c = '/' then some (c, s)
    else if c = 'b' then some (Char.ofNat 8, s)
    else if c = 'f' then some (Char.ofNat 12, s)
    else if c = 'n' then some ('\n', s)
    else if c = 'r' then some ('\r', s)
    else if c = 't' then some ('\t', s)
    else if c = 'u' then unicodeEscape s
    else none

/-- `parse_str`, after the opening quote.  The first argument bounds the number of characters. -/
def readString : Nat → List Char → Option (List Char × List Char)
  | 0, _ => none
  | _ + 1, [] => none
  | fuel + 1, c :: s =>
    if c = '"' then some ([], s)
    else if c = '\\' then do
      let (d, s) ← readEscape s
      let (r, s) ← readString fuel s
      some (d :: r, s)
    else if c.toNat < 32 then none
    else do
      let (r, s) ← readString fuel s
      some (c :: r, s)

/-- The digits at the start, and the rest. -/
def readDigits : List Char → List Char × List Char
  | [] => ([], [])
  | c :: s => if isDigit c then let x := readDigits s; (c :: x.1, x.2) else ([], c :: s)

/-- `parse_decimal`: a point must be followed by a digit. -/
def readPoint : List Char → Option (List Char × List Char)
  | [] => some ([], [])
  | c :: s =>
    if c = '.' then
      let (d, r) := readDigits s
      if d = [] then none else some ('.' :: d, r)
    else some ([], c :: s)

/-- The sign of an exponent. -/
def readSign : List Char → List Char × List Char
  | [] => ([], [])
  | c :: s => if c = '+' ∨ c = '-' then ([c], s) else ([], c :: s)

/-- `parse_exponent`: a sign, and at least one digit. -/
def readExponent : List Char → Option (List Char × List Char)
  | [] => some ([], [])
  | c :: s =>
    if c = 'e' ∨ c = 'E' then
      let (g, s) := readSign s
      let (d, r) := readDigits s
      if d = [] then none else some (c :: (g ++ d), r)
    else some ([], c :: s)

/-- `parse_integer`: no digit may follow a zero at the start. -/
def readInteger (s : List Char) : Option (List Char × List Char) :=
  let (d, r) := readDigits s
  if d = [] ∨ (d.head? = some '0' ∧ 1 < d.length) then none else some (d, r)

/-- The value of some digits. -/
def digitsValue (d : List Char) : Nat := d.foldl (fun n c => n * 10 + (c.toNat - 48)) 0

/-- `parse_any_number`.  A number with a point or an exponent, `-0`, and an integer out of the range of `u64` and `i64` become an `f64`; `finite` tells of
the text of such a number whether that does not overflow. -/
def readNumber (finite : List Char → Bool) (s : List Char) : Option (Json × List Char) := do
  let (minus, s) := if s.head? = some '-' then (true, s.tail) else (false, s)
  let (d, s) ← readInteger s
  let (p, s) ← readPoint s
  let (e, s) ← readExponent s
  let n := digitsValue d
  if p = [] ∧ e = [] ∧ minus = false ∧ n < 2 ^ 64 then some (.nat (BitVec.ofNat 64 n), s)
  else if p = [] ∧ e = [] ∧ minus = true ∧ 0 < n ∧ n ≤ 2 ^ 63 then some (.neg (BitVec.ofNat 63 (n - 1)), s)
  else if finite ((if minus then ['-'] else []) ++ d ++ p ++ e) then some (.float, s)
  else none

/-- `parse_ident`: the rest of a word. -/
def readWord (w : List Char) (j : Json) (s : List Char) : Option (Json × List Char) :=
  if w.isPrefixOf s then some (j, s.drop w.length) else none

/-- `end_seq` and `end_map`: a comma, or the closing bracket.  `some true` stands for the comma. -/
def readSeparator (close : Char) (s : List Char) : Option (Bool × List Char) :=
  match skip s with
  | [] => none
  | c :: s => if c = ',' then some (true, s) else if c = close then some (false, s) else none

/-- A key and the colon. -/
def readKey (fuel : Nat) (s : List Char) : Option (String × List Char) :=
  match skip s with
  | [] => none
  | c :: s =>
    if c = '"' then do
      let (k, s) ← readString fuel s
      match skip s with
      | [] => none
      | c :: s => if c = ':' then some (String.ofList k, s) else none
    else none

mutual

/-- `deserialize_any`.  The first argument bounds the number of calls; the second is the number of arrays and objects that may still be opened
(`remaining_depth`, which may not become zero). -/
def readValue (finite : List Char → Bool) : Nat → Nat → List Char → Option (Json × List Char)
  | 0, _, _ => none
  | fuel + 1, depth, s =>
    match skip s with
    | [] => none
    | c :: s =>
      if c = 'n' then readWord ['u', 'l', 'l'] .null s
      else if c = 't' then readWord ['r', 'u', 'e'] (.bool true) s
      else if c = 'f' then readWord ['a', 'l', 's', 'e'] (.bool false) s
      else if c = '"' then do
        let (x, s) ← readString fuel s
        some (.str (String.ofList x), s)
      else if c = '[' then
        if depth = 0 then none
        else if (skip s).head? = some ']' then some (.arr [], (skip s).tail)
        else do
          let (l, s) ← readElements finite fuel (depth - 1) s
          some (.arr l, s)
      else if c = '{' then
        if depth = 0 then none
        else if (skip s).head? = some '}' then some (.obj [], (skip s).tail)
        else do
          let (m, s) ← readMembers finite fuel (depth - 1) s
          some (.obj m, s)
      else readNumber finite (c :: s)

/-- `SeqAccess`: elements up to the closing bracket. -/
def readElements (finite : List Char → Bool) : Nat → Nat → List Char → Option (List Json × List Char)
  | 0, _, _ => none
  | fuel + 1, depth, s => do
    let (j, s) ← readValue finite fuel depth s
    let (more, s) ← readSeparator ']' s
    if more then do
      let (l, s) ← readElements finite fuel depth s
      some (j :: l, s)
    else some ([j], s)

/-- `MapAccess`: members up to the closing brace. -/
def readMembers (finite : List Char → Bool) : Nat → Nat → List Char → Option (List (String × Json) × List Char)
  | 0, _, _ => none
  | fuel + 1, depth, s => do
    let (k, s) ← readKey fuel s
    let (v, s) ← readValue finite fuel depth s
    let (more, s) ← readSeparator '}' s
    if more then do
      let (m, s) ← readMembers finite fuel depth s
      some ((k, v) :: m, s)
    else some ([(k, v)], s)

end

/-- The parser with a limit on the nesting; only white space may follow the value. -/
def parseWithin (finite : List Char → Bool) (depth : Nat) (s : List Char) : Option Json := do
  let (j, s) ← readValue finite (s.length + 1) depth s
  if skip s = [] then some j else none

/-- The parser of `serde_json::from_str`: arrays and objects may be nested 127 deep. -/
def parse (finite : List Char → Bool) (s : List Char) : Option Json := parseWithin finite 127 s

/-! ## Skipping

`ignore_value`, for the value of a member that no field takes.  It checks less: nesting is not limited (the parser keeps its own stack of open brackets),
numbers may be of any size, and surrogates need no partner. -/

/-- `ignore_escape`, after the backslash. -/
def skipEscape : List Char → Option (List Char)
  | [] => none
  | c :: s =>
    if c = '"' ∨ c = '\\' ∨ c = '/' ∨ c = 'b' ∨ c = 'f' ∨ c = 'n' ∨ c = 'r' ∨ c = 't' then some s
    else if c = 'u' then do
      let (_, s) ← hex4 s
      some s
    else none

/-- `ignore_str`, after the opening quote.  The first argument bounds the number of characters. -/
def skipString : Nat → List Char → Option (List Char)
  | 0, _ => none
  | _ + 1, [] => none
  | fuel + 1, c :: s =>
    if c = '"' then some s
    else if c = '\\' then do
      let s ← skipEscape s
      skipString fuel s
    else if c.toNat < 32 then none
    else skipString fuel s

/-- `ignore_integer`, `ignore_decimal` and `ignore_exponent`, after the sign. -/
def skipNumber (s : List Char) : Option (List Char) := do
  let (_, s) ← readInteger (if s.head? = some '-' then s.tail else s)
  let (_, s) ← readPoint s
  let (_, s) ← readExponent s
  some s

/-- `parse_ident`: the rest of a word. -/
def skipWord (w : List Char) (s : List Char) : Option (List Char) := if w.isPrefixOf s then some (s.drop w.length) else none

/-- A key and the colon. -/
def skipKey (fuel : Nat) (s : List Char) : Option (List Char) :=
  match skip s with
  | [] => none
  | c :: s =>
    if c = '"' then do
      let s ← skipString fuel s
      match skip s with
      | [] => none
      | c :: s => if c = ':' then some s else none
    else none

mutual

/-- `ignore_value`.  The argument bounds the number of calls. -/
def skipValue : Nat → List Char → Option (List Char)
  | 0, _ => none
  | fuel + 1, s =>
    match skip s with
    | [] => none
    | c :: s =>
      if c = 'n' then skipWord ['u', 'l', 'l'] s
      else if c = 't' then skipWord ['r', 'u', 'e'] s
      else if c = 'f' then skipWord ['a', 'l', 's', 'e'] s
      else if c = '"' then skipString fuel s
      else if c = '[' then if (skip s).head? = some ']' then some (skip s).tail else skipElements fuel s
      else if c = '{' then if (skip s).head? = some '}' then some (skip s).tail else skipMembers fuel s
      else skipNumber (c :: s)

/-- Elements up to the closing bracket. -/
def skipElements : Nat → List Char → Option (List Char)
  | 0, _ => none
  | fuel + 1, s => do
    let s ← skipValue fuel s
    let (more, s) ← readSeparator ']' s
    if more then skipElements fuel s else some s

/-- Members up to the closing brace. -/
def skipMembers : Nat → List Char → Option (List Char)
  | 0, _ => none
  | fuel + 1, s => do
    let s ← skipKey fuel s
    let s ← skipValue fuel s
    let (more, s) ← readSeparator '}' s
    if more then skipMembers fuel s else some s

end

end Json

end Verif
