import Verif.Model.Arith
import Verif.Model.Text

/-!
# Decimal text: `Currency::parse_string` and the JSON forms of `Currency` and `Work`

A `&str` is the list of its characters here, because `trim` and `find` work on characters.
-/

namespace Verif

/-- Outcome of a function with its own error type. -/
inductive Out (ε α : Type) where
  | ok (a : α)
  | err (e : ε)
  | panic
  deriving DecidableEq

/-- Arithmetic inside such a function; arithmetic yields no errors, only panics. -/
def Out.lift {ε α β : Type} (x : Res α) (f : α → Out ε β) : Out ε β :=
  match x with
  | .ok a => f a
  | .err _ => .panic
  | .panic => .panic

/-- `char::is_ascii_digit`. -/
def isDigit (c : Char) : Bool := 48 ≤ c.toNat && c.toNat ≤ 57

/-- `char::is_whitespace`: the Unicode property `White_Space`. -/
def isWhite (c : Char) : Bool :=
  [0x9, 0xa, 0xb, 0xc, 0xd, 0x20, 0x85, 0xa0, 0x1680, 0x2000, 0x2001, 0x2002, 0x2003, 0x2004, 0x2005, 0x2006, 0x2007, 0x2008,
    0x2009, 0x200a, 0x2028, 0x2029, 0x202f, 0x205f, 0x3000].contains c.toNat

/-- `str::trim`. -/
def trim (s : List Char) : List Char := ((s.dropWhile isWhite).reverse.dropWhile isWhite).reverse

/-- The kinds of `ParseIntError` that can occur here. -/
inductive IntErr where
  | empty
  | invalidDigit
  | posOverflow
  deriving DecidableEq

/-- The loop of `u128::from_str`: the digit is looked at before the overflow of the product. -/
def parseDigits (acc : Nat) : List Char → Except IntErr Nat
  | [] => .ok acc
  | c :: s =>
    if isDigit c then
      if 10 * acc < 2 ^ 128 then
        if 10 * acc + (c.toNat - 48) < 2 ^ 128 then parseDigits (10 * acc + (c.toNat - 48)) s else .error .posOverflow
      else .error .posOverflow
    else .error .invalidDigit

/-- `str::parse::<u128>`; a plus sign is allowed in front. -/
def parseU128 (s : List Char) : Except IntErr U128 :=
  match s with
  | [] => .error .empty
  | c :: s =>
    if (c = '+' ∨ c = '-') ∧ s = [] then .error .invalidDigit
    else match parseDigits 0 (if c = '+' then s else c :: s) with
      | .ok n => .ok (BitVec.ofNat 128 n)
      | .error e => .error e

/-- `split('.')`. -/
def splitDot : List Char → List (List Char)
  | [] => [[]]
  | c :: s =>
    if c = '.' then [] :: splitDot s
    else match splitDot s with
      | [] => [[c]]
      | p :: ps => (c :: p) :: ps

/-- `CurrencyParseError` (sia/src/types/currency.rs 294-299). -/
inductive CurrencyErr where
  | parseInt (e : IntErr)
  | invalidUnit (unit : List Char)
  | invalidFormat (msg : String)
  deriving DecidableEq

/-- `a - b` on `i32`. -/
def subS (m : Mode) (a b : BitVec 32) : Res (BitVec 32) :=
  match m with
  | .checked => if -2 ^ 31 ≤ a.toInt - b.toInt ∧ a.toInt - b.toInt < 2 ^ 31 then .ok (a - b) else .panic
  | .unchecked => .ok (a - b)

/-- `a + b` on `i32`. -/
def addS (m : Mode) (a b : BitVec 32) : Res (BitVec 32) :=
  match m with
  | .checked => if -2 ^ 31 ≤ a.toInt + b.toInt ∧ a.toInt + b.toInt < 2 ^ 31 then .ok (a + b) else .panic
  | .unchecked => .ok (a + b)

/-- The `match` on the unit (sia/src/types/currency.rs 171-182). -/
def scalingFactor (unit : List Char) : Option Int :=
  if unit = ['p', 'S'] then some (-12)
  else if unit = ['n', 'S'] then some (-9)
  else if unit = ['u', 'S'] then some (-6)
  else if unit = ['m', 'S'] then some (-3)
  else if unit = ['S', 'C'] then some 0
  else if unit = ['K', 'S'] then some 3
  else if unit = ['M', 'S'] then some 6
  else if unit = ['G', 'S'] then some 9
  else if unit = ['T', 'S'] then some 12
  else none

/-- The arithmetic at the end of `parse_string` (sia/src/types/currency.rs 202-207).  The order is that of the source; `frac` is
the length of the fraction `as i32`. -/
def scaledAmount (m : Mode) (integerPart fractionPart : U128) (frac scale : BitVec 32) : Res Currency := do
  let e1 ← addS m 24 scale
  let p1 ← pow10 m e1
  let integer ← mulU m integerPart p1
  let e2 ← subS m 24 frac
  let e3 ← addS m e2 scale
  let p2 ← pow10 m e3
  let fraction ← mulU m fractionPart p2
  let sum ← addU m integer fraction
  pure ⟨sum⟩

/-- `Currency::parse_string` (sia/src/types/currency.rs 158-208). -/
def parseCurrency (m : Mode) (s : List Char) : Out CurrencyErr Currency :=
  let value := trim (s.takeWhile fun c => isDigit c || c == '.')
  let unit := trim (s.dropWhile fun c => isDigit c || c == '.')
  if unit = [] ∨ unit = ['H'] then
    match parseU128 value with
    | .ok v => .ok ⟨v⟩
    | .error e => .err (.parseInt e)
  else match scalingFactor unit with
    | none => .err (.invalidUnit unit)
    | some scale =>
      let parts := splitDot value
      if parts.length > 2 then .err (.invalidFormat "too many decimal points")
      else match parseU128 (parts.getD 0 []) with
        | .error _ => .err (.invalidFormat "invalid integer part")
        | .ok integerPart =>
          if parts.length = 2 then
            match parseU128 (parts.getD 1 []) with
            | .error _ => .err (.invalidFormat "invalid integer part")
            | .ok fractionPart =>
              Out.lift (scaledAmount m integerPart fractionPart (BitVec.ofNat 32 (parts.getD 1 []).length) (BitVec.ofInt 32 scale)) .ok
          else Out.lift (scaledAmount m integerPart 0 0 (BitVec.ofInt 32 scale)) .ok

/-- Decimal digits, as printed by `Display` of the integer types. -/
def showNat (n : Nat) : List Char :=
  if h : n < 10 then [Char.ofNat (48 + n)] else showNat (n / 10) ++ [Char.ofNat (48 + n % 10)]
termination_by n
decreasing_by omega

/-- `Serialize` of `Currency` (sia/src/types/currency.rs 18-22): the text of a JSON string. -/
def showCurrency (c : Currency) : List Char := showNat c.val.toNat

/-- What a serde data format hands to `deserialize_any`. -/
inductive Token where
  | str (s : List Char)
  | u32 (v : U32) | u64 (v : U64) | u128 (v : U128)
  | i32 (v : BitVec 32) | i64 (v : BitVec 64) | i128 (v : BitVec 128)
  | other
  deriving DecidableEq

/-- Error of `Deserialize` for `Currency`. -/
inductive TokenErr where
  | custom (e : CurrencyErr)
  | negative
  | invalidType
  deriving DecidableEq

/-- `value as u128` for a signed type. -/
def castSigned {n : Nat} (v : BitVec n) : Out TokenErr Currency :=
  if v.toInt < 0 then .err .negative else .ok ⟨v.signExtend 128⟩

/-- `Deserialize` of `Currency` (sia/src/types/currency.rs 24-75).  Every other token is refused by the default methods of
`Visitor`. -/
def deserializeCurrency (m : Mode) : Token → Out TokenErr Currency
  | .str s =>
    match parseCurrency m s with
    | .ok c => .ok c
    | .err e => .err (.custom e)
    | .panic => .panic
  | .u32 v => .ok ⟨v.setWidth 128⟩
  | .u64 v => .ok ⟨v.setWidth 128⟩
  | .u128 v => .ok ⟨v⟩
  | .i32 v => castSigned v
  | .i64 v => castSigned v
  | .i128 v => castSigned v
  | .other => .err .invalidType

/-! ## Work -/

/-- `FromDecStrErr` of the `uint` crate. -/
inductive DecErr where
  | invalidCharacter
  | invalidLength
  deriving DecidableEq

/-- The loop of `from_dec_str`. -/
def decLoop (acc : Nat) : List Char → Except DecErr Nat
  | [] => .ok acc
  | c :: s =>
    if 10 * acc < 2 ^ 256 then
      if 10 * acc + (c.toNat - 48) < 2 ^ 256 then decLoop (10 * acc + (c.toNat - 48)) s else .error .invalidLength
    else .error .invalidLength

/-- `Deserialize` of `Work` from a string (sia/src/types/work.rs 52-59), by `from_dec_str` of the `uint` crate. -/
def parseWork (s : List Char) : Except DecErr Work :=
  if s.all isDigit then
    match decLoop 0 s with
    | .ok n => .ok ⟨BitVec.ofNat 256 n⟩
    | .error e => .error e
  else .error .invalidCharacter

/-- `Serialize` of `Work` (sia/src/types/work.rs 43-50). -/
def showWork (w : Work) : List Char := showNat w.val.toNat

end Verif
