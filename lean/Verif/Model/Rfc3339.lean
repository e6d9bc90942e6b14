import Verif.Model.Blake2b
import Verif.Model.Number
import Verif.Model.Serde

/-!
# Timestamps as text

The JSON documents write timestamps with the `Rfc3339` format of the `time` crate (0.3.37; used in sia/src/types/common.rs 174,
sia/src/consensus.rs 42, 96-104 and sia/src/types/utils.rs 20-77).  The crate is not in /repo; this follows its documentation.  Text is
a list of characters; a timestamp is an instant, so the UTC offset of a value is not kept: writing is that of values in UTC (all
values made by this library are).
-/

namespace Verif

namespace Rfc3339

/-- `util::is_leap_year`. -/
def isLeap (y : Nat) : Bool := y % 4 == 0 && (y % 100 != 0 || y % 400 == 0)

/-- `util::days_in_year_month`. -/
def monthLength (y m : Nat) : Nat :=
  if m = 2 then (if isLeap y then 29 else 28) else if m = 4 ∨ m = 6 ∨ m = 9 ∨ m = 11 then 30 else 31

/-- Days from 1 January of the year 0 to 1 January of `y`. -/
def yearStart (y : Nat) : Nat := 365 * y + (y + 3) / 4 - (y + 99) / 100 + (y + 399) / 400

/-- Days in the year before month `m`, counting from `k`. -/
def monthStart (y : Nat) (m : Nat) : Nat := (List.range (m - 1)).foldl (fun n k => n + monthLength y (k + 1)) 0

/-- The year of a day, counted from 1 January of the year 0. -/
def yearOf (n : Nat) : Nat :=
  let y := n * 400 / 146097
  if n < yearStart y then y - 1 else if yearStart (y + 1) ≤ n then y + 1 else y

/-- Month and day in the month of the day `n` of the year, trying `fuel` months from `m` on. -/
def monthOf (y : Nat) : Nat → Nat → Nat → Nat × Nat
  | 0, m, n => (m, n + 1)
  | fuel + 1, m, n => if n < monthLength y m then (m, n + 1) else monthOf y fuel (m + 1) (n - monthLength y m)

/-- Year, month and day of a day. -/
def dateOf (n : Nat) : Nat × Nat × Nat :=
  let y := yearOf n
  let d := monthOf y 11 1 (n - yearStart y)
  (y, d.1, d.2)

/-- Seconds from 1 January of the year 0 to 1 January 1970. -/
def epochSecs : Int := 62167219200

/-- The last `w` digits of `n`. -/
def pad : Nat → Nat → List Char
  | 0, _ => []
  | w + 1, n => pad w (n / 10) ++ [Char.ofNat (48 + n % 10)]

/-- Digits of the fraction of a second without the zeros at the end; `w` digits are left. -/
def fracDigits : Nat → Nat → List Char
  | 0, _ => []
  | w + 1, n => if n % 10 ≠ 0 then pad (w + 1) n else fracDigits w (n / 10)

/-- The fraction of a second. -/
def showFrac (ns : Nat) : List Char := if ns = 0 then [] else '.' :: fracDigits 9 ns

/-- `OffsetDateTime::format` with `Rfc3339`: an error unless the year is from 0 to 9999. -/
def format (t : DateTime) : Option (List Char) :=
  if t.secs + epochSecs < 0 then none
  else
    let n := (t.secs + epochSecs).toNat
    let (y, m, d) := dateOf (n / 86400)
    if 9999 < y then none
    else
      let s := n % 86400
      some (pad 4 y ++ ['-'] ++ pad 2 m ++ ['-'] ++ pad 2 d ++ ['T'] ++ pad 2 (s / 3600) ++ [':'] ++ pad 2 (s / 60 % 60) ++ [':'] ++
        pad 2 (s % 60) ++ showFrac t.nanos ++ ['Z'])

/-- `exactly_n_digits`. -/
def number : Nat → Nat → List Char → Option (Nat × List Char)
  | 0, acc, s => some (acc, s)
  | _ + 1, _, [] => none
  | w + 1, acc, c :: s => if isDigit c then number w (acc * 10 + (c.toNat - 48)) s else none

/-- `ascii_char`. -/
def char (c : Char) : List Char → Option (List Char)
  | [] => none
  | d :: s => if d = c then some s else none

/-- The separator of date and time: any byte.  A character of several bytes is refused after its first byte. -/
def separator : List Char → Option (List Char)
  | [] => none
  | c :: s => if c.toNat < 128 then some s else none

/-- Digits of the fraction after the first: those after the ninth are dropped. -/
def moreFrac : Nat → Nat → List Char → Nat × List Char
  | _, v, [] => (v, [])
  | m, v, c :: s => if isDigit c then moreFrac (m / 10) (v + (c.toNat - 48) * m) s else (v, c :: s)

/-- The fraction of a second. -/
def fraction : List Char → Option (Nat × List Char)
  | [] => some (0, [])
  | c :: s =>
    if c = '.' then
      match s with
      | [] => none
      | d :: s => if isDigit d then some (moreFrac 10000000 ((d.toNat - 48) * 100000000) s) else none
    else some (0, c :: s)

/-- The offset in minutes. -/
def zone : List Char → Option (Int × List Char)
  | [] => none
  | c :: s =>
    if c = 'Z' ∨ c = 'z' then some (0, s)
    else if c = '+' ∨ c = '-' then do
      let (h, s) ← number 2 0 s
      let s ← char ':' s
      let (m, s) ← number 2 0 s
      if h ≤ 23 ∧ m ≤ 59 then some (if c = '+' then (60 * h + m : Int) else -(60 * h + m : Int), s) else none
    else none

/-- `is_valid_leap_second_stand_in`: the last second of the last day of a month, in UTC. -/
def leapSecond (secs : Int) : Bool :=
  secs % 86400 == 86399 && (dateOf ((secs + epochSecs) / 86400 + 1).toNat).2.2 == 1

/-- `OffsetDateTime::parse` with `Rfc3339`. -/
def parse (s : List Char) : Option DateTime := do
  let (year, s) ← number 4 0 s
  let s ← char '-' s
  let (month, s) ← number 2 0 s
  let s ← char '-' s
  let (day, s) ← number 2 0 s
  let s ← separator s
  let (hour, s) ← number 2 0 s
  let s ← char ':' s
  let (minute, s) ← number 2 0 s
  let s ← char ':' s
  let (second, s) ← number 2 0 s
  let (nanos, s) ← fraction s
  let (offset, s) ← zone s
  if s = [] ∧ 1 ≤ month ∧ month ≤ 12 ∧ 1 ≤ day ∧ day ≤ monthLength year month ∧ hour < 24 ∧ minute < 60 then
    let start : Int := 86400 * (yearStart year + monthStart year month + (day - 1) : Nat) + 3600 * hour + 60 * minute - 60 * offset - epochSecs
    if second < 60 then some ⟨start + second, nanos⟩
    else if second = 60 ∧ leapSecond (start + 59) then some ⟨start + 59, 999999999⟩
    else none
  else none

end Rfc3339

/-- The real hash function and the text of timestamps. -/
def Env.real (m : Mode) (stack : Nat) : Env where
  hash := Blake2b.hash
  mode := m
  stack := stack
  timeText t := (Rfc3339.format t).map String.ofList
  timeRead s := Rfc3339.parse s.toList

end Verif
