import Verif.Spec.Number
import Verif.Model.Codec

/-!
# What a timestamp text means (RFC 3339, Gregorian calendar)
-/

namespace Verif

namespace Calendar

/-- Every fourth year is a leap year, but of the full centuries only every fourth. -/
def Leap (y : Nat) : Prop := 4 ∣ y ∧ (100 ∣ y → 400 ∣ y)

instance (y : Nat) : Decidable (Leap y) := inferInstanceAs (Decidable (4 ∣ y ∧ (100 ∣ y → 400 ∣ y)))

/-- Lengths of the months of a year. -/
def months (y : Nat) : List Nat := [31, if Leap y then 29 else 28, 31, 30, 31, 30, 31, 31, 30, 31, 30, 31]

/-- Length of a year. -/
def yearDays (y : Nat) : Nat := (months y).sum

/-- Year, month from 1, day from 1. -/
structure Date where
  year : Nat
  month : Nat
  day : Nat
  deriving DecidableEq

/-- A date that exists. -/
def Date.Valid (d : Date) : Prop := 1 ≤ d.month ∧ d.month ≤ 12 ∧ 1 ≤ d.day ∧ d.day ≤ (months d.year).getD (d.month - 1) 0

/-- Days of all earlier years, all earlier months of the year and all earlier days of the month. -/
def Date.count (d : Date) : Nat := ((List.range d.year).map yearDays).sum + ((months d.year).take (d.month - 1)).sum + (d.day - 1)

/-- Seconds since the start of 1970 of a time of day on a date, at an offset in minutes. -/
def seconds (d : Date) (h m s : Nat) (offset : Int) : Int :=
  86400 * ((d.count : Int) - ((⟨1970, 1, 1⟩ : Date).count : Int)) + 3600 * h + 60 * m + s - 60 * offset

end Calendar

namespace Rfc3339

open Calendar

/-- A number of exactly `w` digits. -/
def Field (w : Nat) (s : List Char) (n : Nat) : Prop := s.length = w ∧ (∀ c ∈ s, c ∈ digitChars) ∧ decimal s = n

/-- A fraction of a second, in nanoseconds rounded down. -/
def Fraction (s : List Char) (ns : Nat) : Prop :=
  (s = [] ∧ ns = 0) ∨ ∃ ds, s = '.' :: ds ∧ Digits ds ∧ ns = decimal ds * 10 ^ 9 / 10 ^ ds.length

/-- An offset in minutes. -/
def Zone (s : List Char) (offset : Int) : Prop :=
  ((s = ['Z'] ∨ s = ['z']) ∧ offset = 0) ∨
    ∃ hs ms h m, Field 2 hs h ∧ Field 2 ms m ∧ h ≤ 23 ∧ m ≤ 59 ∧
      ((s = '+' :: hs ++ ':' :: ms ∧ offset = 60 * h + m) ∨ (s = '-' :: hs ++ ':' :: ms ∧ offset = -(60 * h + m)))

/-- The second before a first of a month. -/
def EndOfMonth (secs : Int) : Prop := ∃ d : Date, d.Valid ∧ d.day = 1 ∧ secs + 1 = seconds d 0 0 0 0

/-- The instant a text denotes.  The separator may be any ASCII character; a 61st second stands for the last nanosecond of a month. -/
def Means (s : List Char) (t : DateTime) : Prop :=
  ∃ (d : Date) (h m sec ns : Nat) (offset : Int) (ys ms ds hs mins ss fs zs : List Char) (sep : Char),
    s = ys ++ ['-'] ++ ms ++ ['-'] ++ ds ++ [sep] ++ hs ++ [':'] ++ mins ++ [':'] ++ ss ++ fs ++ zs ∧
    Field 4 ys d.year ∧ Field 2 ms d.month ∧ Field 2 ds d.day ∧ d.Valid ∧ sep.toNat < 128 ∧
    Field 2 hs h ∧ h < 24 ∧ Field 2 mins m ∧ m < 60 ∧ Field 2 ss sec ∧ Fraction fs ns ∧ Zone zs offset ∧
    ((sec < 60 ∧ t = ⟨seconds d h m sec offset, ns⟩) ∨
      (sec = 60 ∧ EndOfMonth (seconds d h m 59 offset) ∧ t = ⟨seconds d h m 59 offset, 999999999⟩))

/-- The text of an instant in UTC: separated by `T`, no 61st second, no zeros at the end of the fraction, ending in `Z`. -/
def Canonical (s : List Char) (t : DateTime) : Prop :=
  ∃ (d : Date) (h m sec : Nat) (ys ms ds hs mins ss fs : List Char),
    s = ys ++ ['-'] ++ ms ++ ['-'] ++ ds ++ ['T'] ++ hs ++ [':'] ++ mins ++ [':'] ++ ss ++ fs ++ ['Z'] ∧
    Field 4 ys d.year ∧ Field 2 ms d.month ∧ Field 2 ds d.day ∧ d.Valid ∧
    Field 2 hs h ∧ h < 24 ∧ Field 2 mins m ∧ m < 60 ∧ Field 2 ss sec ∧ sec < 60 ∧
    Fraction fs t.nanos ∧ fs.length ≤ 10 ∧ fs.getLast? ≠ some '0' ∧ t.secs = seconds d h m sec 0

end Rfc3339

end Verif
