/-!
# What a reader of a text sees

The numbers in a text: the values of its longest runs of decimal digits, from left to right.
-/

namespace Verif

/-- The numbers of a text, after a run of digits with the given value. -/
def numbersAfter : Option Nat → List Char → List Nat
  | run, [] => run.toList
  | run, c :: cs =>
    if c.isDigit then numbersAfter (some (run.getD 0 * 10 + (c.toNat - 48))) cs
    else run.toList ++ numbersAfter none cs

/-- The numbers of a text. -/
def numbersIn (s : List Char) : List Nat := numbersAfter none s

example : numbersIn "a12, 7;305".toList = [12, 7, 305] := by decide

end Verif
