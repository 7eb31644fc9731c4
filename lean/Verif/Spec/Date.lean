/-!
Specification of the proleptic Gregorian calendar, independent of the code: the leap year rule, the lengths of the months and
the successor of a day. Dates are obtained by counting days one by one.
-/

namespace Verif.Spec.Date

/-- A calendar date; months and days count from 1. -/
structure Date where
  year : Int
  month : Int
  day : Int
  deriving DecidableEq, Repr

/-- The Gregorian leap year rule. -/
def leap (y : Int) : Bool := y % 4 = 0 && (y % 100 ≠ 0 || y % 400 = 0)

/-- Number of days of a month. -/
def monthLength (y m : Int) : Int :=
  if m = 2 then (if leap y then 29 else 28)
  else if m = 4 ∨ m = 6 ∨ m = 9 ∨ m = 11 then 30
  else 31

/-- The day after. -/
def next (d : Date) : Date :=
  if d.day < monthLength d.year d.month then { d with day := d.day + 1 }
  else if d.month < 12 then ⟨d.year, d.month + 1, 1⟩
  else ⟨d.year + 1, 1, 1⟩

/-- A date that exists. -/
def Valid (d : Date) : Prop := 1 ≤ d.month ∧ d.month ≤ 12 ∧ 1 ≤ d.day ∧ d.day ≤ monthLength d.year d.month

/-- The date `n` days after `d`. -/
def after (d : Date) : Nat → Date
  | 0 => d
  | n + 1 => next (after d n)

/-- 1970-01-01. -/
def unixEpoch : Date := ⟨1970, 1, 1⟩

/-- The day of the week (0 = Sunday) `n` days after 1970-01-01, a Thursday. -/
def weekday : Nat → Nat
  | 0 => 4
  | n + 1 => if weekday n = 6 then 0 else weekday n + 1

end Verif.Spec.Date
