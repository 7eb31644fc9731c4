import Verif.Base.Outcome

/-!
Model of `/repo/src/date.c`. `time_t` is a 64-bit integer, `int` has 32 bits. C division truncates: `Int.tdiv`, `Int.tmod`.
-/

namespace Verif.Date

/-- `struct tm` as filled in by `epoch_to_utc`. -/
structure Tm where
  sec : Int
  min : Int
  hour : Int
  mday : Int
  mon : Int
  year : Int
  wday : Int
  yday : Int
  isdst : Int
  deriving DecidableEq, Repr

/-- Conversion to `int` (modulo 2^32, as gcc defines it). -/
def toInt (x : Int) : Int := (x + 2 ^ 31) % 2 ^ 32 - 2 ^ 31

/-- `int` addition; overflow is undefined. -/
def addInt (a b : Int) : C Int := if -(2 ^ 31) ≤ a + b ∧ a + b < 2 ^ 31 then .ok (a + b) else .error .ub

/-- date.c:60-427 `YDAY_INFO`: year offset, month (0 = January), day of the month. -/
def ydayInfo : List (Int × Int × Int) := [
   (0, 2, 1), (0, 2, 2), (0, 2, 3), (0, 2, 4), (0, 2, 5), (0, 2, 6), (0, 2, 7), (0, 2, 8), (0, 2, 9), (0, 2, 10), (0,
   2, 11), (0, 2, 12), (0, 2, 13), (0, 2, 14), (0, 2, 15), (0, 2, 16), (0, 2, 17), (0, 2, 18), (0, 2, 19), (0, 2, 20),
   (0, 2, 21), (0, 2, 22), (0, 2, 23), (0, 2, 24), (0, 2, 25), (0, 2, 26), (0, 2, 27), (0, 2, 28), (0, 2, 29), (0, 2,
   30), (0, 2, 31), (0, 3, 1), (0, 3, 2), (0, 3, 3), (0, 3, 4), (0, 3, 5), (0, 3, 6), (0, 3, 7), (0, 3, 8), (0, 3, 9),
   (0, 3, 10), (0, 3, 11), (0, 3, 12), (0, 3, 13), (0, 3, 14), (0, 3, 15), (0, 3, 16), (0, 3, 17), (0, 3, 18), (0, 3,
   19), (0, 3, 20), (0, 3, 21), (0, 3, 22), (0, 3, 23), (0, 3, 24), (0, 3, 25), (0, 3, 26), (0, 3, 27), (0, 3, 28),
   (0, 3, 29), (0, 3, 30), (0, 4, 1), (0, 4, 2), (0, 4, 3), (0, 4, 4), (0, 4, 5), (0, 4, 6), (0, 4, 7), (0, 4, 8), (0,
   4, 9), (0, 4, 10), (0, 4, 11), (0, 4, 12), (0, 4, 13), (0, 4, 14), (0, 4, 15), (0, 4, 16), (0, 4, 17), (0, 4, 18),
   (0, 4, 19), (0, 4, 20), (0, 4, 21), (0, 4, 22), (0, 4, 23), (0, 4, 24), (0, 4, 25), (0, 4, 26), (0, 4, 27), (0, 4,
   28), (0, 4, 29), (0, 4, 30), (0, 4, 31), (0, 5, 1), (0, 5, 2), (0, 5, 3), (0, 5, 4), (0, 5, 5), (0, 5, 6), (0, 5,
   7), (0, 5, 8), (0, 5, 9), (0, 5, 10), (0, 5, 11), (0, 5, 12), (0, 5, 13), (0, 5, 14), (0, 5, 15), (0, 5, 16), (0,
   5, 17), (0, 5, 18), (0, 5, 19), (0, 5, 20), (0, 5, 21), (0, 5, 22), (0, 5, 23), (0, 5, 24), (0, 5, 25), (0, 5, 26),
   (0, 5, 27), (0, 5, 28), (0, 5, 29), (0, 5, 30), (0, 6, 1), (0, 6, 2), (0, 6, 3), (0, 6, 4), (0, 6, 5), (0, 6, 6),
   (0, 6, 7), (0, 6, 8), (0, 6, 9), (0, 6, 10), (0, 6, 11), (0, 6, 12), (0, 6, 13), (0, 6, 14), (0, 6, 15), (0, 6,
   16), (0, 6, 17), (0, 6, 18), (0, 6, 19), (0, 6, 20), (0, 6, 21), (0, 6, 22), (0, 6, 23), (0, 6, 24), (0, 6, 25),
   (0, 6, 26), (0, 6, 27), (0, 6, 28), (0, 6, 29), (0, 6, 30), (0, 6, 31), (0, 7, 1), (0, 7, 2), (0, 7, 3), (0, 7, 4),
   (0, 7, 5), (0, 7, 6), (0, 7, 7), (0, 7, 8), (0, 7, 9), (0, 7, 10), (0, 7, 11), (0, 7, 12), (0, 7, 13), (0, 7, 14),
   (0, 7, 15), (0, 7, 16), (0, 7, 17), (0, 7, 18), (0, 7, 19), (0, 7, 20), (0, 7, 21), (0, 7, 22), (0, 7, 23), (0, 7,
   24), (0, 7, 25), (0, 7, 26), (0, 7, 27), (0, 7, 28), (0, 7, 29), (0, 7, 30), (0, 7, 31), (0, 8, 1), (0, 8, 2), (0,
   8, 3), (0, 8, 4), (0, 8, 5), (0, 8, 6), (0, 8, 7), (0, 8, 8), (0, 8, 9), (0, 8, 10), (0, 8, 11), (0, 8, 12), (0, 8,
   13), (0, 8, 14), (0, 8, 15), (0, 8, 16), (0, 8, 17), (0, 8, 18), (0, 8, 19), (0, 8, 20), (0, 8, 21), (0, 8, 22),
   (0, 8, 23), (0, 8, 24), (0, 8, 25), (0, 8, 26), (0, 8, 27), (0, 8, 28), (0, 8, 29), (0, 8, 30), (0, 9, 1), (0, 9,
   2), (0, 9, 3), (0, 9, 4), (0, 9, 5), (0, 9, 6), (0, 9, 7), (0, 9, 8), (0, 9, 9), (0, 9, 10), (0, 9, 11), (0, 9,
   12), (0, 9, 13), (0, 9, 14), (0, 9, 15), (0, 9, 16), (0, 9, 17), (0, 9, 18), (0, 9, 19), (0, 9, 20), (0, 9, 21),
   (0, 9, 22), (0, 9, 23), (0, 9, 24), (0, 9, 25), (0, 9, 26), (0, 9, 27), (0, 9, 28), (0, 9, 29), (0, 9, 30), (0, 9,
   31), (0, 10, 1), (0, 10, 2), (0, 10, 3), (0, 10, 4), (0, 10, 5), (0, 10, 6), (0, 10, 7), (0, 10, 8), (0, 10, 9),
   (0, 10, 10), (0, 10, 11), (0, 10, 12), (0, 10, 13), (0, 10, 14), (0, 10, 15), (0, 10, 16), (0, 10, 17), (0, 10,
   18), (0, 10, 19), (0, 10, 20), (0, 10, 21), (0, 10, 22), (0, 10, 23), (0, 10, 24), (0, 10, 25), (0, 10, 26), (0,
   10, 27), (0, 10, 28), (0, 10, 29), (0, 10, 30), (0, 11, 1), (0, 11, 2), (0, 11, 3), (0, 11, 4), (0, 11, 5), (0, 11,
   6), (0, 11, 7), (0, 11, 8), (0, 11, 9), (0, 11, 10), (0, 11, 11), (0, 11, 12), (0, 11, 13), (0, 11, 14), (0, 11,
   15), (0, 11, 16), (0, 11, 17), (0, 11, 18), (0, 11, 19), (0, 11, 20), (0, 11, 21), (0, 11, 22), (0, 11, 23), (0,
   11, 24), (0, 11, 25), (0, 11, 26), (0, 11, 27), (0, 11, 28), (0, 11, 29), (0, 11, 30), (0, 11, 31), (1, 0, 1), (1,
   0, 2), (1, 0, 3), (1, 0, 4), (1, 0, 5), (1, 0, 6), (1, 0, 7), (1, 0, 8), (1, 0, 9), (1, 0, 10), (1, 0, 11), (1, 0,
   12), (1, 0, 13), (1, 0, 14), (1, 0, 15), (1, 0, 16), (1, 0, 17), (1, 0, 18), (1, 0, 19), (1, 0, 20), (1, 0, 21),
   (1, 0, 22), (1, 0, 23), (1, 0, 24), (1, 0, 25), (1, 0, 26), (1, 0, 27), (1, 0, 28), (1, 0, 29), (1, 0, 30), (1, 0,
   31), (1, 1, 1), (1, 1, 2), (1, 1, 3), (1, 1, 4), (1, 1, 5), (1, 1, 6), (1, 1, 7), (1, 1, 8), (1, 1, 9), (1, 1, 10),
   (1, 1, 11), (1, 1, 12), (1, 1, 13), (1, 1, 14), (1, 1, 15), (1, 1, 16), (1, 1, 17), (1, 1, 18), (1, 1, 19), (1, 1,
   20), (1, 1, 21), (1, 1, 22), (1, 1, 23), (1, 1, 24), (1, 1, 25), (1, 1, 26), (1, 1, 27), (1, 1, 28), (1, 1, 29)]

/-- `&YDAY_INFO[days]`; an index outside the table is undefined. -/
def ydayRow (days : Int) : C (Int × Int × Int) :=
  if days < 0 then .error .ub
  else match ydayInfo[days.toNat]? with
    | some r => .ok r
    | none => .error .ub

/-- date.c:42-57: the part after the test for the last day of a 400-year cycle. `days` is the value after `%= _400_YEARS`,
`year` is `tm_year` so far. Returns `tm_year`, `tm_mon`, `tm_mday`. -/
def dateTail (days year : Int) : C (Int × Int × Int) :=
  let days := days.tmod 36524
  let year := year + days.tdiv 1461 * 4
  let days := days.tmod 1461
  let years := days.tdiv 365
  let year := year + years
  if years = 4 then .ok (year, 1, 29)
  else match ydayRow (days.tmod 365) with
    | .error e => .error e
    | .ok (off, mon, mday) => .ok (year + off, mon, mday)

/-- date.c:33-57: `tm_year`, `tm_mon`, `tm_mday` from the number of days since 1600-03-01. None of these sums can overflow:
`tm_year` stays within 2^31 / 146097 * 400. -/
def dateOf (days : Int) : C (Int × Int × Int) :=
  let year := 1600 + days.tdiv 146097 * 400 - 1900
  let days := days.tmod 146097
  let centuries := days.tdiv 36524
  let year := year + centuries * 100
  if centuries = 4 then .ok (year, 1, 29) else dateTail days year

/-- date.c:12-58 `epoch_to_utc`. -/
def epochToUtc (epoch : Int) : C Tm :=
  let sec := epoch.tmod 86400
  let min := sec.tdiv 60
  let sec := sec.tmod 60
  let hour := min.tdiv 60
  let min := min.tmod 60
  let days := toInt (epoch.tdiv 86400)
  match addInt days 4 with
  | .error e => .error e
  | .ok d4 => match addInt days 135080 with
    | .error e => .error e
    | .ok days => match dateOf days with
      | .error e => .error e
      | .ok (year, mon, mday) =>
        .ok { sec, min, hour, mday, mon, year, wday := d4.tmod 7, yday := -1, isdst := 0 }

end Verif.Date
