import Verif.Model.Date
open Verif.Date
def main : IO Unit := do
  let mut e : Int := 1
  while e < 2145909600 do
    match epochToUtc e with
    | .ok t => IO.println s!"{e} {t.sec} {t.min} {t.hour} {t.mday} {t.mon} {t.year} {t.wday} {t.yday} {t.isdst}"
    | .error _ => IO.println s!"{e} UB"
    e := e + 17113
