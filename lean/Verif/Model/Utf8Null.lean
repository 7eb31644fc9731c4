import Verif.Model.Utf8

/-!
The UTF-8 functions of `/repo/src/charstr.c` with pointers that may be NULL, and runs of calls each of which is given the pointer that the
previous one returned. `none` is a NULL pointer.
-/

namespace Verif.Utf8

/-- charstr.c:457-494 `charstr_decode_utf8_codepoint`; NULL for NULL by line 461. -/
def decodeOpt : Option Pos → C (Option (Nat × Pos))
  | none => .ok none
  | some p => decode p

/-- charstr.c:543-564 `charstr_encode_utf8_codepoint`; NULL for NULL by line 545. -/
def encodeOpt (cp : Int) (buf : List UInt8) (s : Option Nat) (e : Option Nat) : C (Option Nat × List UInt8) :=
  match s with
  | none => .ok (none, buf)
  | some i => encode cp buf i e

/-- charstr.c:496-501 `charstr_valid_utf8_bounded`: the loop is not entered for NULL. -/
def validBoundedOpt : Option Pos → C Bool
  | none => .ok false
  | some p => validBounded p

/-- charstr.c:503-508 `charstr_valid_utf8`. -/
def validOpt : Option (List UInt8) → C Bool
  | none => .ok false
  | some s => valid s

/-- A caller that encodes code points one after the other, `s = charstr_encode_utf8_codepoint(cp, s, end)`, and looks at `s` in the end only. -/
def encodeRun (e : Option Nat) : List Int → List UInt8 → Option Nat → C (Option Nat × List UInt8)
  | [], buf, s => .ok (s, buf)
  | cp :: cps, buf, s => match encodeOpt cp buf s e with
    | .error x => .error x
    | .ok (s, buf) => encodeRun e cps buf s

/-- A caller that decodes `n` code points, `s = charstr_decode_utf8_codepoint(s, end, &cp)`, and looks at `s` in the end only: the code points
stored, and the last pointer. -/
def decodeRun : Nat → Option Pos → C (List Nat × Option Pos)
  | 0, p => .ok ([], p)
  | n + 1, p => match decodeOpt p with
    | .error x => .error x
    | .ok none => decodeRun n none
    | .ok (some (cp, q)) => match decodeRun n (some q) with
      | .error x => .error x
      | .ok (cps, r) => .ok (cp :: cps, r)

end Verif.Utf8
