import Verif.Model.Category13

/-!
Model of `/repo/src/lower_case.py` and `/repo/src/upper_case.py`, which differ in a category and a field, and of the functions they emit,
`charstr_naive_lcase_unicode` and `charstr_naive_ucase_unicode`. A line of `UnicodeData.txt` is given by its fields; splitting it is in
`Model/PyGen.lean`. A failed Python `assert` is `Err.abort`.
-/

set_option autoImplicit false

namespace Verif.Categorize
open Verif.Unidata

/-- One line of the data (lower_case.py:15-16, 30): fields 13 and 12 are a code point or empty. -/
structure CaseRec (κ : Type) extends Rec κ where
  lower : Option Nat
  upper : Option Nat

/-- lower_case.py:12-34: the loop over the lines from a value of `range_start` on. The result are the lines `case from: return dst;`. The
conversion of an empty field raises ValueError (line 31). -/
def caseLoop {κ : Type} [DecidableEq κ] (want : κ) (field : CaseRec κ → Option Nat) : List (CaseRec κ) → Option κ → C (List (Nat × Nat))
  | [], rangeStart => if rangeStart = none then .ok [] else .error .abort
  | r :: rs, rangeStart =>
    if r.kind = .last ∧ rangeStart ≠ some r.cat then .error .abort
    else if r.kind ≠ .last ∧ rangeStart ≠ none then .error .abort
    else match caseLoop want field rs (if r.kind = .first then some r.cat else none) with
      | .error e => .error e
      | .ok cases =>
        if r.cat = want then
          match field r with
          | some dst => .ok ((r.cp, dst) :: cases)
          | none => .ok cases
        else .ok cases

/-- lower_case.py:5-37 `main` -/
def lowerMain (lines : List (CaseRec Cat)) : C (List (Nat × Nat)) := caseLoop .Lu CaseRec.lower lines none

/-- upper_case.py:5-37 `main` -/
def upperMain (lines : List (CaseRec Cat)) : C (List (Nat × Nat)) := caseLoop .Ll CaseRec.upper lines none

/-- The emitted function (lower_case.py:8-10, 28-30, 35): the labels are distinct, otherwise it would not compile. -/
def switch : List (Nat × Nat) → Int → Int
  | [], codepoint => codepoint
  | (c, dst) :: cases, codepoint => if codepoint = c then dst else switch cases codepoint

/-- The lines of UnicodeData.txt. -/
def caseLines13 : List (CaseRec Cat) := lines13.map fun r => ⟨r, lowerTable.lookup r.cp, upperTable.lookup r.cp⟩

end Verif.Categorize
