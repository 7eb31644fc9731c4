import Verif.Model.PyText
import Verif.Model.Case

/-!
The generators `/repo/src/*.py` from the text of the data files to the functions they emit. An uncaught exception, a failed `assert` and an
emitted file that does not compile are `Err.abort`; nothing they have written before that is used. Hence it does not matter that the lines
are all taken apart first here. Not modelled: the decoding of the files and carriage returns. The
emitted text itself is in `Model/Emit.lean`.
-/

set_option autoImplicit false

namespace Verif.PyGen
open Verif.Py Verif.Categorize

/-- The first fields of a line and how the description ends (categorize.py:12-14, 22). -/
def parse (line : Str) : C (Rec Str) :=
  match splitMax ';' 3 line with
  | [cp, descr, cat, _] => match nat cp 16 with
    | .error e => .error e
    | .ok n => .ok ⟨n, if endsWith descr [',', ' ', 'L', 'a', 's', 't', '>'] then .last else if endsWith descr [',', ' ', 'F', 'i', 'r', 's', 't', '>'] then .first else .plain, cat⟩
  | _ => .error .abort

/-- categorize.py:7-48 `main`, for a table of `n` code points (0x110000 there). -/
def categorizeText (n : Nat) (text : Str) : C (Code Str) := do
  let recs ← (lines text).mapM parse
  Categorize.main n recs

/-- The emitted `switch`: a repeated label does not compile. -/
def compile {α : Type} (cases : List (Nat × α)) : C (Nat → Option α) :=
  if (cases.map Prod.fst).Nodup then .ok fun n => (cases.find? fun c => c.1 == n).map Prod.snd else .error .abort

/-- `int(line.split(";")[i], 16)` where a ValueError is caught (lower_case.py:27-32). Simplified: a negative number ends the script. -/
def caseField (line : Str) (i : Nat) : C (Option Nat) := do
  let f ← item (split ';' line) i
  match int f 16 with
  | none => .ok none
  | some (.ofNat v) => .ok (some v)
  | _ => .error .abort

/-- lower_case.py:15-32: one line. -/
def parseLower (line : Str) : C (CaseRec Str) := do
  let r ← parse line
  let v ← if r.cat = ['L', 'u'] then caseField line 13 else .ok none
  .ok { r with lower := v, upper := none }

/-- upper_case.py:15-32: one line. -/
def parseUpper (line : Str) : C (CaseRec Str) := do
  let r ← parse line
  let v ← if r.cat = ['L', 'l'] then caseField line 12 else .ok none
  .ok { r with lower := none, upper := v }

/-- lower_case.py:5-38 `main` and the emitted `charstr_naive_lcase_unicode`. -/
def lowerText (text : Str) : C (Int → Int) := do
  let recs ← (lines text).mapM parseLower
  let cases ← caseLoop ['L', 'u'] CaseRec.lower recs none
  let _ ← compile cases
  .ok (switch cases)

/-- upper_case.py:5-38 `main` and the emitted `charstr_naive_ucase_unicode`. -/
def upperText (text : Str) : C (Int → Int) := do
  let recs ← (lines text).mapM parseUpper
  let cases ← caseLoop ['L', 'l'] CaseRec.upper recs none
  let _ ← compile cases
  .ok (switch cases)

/-- canonical_combining_classes.py:15-27: one line. -/
def parseCcc (line : Str) : C (Rec Str × Nat) := do
  let r ← parse line
  let f ← item (split ';' line) 3
  let k ← nat f 10
  .ok (r, k)

/-- canonical_combining_classes.py:12-29: the loop over the lines. The result are the lines `case cp: return ccc;`. -/
def cccLoop : List (Rec Str × Nat) → Option Str → C (List (Nat × Nat))
  | [], rangeStart => if rangeStart = none then .ok [] else .error .abort
  | (r, k) :: rs, rangeStart =>
    if r.kind = .last ∧ rangeStart ≠ some r.cat then .error .abort
    else if r.kind ≠ .last ∧ rangeStart ≠ none then .error .abort
    else match cccLoop rs (if r.kind = .first then some r.cat else none) with
      | .error e => .error e
      | .ok cases => .ok ((r.cp, k) :: cases)

/-- canonical_combining_classes.py:5-33 `main` and the emitted `charstr_unicode_canonical_combining_class`. -/
def cccText (text : Str) : C (Nat → Nat) := do
  let recs ← (lines text).mapM parseCcc
  let cases ← cccLoop recs none
  let f ← compile cases
  .ok fun cp => (f cp).getD 0

/-- decomposition.py:11-24, recomposition.py:14-22: the code point and the canonical decomposition, if the line has one. -/
def parseDecomp (line : Str) : C (Nat × Option (List Nat)) := do
  let fields := split ';' line
  let hexCp ← item fields 0
  let codepoint ← nat hexCp 16
  let raw ← item fields 5
  match raw with
  | [] => .ok (codepoint, none)
  | '<' :: _ => .ok (codepoint, none)
  | _ => do
    let d ← (words raw).mapM fun w => nat w 16
    .ok (codepoint, some d)

/-- The lines with a canonical decomposition. -/
def decompositions (recs : List (Nat × Option (List Nat))) : List (Nat × List Nat) :=
  recs.filterMap fun r => r.2.map fun d => (r.1, d)

/-- decomposition.py:5-39 `main` and the emitted `_charstr_unicode_decomposition`: the array that the result points to, ended by 0. A second
array of the same name does not compile (lines 20-21). -/
def decompText (text : Str) : C (Nat → Option (List Nat)) := do
  let recs ← (lines text).mapM parseDecomp
  let f ← compile ((decompositions recs).map fun r => (r.1, r.2 ++ [0]))
  .ok fun cp => if cp < 0x110000 then f cp else none

/-- recomposition.py:9-12: one line of the exclusions. -/
def parseExclusion (line : Str) : C (Option Nat) :=
  match strip line with
  | [] => .ok none
  | '#' :: _ => .ok none
  | s => do
    let w ← item (words s) 0
    let n ← nat w 16
    .ok (some n)

/-- recomposition.py:23-29: `recompositions[cc][starter] = codepoint`, as a list of (starter, cc) and code point. -/
def pairsOf (exclusions : List Nat) : List (Nat × List Nat) → C (List ((Nat × Nat) × Nat))
  | [] => .ok []
  | (codepoint, d) :: rs =>
    if d.length < 2 then pairsOf exclusions rs
    else match d with
      | [starter, cc] => do
        let ps ← pairsOf exclusions rs
        if codepoint ∈ exclusions then .ok ps else .ok (((starter, cc), codepoint) :: ps)
      | _ => .error .abort

/-- recomposition.py:5-64 `main` and the emitted `_charstr_unicode_primary_composite`; `none` is -1. The keys of the dictionaries are distinct,
the last assignment to a key counts. -/
def recompText (text exclusionsText : Str) : C (Nat → Nat → Option Nat) := do
  let ex ← (lines exclusionsText).mapM parseExclusion
  let recs ← (lines text).mapM parseDecomp
  let ps ← pairsOf (ex.filterMap id) (decompositions recs)
  .ok fun starter cc => (ps.reverse.find? fun p => p.1 == (starter, cc)).map Prod.snd

/-- A line that sets `qc[cp][kind] = value` for the code points from `lo` to `hi`; `kind` is an index into `qc_types`. -/
structure QcLine where
  kind : Nat
  lo : Nat
  hi : Nat
  value : Str

/-- allowed_in_normal_form.py:8 `qc_types` -/
def qcTypes : List Str := [['N', 'F', 'C', '_', 'Q', 'C'], ['N', 'F', 'D', '_', 'Q', 'C'], ['N', 'F', 'K', 'C', '_', 'Q', 'C'], ['N', 'F', 'K', 'D', '_', 'Q', 'C']]

/-- allowed_in_normal_form.py:16-36: one line; the table has `n` code points. -/
def parseQc (n : Nat) (line : Str) : C (Option QcLine) :=
  let line := if '#' ∈ line then line.takeWhile (· ≠ '#') else line
  match split ';' (strip line) with
  | [cpRange, kind, value] =>
    if strip kind ∈ qcTypes then do
      let (lo, hi) ← if hasDots cpRange then
          match splitDots cpRange with
          | [a, b] => do
            let lo ← nat a 16
            let hi ← nat b 16
            .ok (lo, hi)
          | _ => .error .abort
        else do
          let lo ← nat cpRange 16
          .ok (lo, lo)
      if lo ≤ hi ∧ n ≤ hi then .error .abort else .ok (some ⟨qcTypes.idxOf (strip kind), lo, hi, strip value⟩)
    else .ok none
  | _ => .ok none

/-- The entry `qc[cp][kind]` after the lines (allowed_in_normal_form.py:11-14, 35-36). -/
def qcValue (ls : List QcLine) (kind cp : Nat) : Str :=
  match ls.reverse.find? fun l => l.kind == kind && decide (l.lo ≤ cp) && decide (cp ≤ l.hi) with
  | none => ['Y']
  | some l => l.value

/-- allowed_in_normal_form.py:46-52 with charstr.h:176-186: the bits of one form. -/
def qcBits (value : Str) (kind : Nat) : C Nat :=
  if value = ['N'] then .ok (1 <<< (2 * kind))
  else if value = ['M'] then .ok (2 <<< (2 * kind))
  else if value = ['Y'] then .ok 0
  else .error .abort

/-- allowed_in_normal_form.py:43-53: the flags of one code point. -/
def qcFlags (ls : List QcLine) (cp : Nat) : C Nat := do
  let a ← qcBits (qcValue ls 0 cp) 0
  let b ← qcBits (qcValue ls 1 cp) 1
  let c ← qcBits (qcValue ls 2 cp) 2
  let d ← qcBits (qcValue ls 3 cp) 3
  .ok (a ||| b ||| c ||| d)

/-- allowed_in_normal_form.py:7-59 `main`, for a table of `n` code points (0x110000 there), and the emitted
`charstr_allowed_unicode_normal_forms`. -/
def qcText (n : Nat) (text : Str) : C (Nat → Nat) := do
  let ls ← (lines text).mapM (parseQc n)
  let flags ← (List.range n).mapM fun cp => qcFlags (ls.filterMap id) cp
  .ok fun cp => flags.getD cp 0

end Verif.PyGen
