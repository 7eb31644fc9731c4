import Mathlib.Data.Nat.Digits.Defs
import Verif.Base.Chars
import Verif.Model.PyGen

/-!
The text that the generators `/repo/src/*.py` write, character by character. A script that fails has written a part of it; the build then stops
(`Err.abort`).
-/

set_option autoImplicit false

namespace Verif.Emit
open Verif.Py Verif.PyGen Verif.Categorize

/-- A digit of a number in a base up to 16. -/
def digitChar (d : Nat) : Char := if d < 10 then Char.ofNat (48 + d) else Char.ofNat (87 + d)

/-- `%d`, `%x` and `%o` for a number that is not negative, and `{}` of `str.format`. -/
def fmt (b n : Nat) : Str := if n = 0 then ['0'] else (Nat.digits b n).reverse.map digitChar

/-- lower_case.py:28-30, canonical_combining_classes.py:26-27: one label. -/
def caseLine (n : Nat) (result : Str) : Str := c!"        case " ++ (fmt 10 n ++ (c!": return " ++ (result ++ c!";\n")))

/-- lower_case.py:5-38 `main`: the text for the cases. -/
def lowerOut (cases : List (Nat × Nat)) : Str :=
  c!"#include \"charstr.h\"\n\nint charstr_naive_lcase_unicode(int codepoint)\n{\n    switch (codepoint) {\n" ++
  (cases.flatMap (fun c => caseLine c.1 (fmt 10 c.2)) ++ c!"        default: return codepoint;\n    }\n}\n\n")

/-- upper_case.py:5-38 `main`: the text for the cases. -/
def upperOut (cases : List (Nat × Nat)) : Str :=
  c!"#include \"charstr.h\"\n\nint charstr_naive_ucase_unicode(int codepoint)\n{\n    switch (codepoint) {\n" ++
  (cases.flatMap (fun c => caseLine c.1 (fmt 10 c.2)) ++ c!"        default: return codepoint;\n    }\n}\n\n")

/-- canonical_combining_classes.py:5-33 `main`: the text for the cases. -/
def cccOut (cases : List (Nat × Nat)) : Str :=
  c!"#include \"charstr.h\"\n\nint charstr_unicode_canonical_combining_class(int codepoint)\n{\n    switch (codepoint) {\n" ++
  (cases.flatMap (fun c => caseLine c.1 (fmt 10 c.2)) ++ c!"        default: return 0;\n    }\n}\n")

/-- lower_case.py:5-38: from the data file to the emitted file. -/
def lowerFile (text : Str) : C Str := do
  let recs ← (lines text).mapM parseLower
  let cases ← caseLoop ['L', 'u'] CaseRec.lower recs none
  .ok (lowerOut cases)

/-- upper_case.py:5-38: from the data file to the emitted file. -/
def upperFile (text : Str) : C Str := do
  let recs ← (lines text).mapM parseUpper
  let cases ← caseLoop ['L', 'l'] CaseRec.upper recs none
  .ok (upperOut cases)

/-- canonical_combining_classes.py:5-33: from the data file to the emitted file. -/
def cccFile (text : Str) : C Str := do
  let recs ← (lines text).mapM parseCcc
  let cases ← cccLoop recs none
  .ok (cccOut cases)

/-- decomposition.py:20-24: one array. -/
def arrayLine (cp : Nat) (d : List Nat) : Str :=
  c!"static const int decompose_" ++ (fmt 16 cp ++ (c!"[] = {" ++ (d.flatMap (fun x => c!" 0x" ++ (fmt 16 x ++ c!",")) ++ c!" 0 };\n")))

/-- decomposition.py:31-35: `for codepoint in range(0, n): if codepoint in decompositions` -/
def present (keys : List Nat) (n : Nat) : List Nat := (List.range n).filter (· ∈ keys)

/-- decomposition.py:5-39 `main`: the text for the lines with a canonical decomposition; `n` is 0x110000 there. -/
def decompOut (n : Nat) (ds : List (Nat × List Nat)) : Str :=
  c!"#include <stddef.h>\n\n" ++ (ds.flatMap (fun d => arrayLine d.1 d.2) ++
  (c!"\nconst int *_charstr_unicode_decomposition(int codepoint)\n{\n    switch (codepoint) {\n" ++
  ((present (ds.map Prod.fst) n).flatMap (fun cp => caseLine cp (c!"decompose_" ++ fmt 16 cp)) ++
  c!"        default: return NULL;\n    }\n}\n")))

/-- decomposition.py:5-39: from the data file to the emitted file. -/
def decompFile (text : Str) : C Str := do
  let recs ← (lines text).mapM parseDecomp
  .ok (decompOut 0x110000 (decompositions recs))

/-- allowed_in_normal_form.py:46-52: the name of the flag of one form, if there is one. -/
def flagName (ls : List QcLine) (cp : Nat) (form : Str) (kind : Nat) : C (List Str) :=
  if qcValue ls kind cp = ['N'] then .ok [c!"UNICODE_" ++ (form ++ c!"_DISALLOWED")]
  else if qcValue ls kind cp = ['M'] then .ok [c!"UNICODE_" ++ (form ++ c!"_MAYBE")]
  else if qcValue ls kind cp = ['Y'] then .ok []
  else .error .abort

/-- allowed_in_normal_form.py:43-52: the names of the flags of one code point. -/
def flagNames (ls : List QcLine) (cp : Nat) : C (List Str) := do
  let a ← flagName ls cp c!"NFC" 0
  let b ← flagName ls cp c!"NFD" 1
  let c ← flagName ls cp c!"NFKC" 2
  let d ← flagName ls cp c!"NFKD" 3
  .ok (a ++ (b ++ (c ++ d)))

/-- `" | ".join(…)` (allowed_in_normal_form.py:55) -/
def joinBar : List Str → Str
  | [] => []
  | [x] => x
  | x :: xs => x ++ (c!" | " ++ joinBar xs)

/-- allowed_in_normal_form.py:37-59: the text for the names of the flags of each code point. -/
def qcOut (rows : List (Nat × List Str)) : Str :=
  c!"#include \"charstr.h\"\n\nint charstr_allowed_unicode_normal_forms(int codepoint)\n{\n    switch (codepoint) {\n" ++
  ((rows.filter fun r => decide (r.2 ≠ [])).flatMap (fun r => caseLine r.1 (joinBar r.2)) ++ c!"        default: return 0;\n    }\n}\n")

/-- allowed_in_normal_form.py:7-59 `main`, for a table of `n` code points (0x110000 there): from the data file to the emitted file. -/
def qcFile (n : Nat) (text : Str) : C Str := do
  let ls ← (lines text).mapM (parseQc n)
  let names ← (List.range n).mapM fun cp => flagNames (ls.filterMap id) cp
  .ok (qcOut ((List.range n).zip names))

/-- `d[k] = v` for a dictionary, its entries in the order of their insertion. -/
def put {α : Type} (k : Nat) (v : α) : List (Nat × α) → List (Nat × α)
  | [] => [(k, v)]
  | (j, w) :: d => if j = k then (k, v) :: d else (j, w) :: put k v d

/-- `d[k]` -/
def get {α : Type} (k : Nat) : List (Nat × α) → Option α
  | [] => none
  | (j, w) :: d => if j = k then some w else get k d

/-- recomposition.py:26-29: the dictionary `recompositions` for the pairs and their code points. -/
def recompositions (ps : List ((Nat × Nat) × Nat)) : List (Nat × List (Nat × Nat)) :=
  ps.foldl (fun R p => put p.1.2 (put p.1.1 p.2 ((get p.1.2 R).getD [])) R) []

/-- `sorted(d.items())`, `sorted(d)`; the keys differ. -/
def sorted {α : Type} (d : List (Nat × α)) : List (Nat × α) := d.mergeSort fun a b => decide (a.1 ≤ b.1)

/-- recomposition.py:43-45, 57-59: one label. -/
def caseLines (n : Nat) (result : Str) : Str := c!"        case " ++ (fmt 10 n ++ (c!":\n            return " ++ (result ++ c!";\n")))

/-- recomposition.py:46-50, 60-64: the end of a function. -/
def recompTail : Str := c!"        default:\n            return -1;\n    }\n}\n"

/-- recomposition.py:37-50: the function for the second code points of a pair. -/
def recompFunc (cc : Nat) (d : List (Nat × Nat)) : Str :=
  c!"\nstatic int recompose_" ++ (fmt 10 cc ++ (c!"(int starter)\n{\n    switch (starter) {\n" ++
  ((sorted d).flatMap (fun s => caseLines s.1 (fmt 10 s.2)) ++ recompTail)))

/-- recomposition.py:30-64: the text for the dictionary. -/
def recompOut (R : List (Nat × List (Nat × Nat))) : Str :=
  c!"#include \"charstr.h\"\n\n" ++ ((sorted R).flatMap (fun r => recompFunc r.1 r.2) ++
  (c!"\nint _charstr_unicode_primary_composite(int starter, int cc)\n{\n    switch (cc) {\n" ++
  ((sorted R).flatMap (fun r => caseLines r.1 (c!"recompose_" ++ (fmt 10 r.1 ++ c!"(starter)"))) ++ recompTail)))

/-- recomposition.py:5-64: from the data files to the emitted file. -/
def recompFile (text exclusionsText : Str) : C Str := do
  let ex ← (lines exclusionsText).mapM parseExclusion
  let recs ← (lines text).mapM parseDecomp
  let ps ← pairsOf (ex.filterMap id) (decompositions recs)
  .ok (recompOut (recompositions ps))

/-- categorize.py:53 `indentation * "    "` -/
def indent (i : Nat) : Str := List.replicate (4 * i) ' '

/-- categorize.py:59, 64, 75, 80-81: one `return`. -/
def retText (lo : Option Nat) (cat : Str) : Str :=
  match lo with
  | none => c!"return UNICODE_CATEGORY_" ++ (cat ++ c!";\n")
  | some s => c!"return codepoint >= " ++ (fmt 10 s ++ (c!" ? UNICODE_CATEGORY_" ++ (cat ++ c!" : UNICODE_CATEGORY_Cn;\n")))

/-- categorize.py:55-84: the text of the statements. -/
def codeText (i : Nat) : Code Str → Str
  | .fall => []
  | .test bound lo cat rest =>
    indent i ++ (c!"if (codepoint < " ++ (fmt 10 bound ++ (c!")\n" ++ (indent i ++ (c!"    " ++ (retText lo cat ++ codeText i rest))))))
  | .block bound body lo cat rest =>
    indent i ++ (c!"if (codepoint < " ++ (fmt 10 bound ++ (c!") {\n" ++ (codeText (i + 1) body ++
      (indent i ++ (c!"    " ++ (retText lo cat ++ (indent i ++ (c!"}\n" ++ codeText i rest)))))))))

/-- categorize.py:39-48: the text for the statements. -/
def categoryOut (code : Code Str) : Str :=
  c!"#include \"charstr.h\"\n\ncharstr_unicode_category_t charstr_unicode_category(int codepoint)\n{\n" ++
  (codeText 1 code ++ c!"\n    return UNICODE_CATEGORY_Cn;\n}\n")

/-- categorize.py:7-48: from the data file to the emitted file. -/
def categoryFile (text : Str) : C Str := do
  let code ← categorizeText 0x110000 text
  .ok (categoryOut code)

end Verif.Emit
