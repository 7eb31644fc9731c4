import Verif.Model.Unicode

/-!
Model of the generators `/repo/src/decomposition.py`, `/repo/src/recomposition.py`, `/repo/src/canonical_combining_classes.py` and
`/repo/src/allowed_in_normal_form.py`: the functions they write, given the lines of the data files.

The splitting of the lines into fields is in `Model/PyGen.lean`. A generated `switch` with one `case` per key is a lookup; a repeated key would
not compile.
-/

namespace Verif.UniGen

/-- The fields of a line of UnicodeData.txt that are used: code point, canonical combining class (field 3), and the decomposition (field 5)
if it is canonical, that is, if it does not start with `<`. -/
structure Row where
  cp : Nat
  ccc : Nat
  dec : List Nat
  deriving DecidableEq, Repr

/-- decomposition.py:11-39: the generated `_charstr_unicode_decomposition`. -/
def genDecomp (rows : List Row) (cp : Nat) : Option (List Nat) :=
  match rows.find? fun r => r.cp == cp && !r.dec.isEmpty with
  | none => none
  | some r => some r.dec

/-- canonical_combining_classes.py:6-33: the generated `charstr_unicode_canonical_combining_class`. -/
def genCcc (rows : List Row) (cp : Nat) : Nat :=
  match rows.find? fun r => r.cp == cp with
  | none => 0
  | some r => r.ccc

/-- recomposition.py:5-63: the generated `_charstr_unicode_primary_composite`. The last line sets the entry of the dictionary. -/
def genComposite (rows : List Row) (exclusions : List Nat) (s c : Nat) : Option Nat :=
  match (rows.filter fun r => r.dec == [s, c] && !exclusions.contains r.cp).getLast? with
  | none => none
  | some r => some r.cp

/-- The values of the quick check properties. -/
inductive QC where
  | yes | no | maybe
  deriving DecidableEq, Repr

/-- allowed_in_normal_form.py:8-35: what the lines for one property set for a code point; the last one counts. -/
def genQC (lines : List (Nat × Nat × QC)) (cp : Nat) : QC :=
  match (lines.filter fun l => decide (l.1 ≤ cp) && decide (cp ≤ l.2.1)).getLast? with
  | none => .yes
  | some l => l.2.2

/-- allowed_in_normal_form.py:42-54 with charstr.h:176-186. -/
def QC.flags (disallowed maybe : Nat) : QC → Nat
  | .yes => 0
  | .no => disallowed
  | .maybe => maybe

/-- allowed_in_normal_form.py:36-58: the generated `charstr_allowed_unicode_normal_forms`. -/
def genFlags (nfc nfd nfkc nfkd : List (Nat × Nat × QC)) (cp : Nat) : Nat :=
  (genQC nfc cp).flags 0x01 0x02 ||| (genQC nfd cp).flags 0x04 0x08 ||| (genQC nfkc cp).flags 0x10 0x20 ||| (genQC nfkd cp).flags 0x40 0x80

/-- A search tree of disjoint intervals with values. -/
inductive RTree (α : Type) where
  | leaf
  | node (l : RTree α) (lo hi : Nat) (v : α) (r : RTree α)

/-- The entries from left to right. -/
def RTree.toList {α : Type} : RTree α → List (Nat × Nat × α)
  | .leaf => []
  | .node l lo hi v r => l.toList ++ (lo, hi, v) :: r.toList

/-- The entry of a key. -/
def RTree.lookup {α : Type} : RTree α → Nat → Option α
  | .leaf, _ => none
  | .node l lo hi v r, k => if k < lo then l.lookup k else if k ≤ hi then some v else r.lookup k

end Verif.UniGen
