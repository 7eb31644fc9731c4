import Mathlib.Data.List.Forall2
import Verif.Spec.Charstr
import Verif.Spec.Utf8
import Verif.Spec.Unicode

/-!
The format of `IdnaMappingTable.txt` (Unicode Technical Standard #46, section 5): a line has up to four fields separated by `;`: a code
point or a range of code points in hexadecimal, the status, the mapping and the status in IDNA2008. What follows a `#` is a comment.
-/

set_option autoImplicit false

namespace Verif.Spec.IdnaTable
open Verif.Spec.Charstr Verif.Spec.Utf8

/-- White space: space, tab and line feed. -/
def blank (c : UInt8) : Bool := c == 32 || c == 9 || c == 10

/-- `s` is a number in hexadecimal with the value `v`. -/
inductive Hex : List UInt8 → Nat → Prop
  | one (c : UInt8) (d : Nat) (h : hexValue c = some d) : Hex [c] d
  | more (s : List UInt8) (v : Nat) (c : UInt8) (d : Nat) (hs : Hex s v) (h : hexValue c = some d) : Hex (s ++ [c]) (16 * v + d)

/-- What a line says: the code points from `lo` to `hi` have the status and, if there is a third field, the mapping. -/
structure Line where
  lo : Nat
  hi : Nat
  status : List UInt8
  mapping : Option (List Nat)

/-- The first field. -/
def Range (s : List UInt8) (lo hi : Nat) : Prop :=
  ∃ r, Stripped blank s r ∧ (Hex r lo ∧ hi = lo ∨ ∃ a b, r = a ++ [46, 46] ++ b ∧ Hex a lo ∧ Hex b hi)

/-- The third field. -/
def Mapping (s : List UInt8) (m : List Nat) : Prop := ∃ as, Atoms blank s as ∧ List.Forall₂ Hex as m

/-- A line that says something. -/
def Says (line : List UInt8) (l : Line) : Prop :=
  ∃ body comment range status fields, line = body ++ comment ∧ (∀ c ∈ comment.head?, c = 35) ∧ 35 ∉ body ∧ 0 ∉ line ∧
    body = List.intercalate [59] (range :: status :: fields) ∧ (∀ f ∈ range :: status :: fields, 59 ∉ f) ∧ fields.length ≤ 2 ∧
    Range range l.lo l.hi ∧ Stripped blank status l.status ∧ (∀ c ∈ l.status, 32 < c) ∧
    (fields = [] ∧ l.mapping = none ∨ ∃ f fs m, fields = f :: fs ∧ l.mapping = some m ∧ Mapping f m)

/-- A line without fields: a comment or an empty line. -/
def Silent (line : List UInt8) : Prop :=
  ∃ body comment, line = body ++ comment ∧ (∀ c ∈ comment.head?, c = 35) ∧ 35 ∉ body ∧ 0 ∉ line ∧ 59 ∉ body

/-- The lines of a file that say something, in order. -/
inductive File : List (List UInt8) → List Line → Prop
  | nil : File [] []
  | silent (line : List UInt8) (lines : List (List UInt8)) (ls : List Line) (h : Silent line) (hr : File lines ls) : File (line :: lines) ls
  | line (line : List UInt8) (lines : List (List UInt8)) (l : Line) (ls : List Line) (h : Says line l) (hr : File lines ls) :
    File (line :: lines) (l :: ls)

/-- The line is about code points, and its mapping has at most 99 bytes in UTF-8 and no NUL. -/
def Line.Ok (l : Line) : Prop :=
  l.lo < 0x110000 ∧ l.hi < 0x110000 ∧ (∀ m ∈ l.mapping, (∀ c ∈ m, IsScalar c ∧ c ≠ 0) ∧ (Unicode.encs m).length ≤ 99)

/-- The line is about `cp`. -/
def Line.About (l : Line) (cp : Nat) : Prop := l.lo ≤ cp ∧ cp ≤ l.hi

instance (l : Line) (cp : Nat) : Decidable (l.About cp) := inferInstanceAs (Decidable (_ ∧ _))

end Verif.Spec.IdnaTable
