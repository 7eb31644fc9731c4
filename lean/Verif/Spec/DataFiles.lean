import Mathlib.Data.List.Forall2

/-!
The formats of the data files of Unicode (Unicode Standard Annex #44, sections 4.2 and 5.1 and table 9), and what their lines say.
-/

set_option autoImplicit false

namespace Verif.Spec.DataFiles

abbrev Str := List Char

/-- The value of a digit. -/
def digitValue : Char → Option Nat
  | '0' => some 0 | '1' => some 1 | '2' => some 2 | '3' => some 3 | '4' => some 4 | '5' => some 5 | '6' => some 6 | '7' => some 7
  | '8' => some 8 | '9' => some 9 | 'A' => some 10 | 'B' => some 11 | 'C' => some 12 | 'D' => some 13 | 'E' => some 14 | 'F' => some 15
  | 'a' => some 10 | 'b' => some 11 | 'c' => some 12 | 'd' => some 13 | 'e' => some 14 | 'f' => some 15
  | _ => none

/-- `s` is a number with the value `v` in a base up to 16. -/
inductive Number (base : Nat) : Str → Nat → Prop
  | one (c : Char) (d : Nat) (h : digitValue c = some d) (hd : d < base) : Number base [c] d
  | more (s : Str) (v : Nat) (c : Char) (d : Nat) (hs : Number base s v) (h : digitValue c = some d) (hd : d < base) :
    Number base (s ++ [c]) (base * v + d)

/-- A file consists of lines; each ends with a line feed. -/
def Lines (text : Str) (ls : List Str) : Prop := (∀ l ∈ ls, '\n' ∉ l) ∧ text = ls.flatMap fun l => l ++ ['\n']

/-- Fields are separated by `;`. -/
def Fields (line : Str) (fs : List Str) : Prop := fs ≠ [] ∧ (∀ f ∈ fs, ';' ∉ f) ∧ line = List.intercalate [';'] fs

/-! ## UnicodeData.txt -/

/-- What a line of UnicodeData.txt says. -/
structure Entry where
  /-- Field 0. -/
  cp : Nat
  /-- Field 1. -/
  name : Str
  /-- Field 2: the general category. -/
  cat : Str
  /-- Field 3: the canonical combining class. -/
  ccc : Nat
  /-- Field 5, if it is a canonical mapping. -/
  dec : Option (List Nat)
  /-- Field 12. -/
  upper : Option Nat
  /-- Field 13. -/
  lower : Option Nat

/-- A field with a code point or nothing. -/
def Optional (s : Str) (v : Option Nat) : Prop := s = [] ∧ v = none ∨ ∃ n, v = some n ∧ Number 16 s n

/-- Field 5: nothing, a compatibility mapping, which starts with a tag in `<` and `>`, or code points separated by spaces. -/
def Mapping (s : Str) (m : Option (List Nat)) : Prop :=
  s = [] ∧ m = none ∨ (∃ t, s = '<' :: t ∧ m = none) ∨
  ∃ ws ns, ws ≠ [] ∧ List.Forall₂ (Number 16) ws ns ∧ s = List.intercalate [' '] ws ∧ m = some ns

/-- A line of 15 fields. -/
def Says (line : Str) (e : Entry) : Prop :=
  ∃ f0 f3 f4 f5 f6 f7 f8 f9 f10 f11 f12 f13 f14 : Str,
    Fields line [f0, e.name, e.cat, f3, f4, f5, f6, f7, f8, f9, f10, f11, f12, f13, f14] ∧
    Number 16 f0 e.cp ∧ Number 10 f3 e.ccc ∧ Mapping f5 e.dec ∧ Optional f12 e.upper ∧ Optional f13 e.lower

/-- The text of UnicodeData.txt and what it says. -/
def UnicodeData (text : Str) (es : List Entry) : Prop := ∃ ls, Lines text ls ∧ List.Forall₂ Says ls es

/-- The line opens a range of code points. -/
def Entry.First (e : Entry) : Prop := [',', ' ', 'F', 'i', 'r', 's', 't', '>'] <:+ e.name

/-- The line closes a range of code points. -/
def Entry.Last (e : Entry) : Prop := [',', ' ', 'L', 'a', 's', 't', '>'] <:+ e.name

/-- The lines are in the order of their code points. -/
def Ascending (es : List Entry) : Prop := es.Pairwise fun a b => a.cp < b.cp

/-- Every line that opens a range is followed by the one that closes it, of the same category; no other line closes one. -/
inductive Ranged : List Entry → Prop
  | nil : Ranged []
  | single (e : Entry) (es : List Entry) (h1 : ¬ e.First) (h2 : ¬ e.Last) (h : Ranged es) : Ranged (e :: es)
  | range (a b : Entry) (es : List Entry) (h1 : a.First) (h2 : b.Last) (hc : b.cat = a.cat) (h : Ranged es) : Ranged (a :: b :: es)

/-- The file gives the code point the category `c`, by its own line or by a range. -/
def HasCategory (es : List Entry) (cp : Int) (c : Str) : Prop :=
  (∃ e ∈ es, (e.cp : Int) = cp ∧ e.cat = c) ∨
  ∃ a b, [a, b] <:+: es ∧ a.First ∧ b.Last ∧ (a.cp : Int) < cp ∧ cp < b.cp ∧ b.cat = c

/-! ## CompositionExclusions.txt -/

/-- Space and tab. -/
def Blank (c : Char) : Prop := c = ' ' ∨ c = '\t'

/-- A line with a code point; what follows is a comment. -/
def Excludes (line : Str) (n : Nat) : Prop :=
  ∃ pre w post, line = pre ++ w ++ post ∧ (∀ c ∈ pre, Blank c) ∧ Number 16 w n ∧ ∀ c ∈ post.head?, Blank c

/-- A line without: empty or a comment. -/
def Quiet (line : Str) : Prop := ∃ pre post, line = pre ++ post ∧ (∀ c ∈ pre, Blank c) ∧ ∀ c ∈ post.head?, c = '#'

/-- The text of CompositionExclusions.txt and the code points in it. -/
inductive Exclusions : List Str → List Nat → Prop
  | nil : Exclusions [] []
  | quiet (l : Str) (ls : List Str) (ns : List Nat) (h : Quiet l) (hr : Exclusions ls ns) : Exclusions (l :: ls) ns
  | line (l : Str) (ls : List Str) (n : Nat) (ns : List Nat) (h : Excludes l n) (hr : Exclusions ls ns) : Exclusions (l :: ls) (n :: ns)

/-! ## DerivedNormalizationProps.txt -/

/-- The quick check properties. -/
inductive Prop4
  | nfc | nfd | nfkc | nfkd
  deriving DecidableEq, Repr

/-- Their names in the file. -/
def Prop4.name : Prop4 → Str
  | .nfc => ['N', 'F', 'C', '_', 'Q', 'C']
  | .nfd => ['N', 'F', 'D', '_', 'Q', 'C']
  | .nfkc => ['N', 'F', 'K', 'C', '_', 'Q', 'C']
  | .nfkd => ['N', 'F', 'K', 'D', '_', 'Q', 'C']

/-- Their values. -/
inductive Value
  | yes | no | maybe
  deriving DecidableEq, Repr

/-- The values in the file. -/
def Value.name : Value → Str
  | .yes => ['Y']
  | .no => ['N']
  | .maybe => ['M']

/-- What a line says: the property has the value for the code points from `lo` to `hi`. -/
structure Quick where
  lo : Nat
  hi : Nat
  prop : Prop4
  value : Value

/-- `s` is `t` with blanks around it. -/
def Padded (s t : Str) : Prop := ∃ pre post, s = pre ++ t ++ post ∧ (∀ c ∈ pre, Blank c) ∧ ∀ c ∈ post, Blank c

/-- A code point or a range. -/
def Range (s : Str) (lo hi : Nat) : Prop :=
  ∃ r, Padded s r ∧ (Number 16 r lo ∧ hi = lo ∨ ∃ a b, r = a ++ ['.', '.'] ++ b ∧ Number 16 a lo ∧ Number 16 b hi)

/-- What follows a `#` is a comment. -/
def Body (line body : Str) : Prop := ∃ comment, line = body ++ comment ∧ '#' ∉ body ∧ ∀ c ∈ comment.head?, c = '#'

/-- A line about a quick check property. -/
def Checks (line : Str) (q : Quick) : Prop :=
  ∃ body r p v, Body line body ∧ Fields body [r, p, v] ∧ Range r q.lo q.hi ∧ Padded p q.prop.name ∧ Padded v q.value.name

/-- A line about something else: nothing at all, or fields of which the second is not the name of a quick check property. -/
def Elsewhere (line : Str) : Prop :=
  ∃ body fs, Body line body ∧ Fields body fs ∧ ∀ p, fs[1]? = some p → ∃ q, Padded p q ∧ (∀ c ∈ q.head?, c.isAlpha) ∧ (∀ c ∈ q.getLast?, c.isAlpha) ∧
    ∀ x : Prop4, q ≠ x.name

/-- The lines about quick check properties. -/
inductive Checking : List Str → List Quick → Prop
  | nil : Checking [] []
  | other (l : Str) (ls : List Str) (qs : List Quick) (h : Elsewhere l) (hr : Checking ls qs) : Checking (l :: ls) qs
  | line (l : Str) (ls : List Str) (q : Quick) (qs : List Quick) (h : Checks l q) (hr : Checking ls qs) : Checking (l :: ls) (q :: qs)

/-- The value of a property: that of the last line about the code point, by default `yes`. -/
def HasValue (qs : List Quick) (p : Prop4) (cp : Nat) (v : Value) : Prop :=
  (∃ before q after, qs = before ++ q :: after ∧ q.prop = p ∧ q.value = v ∧ q.lo ≤ cp ∧ cp ≤ q.hi ∧
    ∀ x ∈ after, ¬ (x.prop = p ∧ x.lo ≤ cp ∧ cp ≤ x.hi)) ∨
  v = .yes ∧ ∀ x ∈ qs, ¬ (x.prop = p ∧ x.lo ≤ cp ∧ cp ≤ x.hi)

/-- The flag for a value of a property (charstr.h:176-186). -/
def flag : Prop4 → Value → Nat
  | _, .yes => 0
  | .nfc, .no => 0x01
  | .nfc, .maybe => 0x02
  | .nfd, .no => 0x04
  | .nfd, .maybe => 0x08
  | .nfkc, .no => 0x10
  | .nfkc, .maybe => 0x20
  | .nfkd, .no => 0x40
  | .nfkd, .maybe => 0x80

end Verif.Spec.DataFiles
