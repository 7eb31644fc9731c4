import Verif.Spec.Unicode
import Verif.Model.Unidata

/-!
Normalization by the data files of Unicode 13 in `/repo/unicode`, as the standard states it. `rows` are the lines of UnicodeData.txt and
`exclusions` the code points of CompositionExclusions.txt.
-/

namespace Verif.Spec.Unicode
open Verif.Unidata Verif.UniGen

/-- The mapping of a code point: field 5 of its line, if it is a canonical mapping. -/
def Maps (cp : Nat) (l : List Nat) : Prop := l ≠ [] ∧ ∃ k, ⟨cp, k, l⟩ ∈ rows

/-- The combining class of a code point: field 3 of its line, 0 if it has none. -/
def Class (cp k : Nat) : Prop := (∃ l, ⟨cp, k, l⟩ ∈ rows) ∨ k = 0 ∧ ∀ r ∈ rows, r.cp ≠ cp

/-- The value of a quick check property: the one of the range with the code point, by default `yes`. -/
def Quick (lines : List (Nat × Nat × QC)) (cp : Nat) (q : QC) : Prop :=
  (∃ a b, (a, b, q) ∈ lines ∧ a ≤ cp ∧ cp ≤ b) ∨ q = .yes ∧ ∀ l ∈ lines, ¬ (l.1 ≤ cp ∧ cp ≤ l.2.1)

/-- D111 to D114: `p` is the primary composite of `s` and `c`. It maps to them and is not excluded; neither it nor `s` is a non-starter. -/
def Primary (s c p : Nat) : Prop := Maps p [s, c] ∧ p ∉ exclusions ∧ Class s 0 ∧ Class p 0

end Verif.Spec.Unicode
