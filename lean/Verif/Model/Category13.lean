import Verif.Data.Category

/-!
`categorize.py` run on `/repo/unicode/UnicodeData.txt`.
-/

set_option autoImplicit false

namespace Verif.Categorize
open Verif.Unidata

/-- The lines that an entry of `categoryTable` stands for. -/
def expand (e : Nat × Nat × (Kind × Cat)) : List (Rec Cat) := (List.range' e.1 (e.2.1 + 1 - e.1)).map fun cp => ⟨cp, e.2.2.1, e.2.2.2⟩

/-- The lines of UnicodeData.txt. -/
def lines13 : List (Rec Cat) := categoryTable.toList.flatMap expand

/-- The emitted code (categorize.py:7-48). -/
def code13 : C (Code Cat) := main 0x110000 lines13

end Verif.Categorize
