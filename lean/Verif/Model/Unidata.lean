import Verif.Data.Unidata

/-! The generated functions for the data files in `/repo/unicode` (`/repo/src/SConscript:58-98`). -/

namespace Verif.Unidata
open Verif.UniGen Verif.Unicode

/-- The lines of UnicodeData.txt with a canonical combining class other than zero or a canonical decomposition. The others make no `case`, or
one returning the default. -/
def rows : List Row := unicodeData.toList.map fun x => ⟨x.1, x.2.2.1, x.2.2.2⟩

/-- The functions generated from the files. -/
def unicode13 : Ucd where
  decomp := genDecomp rows
  ccc := genCcc rows
  flags := genFlags nfcQC.toList nfdQC.toList nfkcQC.toList nfkdQC.toList
  composite := genComposite rows exclusions

end Verif.Unidata
