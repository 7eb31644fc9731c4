import Verif.Proofs.Shipped
import Verif.Data.Text.Unicode0
import Verif.Data.Text.Unicode1
import Verif.Data.Text.Unicode2
import Verif.Data.Text.Unicode3
import Verif.Data.Text.Unicode4
import Verif.Data.Text.Unicode5
import Verif.Data.Text.Unicode6
import Verif.Data.Text.Unicode7
import Verif.Data.Text.Unicode8
import Verif.Data.Text.Unicode9
import Verif.Data.Text.Unicode10
import Verif.Data.Text.Unicode11
import Verif.Data.Text.Unicode12
import Verif.Data.Text.Unicode13
import Verif.Data.Text.Unicode14
import Verif.Data.Text.Unicode15

/-!
# C139: the data files of the repository

`Verif/Data/Text` has the bytes of the data files. These theorems say that the files satisfy the hypotheses of the theorems about the scripts
(DataFiles13.lean), so that what the scripts emit for these very bytes is known.
-/

set_option autoImplicit false

namespace Verif.Shipped
open Verif.Unidata Verif.UniGen Verif.PyGen
open Verif.Categorize hiding Entry
open Verif.Spec.DataFiles hiding Str

/-! ## UnicodeData.txt -/

def unicodeChunks : List Chunk :=
  Unicode0.chunks ++ Unicode1.chunks ++ Unicode2.chunks ++ Unicode3.chunks ++ Unicode4.chunks ++ Unicode5.chunks ++ Unicode6.chunks ++ Unicode7.chunks ++ Unicode8.chunks ++ Unicode9.chunks ++ Unicode10.chunks ++ Unicode11.chunks ++ Unicode12.chunks ++ Unicode13.chunks ++ Unicode14.chunks ++ Unicode15.chunks

/-- The bytes of /repo/unicode/UnicodeData.txt. -/
def unicodeDataTxt : List Nat := unicodeChunks.flatMap Chunk.bytes

theorem unicodeChunks_ok : AllOk unicodeChunks := by
  intro c h
  simp only [unicodeChunks, List.mem_append] at h
  rcases h with ((((((((((((((h | h) | h) | h) | h) | h) | h) | h) | h) | h) | h) | h) | h) | h) | h) | h
  · exact Unicode0.ok c h
  · exact Unicode1.ok c h
  · exact Unicode2.ok c h
  · exact Unicode3.ok c h
  · exact Unicode4.ok c h
  · exact Unicode5.ok c h
  · exact Unicode6.ok c h
  · exact Unicode7.ok c h
  · exact Unicode8.ok c h
  · exact Unicode9.ok c h
  · exact Unicode10.ok c h
  · exact Unicode11.ok c h
  · exact Unicode12.ok c h
  · exact Unicode13.ok c h
  · exact Unicode14.ok c h
  · exact Unicode15.ok c h

theorem unicodeChunks_linked : linked unicodeChunks 0 0x110000 = true := by decide +kernel
theorem unicodeChunks_total : total unicodeChunks = 33797 := by decide +kernel

/-- The file has the format of UnicodeData.txt, and its entries are those of the tables. -/
theorem shipped_unicode_data : ∃ es, UnicodeData (chars unicodeDataTxt) es ∧ Unicode13 es :=
  part_unicode13 (unicodeChunks_total ▸ parts unicodeChunks_ok unicodeChunks_linked)

/-- The file is in ASCII. -/
theorem shipped_unicode_ascii : ∀ c ∈ unicodeDataTxt, c < 128 := by
  obtain ⟨_, ls, _, h1, h2, _⟩ := parts unicodeChunks_ok unicodeChunks_linked
  intro c hc
  rw [unicodeDataTxt, h1, List.mem_flatMap] at hc
  obtain ⟨l, hl, hc⟩ := hc
  rcases List.mem_append.1 hc with hc | hc
  · exact (h2 l hl c hc).2
  · simp at hc
    omega

/-- What categorize.py emits for the file. -/
theorem shipped_category {code : Code Cat} (hc : code13 = .ok code) :
    ∃ code', categorizeText 0x110000 (chars unicodeDataTxt) = .ok code' ∧ ∀ cp, category ['C', 'n'] code' cp = catName (category .Cn code cp) := by
  obtain ⟨es, h1, h2⟩ := shipped_unicode_data
  exact datafile13_category h1 h2 hc

/-- What lower_case.py and upper_case.py emit for the file. -/
theorem shipped_case {l u : List (Nat × Nat)} (hl : lowerMain caseLines13 = .ok l) (hu : upperMain caseLines13 = .ok u) :
    ∃ f g, lowerText (chars unicodeDataTxt) = .ok f ∧ upperText (chars unicodeDataTxt) = .ok g ∧ ∀ c, f c = switch l c ∧ g c = switch u c := by
  obtain ⟨es, h1, h2⟩ := shipped_unicode_data
  exact datafile13_case h1 h2 hl hu

/-- The first line of the file. -/
example : (chars Unicode0.c0.bytes).take 39 = "0000;<control>;Cc;0;BN;;;;;N;NULL;;;;\n0".toList := by decide +kernel

end Verif.Shipped
