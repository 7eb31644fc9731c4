import Verif.Model.Emit
import Verif.Model.IdnaRead

/-!
The text that `/repo/src/gen_idna_table.c` writes, character by character. `printf` writes ASCII only.
-/

set_option autoImplicit false

namespace Verif.Emit
open Verif.IdnaGen
open Verif.Py (Str)

/-- `%d` -/
def fmtInt : Int → Str
  | .ofNat n => fmt 10 n
  | .negSucc n => '-' :: fmt 10 (n + 1)

/-- `%016llx` -/
def hex16 (n : Nat) : Str := List.replicate (16 - (fmt 16 n).length) '0' ++ fmt 16 n

/-- gen_idna_table.c:29-30: one line of `generate_test`. -/
def testLine (c : Nat × Nat) : Str :=
  c!"    if (codepoint < " ++ (fmt 10 c.1 ++ (c!") return codepoint >= " ++ (fmt 10 c.2 ++ c!";\n")))

/-- gen_idna_table.c:19-38 `generate_test`: the text for the lines. -/
def testOut (status : Str) (cs : List (Nat × Nat)) : Str :=
  c!"\nbool charstr_idna_status_is_" ++ (status ++ (c!"(int codepoint)\n{\n" ++ (cs.flatMap testLine ++ c!"    return false;\n}\n")))

/-- gen_idna_table.c:54-61: the elements from index `i` on. -/
def wordsOut : Nat → List UInt64 → Str
  | _, [] => []
  | i, [w] => (if i % 4 = 0 then c!"\n    " else []) ++ (c!"0x" ++ (hex16 w.toNat ++ c!" };\n"))
  | i, w :: ws => (if i % 4 = 0 then c!"\n    " else []) ++ (c!"0x" ++ (hex16 w.toNat ++ (c!", " ++ wordsOut (i + 1) ws)))

/-- gen_idna_table.c:40-72 `generate_set`: the text for the array and `max_on`. -/
def setOut (status : Str) (set : List UInt64 × Int) : Str :=
  c!"\nstatic const uint64_t set_" ++ (status ++ (c!"[" ++ (fmt 10 set.1.length ++ (c!"] = {" ++ (wordsOut 0 set.1 ++
  (c!"\nbool charstr_idna_status_is_" ++ (status ++ (c!"(int codepoint)\n{\n    if (codepoint > " ++ (fmtInt set.2 ++
  (c!")\n         return false;\n    return (set_" ++ (status ++ c!"[codepoint / 64] & (uint64_t) 1 << codepoint % 64) != 0;\n}\n")))))))))))

/-- gen_idna_table.c:91-94: one line of `generate_mappings`. -/
def mapLine (e : Nat × List UInt8) : Str :=
  c!"    { " ++ (fmt 10 e.1 ++ (c!", \"" ++ (e.2.flatMap (fun b => c!"\\" ++ fmt 8 b.toNat) ++ c!"\" },\n")))

/-- gen_idna_table.c:74-114 `generate_mappings`: the text for the array and the constants. -/
def mapOut (m : MapCode) : Str :=
  c!"\nstatic struct {\n    int from;\n    const char *to;\n} const idna_mappings[" ++ (fmt 10 m.array.length ++ (c!"] = {\n" ++ (m.array.flatMap mapLine ++
  (c!"};\n\nconst char *charstr_idna_mapping(int codepoint)\n{\n    if (codepoint < " ++ (fmtInt m.min ++ (c!" || codepoint > " ++ (fmtInt m.max ++
  (c!")\n        return NULL;\n    int low = 0, high = " ++ (fmtInt m.high ++
  c!";\n    while (low < high) {\n        int middle = (4 * low + high) / 5;\n        int from = idna_mappings[middle].from;\n        if (from < codepoint)\n            low = middle + 1;\n        else high = middle;\n    }\n    if (idna_mappings[high].from != codepoint)\n        return NULL;\n    return idna_mappings[high].to;\n}\n")))))))))

/-- gen_idna_table.c:178-189: the text. -/
def idnaOut (t : Tables) (m : MapCode) : Str :=
  c!"#include <stddef.h>\n#include <stdint.h>\n#include <stdbool.h>\n#include \"fsalloc.h\"\n" ++ (testOut c!"deviation" t.deviation ++
  (testOut c!"disallowed" t.disallowed ++ (testOut c!"disallowed_STD3_valid" t.std3Valid ++ (testOut c!"disallowed_STD3_mapped" t.std3Mapped ++
  (testOut c!"ignored" t.ignored ++ (setOut c!"mapped" t.mapped ++ (setOut c!"valid" t.valid ++ mapOut m)))))))

/-- gen_idna_table.c:116-191 `main`: from the lines of the data file to the emitted file. -/
def idnaFile (buffer : Nat → List UInt8) (lines : List (List UInt8)) : C Str := do
  let out ← IdnaGen.main buffer lines
  .ok (idnaOut out.tables out.code)

end Verif.Emit
