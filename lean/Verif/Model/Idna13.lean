import Verif.Data.Idna
import Verif.Model.IdnaRead
import Verif.Model.Puny
import Verif.Spec.Unicode

/-!
What `gen_idna_table` emits for `/repo/idna/IdnaMappingTable.txt`, and `charstr_puny.c` with it. `main13` in Proofs/Idna13.lean shows that
this is the output of the program, whatever the layout of the file.
-/

set_option autoImplicit false

namespace Verif.IdnaGen
open Verif.Unidata Verif.Puny

/-- The words for the statuses in the file (compare gen_idna_table.c:182-188). -/
def _root_.Verif.Unidata.Status.name : Status → String
  | .valid => "valid"
  | .mapped => "mapped"
  | .ignored => "ignored"
  | .deviation => "deviation"
  | .disallowed => "disallowed"
  | .std3Valid => "disallowed_STD3_valid"
  | .std3Mapped => "disallowed_STD3_mapped"

/-- `table[cp].status` (gen_idna_table.c:155) -/
def status13 (cp : Nat) : String :=
  match idnaTable.lookup cp with
  | some (s, _) => s.name
  | none => ""

/-- `table[cp].mapping` (gen_idna_table.c:156-157), in UTF-8 -/
def mapping13 (cp : Nat) : List UInt8 :=
  match idnaTable.lookup cp with
  | some (_, m) => Spec.Unicode.encs m
  | none => []

/-- What the program writes (gen_idna_table.c:181-189). -/
def emitted13 : C Emitted := do
  let tables ← generate 0x110000 status13
  pure { tables, code := generateMappings 0x110000 mapping13 }

/-- The functions of the emitted file as they are used in charstr_puny.c. They are defined for every code point (`emitted13_spec`), so a
call that is not is given the value false here. The category of a code point comes from another file. -/
def Emitted.idna (e : Emitted) (mc : Nat → Bool) : Idna where
  valid c := match runSet e.tables.valid c with
    | .ok b => b
    | .error _ => false
  deviation c := runTest e.tables.deviation c
  ignored c := runTest e.tables.ignored c
  mapped c := match runSet e.tables.mapped c with
    | .ok b => b
    | .error _ => false
  mapping c := match (lookup e.code c).run with
    | some (.ok r) => r
    | _ => none
  mc := mc

end Verif.IdnaGen
