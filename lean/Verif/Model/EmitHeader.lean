import Verif.Spec.CText

/-! The constants that the emitted files take from the headers they include. -/

set_option autoImplicit false

namespace Verif.Emit
open Verif.Spec.CText

/-- charstr.h:135-166: the enumeration of the categories in its order. -/
def categoryNames : List Str :=
  [c!"Cn", c!"Cc", c!"Cf", c!"Co", c!"Cs", c!"Ll", c!"Lm", c!"Lo", c!"Lt", c!"Lu", c!"Mc", c!"Me", c!"Mn", c!"Nd", c!"Nl", c!"No", c!"Pc", c!"Pd", c!"Pe", c!"Pf", c!"Pi", c!"Po", c!"Ps", c!"Sc", c!"Sk", c!"Sm", c!"So", c!"Zl", c!"Zp", c!"Zs"]

/-- charstr.h:176-186: the flags. -/
def flagConstants : List (Str × Nat) :=
  [(c!"UNICODE_NFC_DISALLOWED", 0x01), (c!"UNICODE_NFC_MAYBE", 0x02), (c!"UNICODE_NFD_DISALLOWED", 0x04), (c!"UNICODE_NFD_MAYBE", 0x08),
   (c!"UNICODE_NFKC_DISALLOWED", 0x10), (c!"UNICODE_NFKC_MAYBE", 0x20), (c!"UNICODE_NFKD_DISALLOWED", 0x40), (c!"UNICODE_NFKD_MAYBE", 0x80)]

/-- charstr.h:135-166, 176-186: the constants and their values. -/
def constants : List (Str × Nat) := (categoryNames.zipIdx.map fun c => (c!"UNICODE_CATEGORY_" ++ c.1, c.2)) ++ flagConstants

/-- What charstr.h, stddef.h and stdbool.h define. -/
def header (x : Str) : Option V :=
  if x = c!"NULL" then some .null
  else if x = c!"false" then some (.int 0)
  else match find x constants with
    | none => none
    | some n => some (.int n)

end Verif.Emit
