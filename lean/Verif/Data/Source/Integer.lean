import Verif.Base.Chars

/-! src/integer.c:4-20, line by line. Written by tools/gen_source.py. -/

set_option autoImplicit false

namespace Verif.Source

/-- src/integer.c:4-20. -/
def integerFile0 : List (List Char) := [
  c!"int integer_cmp(const void *a, const void *b)",
  c!"{",
  c!"    if (as_intptr(a) < as_intptr(b))",
  c!"        return -1;",
  c!"    if (as_intptr(a) > as_intptr(b))",
  c!"        return 1;",
  c!"    return 0;",
  c!"}",
  c!"",
  c!"int unsigned_cmp(const void *a, const void *b)",
  c!"{",
  c!"    if (as_intptr(a) < as_uintptr(b))",
  c!"        return -1;",
  c!"    if (as_uintptr(a) > as_uintptr(b))",
  c!"        return 1;",
  c!"    return 0;",
  c!"}"]

/-- src/integer.c:4-20. -/
def integerFile : List (List Char) := integerFile0

end Verif.Source
