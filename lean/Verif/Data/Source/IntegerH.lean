import Verif.Base.Chars

/-! include/integer.h:22-23, 29-32, 38-41, 47-50, 56-59, line by line. Written by tools/gen_source.py. -/

set_option autoImplicit false

namespace Verif.Source

/-- include/integer.h:22-23. -/
def integerHeader0 : List (List Char) := [
  c!"typedef struct integer integer_t;",
  c!"typedef struct unsigned_ unsigned_t;"]

/-- include/integer.h:29-32. -/
def integerHeader1 : List (List Char) := [
  c!"static inline integer_t *as_integer(intptr_t value)",
  c!"{",
  c!"    return (integer_t *) value;",
  c!"}"]

/-- include/integer.h:38-41. -/
def integerHeader2 : List (List Char) := [
  c!"static inline unsigned_t *as_unsigned(uintptr_t value)",
  c!"{",
  c!"    return (unsigned_t *) value;",
  c!"}"]

/-- include/integer.h:47-50. -/
def integerHeader3 : List (List Char) := [
  c!"static inline intptr_t as_intptr(const integer_t *integer)",
  c!"{",
  c!"    return (intptr_t) integer;",
  c!"}"]

/-- include/integer.h:56-59. -/
def integerHeader4 : List (List Char) := [
  c!"static inline uintptr_t as_uintptr(const unsigned_t *unsigned_)",
  c!"{",
  c!"    return (uintptr_t) unsigned_;",
  c!"}"]

/-- include/integer.h:22-23, 29-32, 38-41, 47-50, 56-59. -/
def integerHeader : List (List Char) := integerHeader0 ++ integerHeader1 ++ integerHeader2 ++ integerHeader3 ++ integerHeader4

end Verif.Source
