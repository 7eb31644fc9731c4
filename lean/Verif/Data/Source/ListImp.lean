import Verif.Base.Chars

/-! include/list_imp.h:1-9, line by line. Written by tools/gen_source.py. -/

set_option autoImplicit false

namespace Verif.Source

/-- include/list_imp.h:1-9. -/
def listMembers0 : List (List Char) := [
  c!"struct list {",
  c!"    list_elem_t *first, *last;",
  c!"    size_t size;",
  c!"};",
  c!"",
  c!"struct list_elem {",
  c!"    const void *value;",
  c!"    list_elem_t *previous, *next;",
  c!"};"]

/-- include/list_imp.h:1-9. -/
def listMembers : List (List Char) := listMembers0

end Verif.Source
