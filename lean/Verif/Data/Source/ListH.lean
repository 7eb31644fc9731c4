import Verif.Base.Chars

/-! include/list.h:17-17, 22-22, line by line. Written by tools/gen_source.py. -/

set_option autoImplicit false

namespace Verif.Source

/-- include/list.h:17-17. -/
def listHeader0 : List (List Char) := [
  c!"typedef struct list list_t;"]

/-- include/list.h:22-22. -/
def listHeader1 : List (List Char) := [
  c!"typedef struct list_elem list_elem_t;"]

/-- include/list.h:17-17, 22-22. -/
def listHeader : List (List Char) := listHeader0 ++ listHeader1

end Verif.Source
