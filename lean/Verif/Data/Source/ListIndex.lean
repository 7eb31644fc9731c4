import Verif.Base.Chars

/-! src/list.c:48-57, line by line. Written by tools/gen_source.py. -/

set_option autoImplicit false

namespace Verif.Source

/-- src/list.c:48-57. -/
def listIndex0 : List (List Char) := [
  c!"list_elem_t *list_get_by_index(list_t *list, int idx)",
  c!"{",
  c!"    int i;",
  c!"    list_elem_t *element;",
  c!"    for (element = list->first, i = 0;",
  c!"         element != NULL && i != idx;",
  c!"         element = element->next, i++)",
  c!"        ;",
  c!"    return element;",
  c!"}"]

/-- src/list.c:48-57. -/
def listIndex : List (List Char) := listIndex0

end Verif.Source
