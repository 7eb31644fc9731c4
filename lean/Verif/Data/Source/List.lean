import Verif.Base.Chars

/-! src/list.c:24-46, 59-67, line by line. Written by tools/gen_source.py. -/

set_option autoImplicit false

namespace Verif.Source

/-- src/list.c:24-46. -/
def listSearch0 : List (List Char) := [
  c!"const void *list_elem_get_value(list_elem_t *element)",
  c!"{",
  c!"    return element->value;",
  c!"}",
  c!"",
  c!"list_elem_t *list_get_first(list_t *list)",
  c!"{",
  c!"    return list->first;",
  c!"}",
  c!"",
  c!"list_elem_t *list_get_last(list_t *list)",
  c!"{",
  c!"    return list->last;",
  c!"}",
  c!"",
  c!"list_elem_t *list_get(list_t *list, const void *value)",
  c!"{",
  c!"    list_elem_t *element;",
  c!"    for (element = list->first; element != NULL; element = element->next)",
  c!"        if (element->value == value)",
  c!"            return element;",
  c!"    return NULL;",
  c!"}"]

/-- src/list.c:59-67. -/
def listSearch1 : List (List Char) := [
  c!"list_elem_t *list_next(list_elem_t *element)",
  c!"{",
  c!"    return element->next;",
  c!"}",
  c!"",
  c!"list_elem_t *list_previous(list_elem_t *element)",
  c!"{",
  c!"    return element->previous;",
  c!"}"]

/-- src/list.c:24-46, 59-67. -/
def listSearch : List (List Char) := listSearch0 ++ listSearch1

end Verif.Source
