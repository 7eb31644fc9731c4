import Verif.Base.Chars

/-! src/charstr.c:344-376, line by line. Written by tools/gen_source.py. -/

set_option autoImplicit false

namespace Verif.Source

/-- src/charstr.c:344-376. -/
def caseStrings0 : List (List Char) := [
  c!"char *charstr_lcase_str(char *s)",
  c!"{",
  c!"    char *p;",
  c!"    for (p = s; *p; p++)",
  c!"        *p = charstr_lcase_char(*p);",
  c!"    return s;",
  c!"}",
  c!"",
  c!"char *charstr_lcase_substr(char *s, const char *end)",
  c!"{",
  c!"    char *p;",
  c!"    for (p = s; p != end; p++)",
  c!"        *p = charstr_lcase_char(*p);",
  c!"    return s;",
  c!"    ",
  c!"}",
  c!"",
  c!"char *charstr_ucase_str(char *s)",
  c!"{",
  c!"    char *p;",
  c!"    for (p = s; *p; p++)",
  c!"        *p = charstr_ucase_char(*p);",
  c!"    return s;",
  c!"}",
  c!"",
  c!"char *charstr_ucase_substr(char *s, const char *end)",
  c!"{",
  c!"    char *p;",
  c!"    for (p = s; p != end; p++)",
  c!"        *p = charstr_ucase_char(*p);",
  c!"    return s;",
  c!"    ",
  c!"}"]

/-- src/charstr.c:344-376. -/
def caseStrings : List (List Char) := caseStrings0

end Verif.Source
