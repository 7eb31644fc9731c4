import Verif.Base.Chars

/-! src/charstr.c:451-508, 543-564, line by line. Written by tools/gen_source.py. -/

set_option autoImplicit false

namespace Verif.Source

/-- src/charstr.c:451-490. -/
def utf80 : List (List Char) := [
  c!"static bool valid_unicode(int codepoint)",
  c!"{",
  c!"    return (codepoint >= 0 && codepoint <= 0xd7ff) ||",
  c!"        (codepoint >= 0xe000 && codepoint <= 0x10ffff);",
  c!"}",
  c!"",
  c!"const char *charstr_decode_utf8_codepoint(const char *s, const char *end,",
  c!"                                          int *codepoint)",
  c!"{",
  c!"    int cp;",
  c!"    if (!s || s == end)",
  c!"        return NULL;",
  c!"    if (!(*s & 0x80))",
  c!"        cp = *s++ & 0x7f;",
  c!"    else if (!(*s & 0x40))",
  c!"        return NULL;",
  c!"    else {",
  c!"        if (!(*s & 0x20))",
  c!"            cp = *s++ & 0x1f;",
  c!"        else {",
  c!"            if (!(*s & 0x10))",
  c!"                cp = *s++ & 0x0f;",
  c!"            else {",
  c!"                if (*s & 0x08)",
  c!"                    return NULL;",
  c!"                cp = *s++ & 0x07;",
  c!"                if (s == end || (*s & 0xc0) != 0x80)",
  c!"                    return NULL;",
  c!"                cp = cp << 6 | *s++ & 0x3f;",
  c!"            }",
  c!"            if (s == end || (*s & 0xc0) != 0x80)",
  c!"                return NULL;",
  c!"            cp = cp << 6 | *s++ & 0x3f;",
  c!"        }",
  c!"        if (s == end || (*s & 0xc0) != 0x80)",
  c!"            return NULL;",
  c!"        cp = cp << 6 | *s++ & 0x3f;",
  c!"        if (!valid_unicode(cp))",
  c!"            return NULL;",
  c!"    }"]

/-- src/charstr.c:491-508. -/
def utf81 : List (List Char) := [
  c!"    if (codepoint)",
  c!"        *codepoint = cp;",
  c!"    return s;",
  c!"}",
  c!"",
  c!"bool charstr_valid_utf8_bounded(const char *s, const char *end)",
  c!"{",
  c!"    while (s && s != end)",
  c!"        s = charstr_decode_utf8_codepoint(s, end, NULL);",
  c!"    return s != NULL;",
  c!"}",
  c!"",
  c!"bool charstr_valid_utf8(const char *s)",
  c!"{",
  c!"    while (s && *s)",
  c!"        s = charstr_decode_utf8_codepoint(s, NULL, NULL);",
  c!"    return s != NULL;",
  c!"}"]

/-- src/charstr.c:543-564. -/
def utf82 : List (List Char) := [
  c!"char *charstr_encode_utf8_codepoint(int codepoint, char *s, const char *end)",
  c!"{",
  c!"    if (!s || s == end)",
  c!"        return NULL;",
  c!"    if (codepoint >= 0x80) {",
  c!"        if (codepoint >= 0x800) {",
  c!"            if (codepoint >= 0x10000) {",
  c!"                *s++ = 0xf0 | codepoint >> 18;",
  c!"                if (s == end)",
  c!"                    return NULL;",
  c!"                *s++ = 0x80 | codepoint >> 12 & 0x3f;",
  c!"            } else *s++ = 0xe0 | codepoint >> 12;",
  c!"            if (s == end)",
  c!"                return NULL;",
  c!"            *s++ = 0x80 | codepoint >> 6 & 0x3f;",
  c!"        } else *s++ = 0xc0 | codepoint >> 6;",
  c!"        if (s == end)",
  c!"            return NULL;",
  c!"        *s++ = 0x80 | codepoint & 0x3f;",
  c!"    } else *s++ = codepoint;",
  c!"    return s;",
  c!"}"]

/-- src/charstr.c:451-508, 543-564. -/
def utf8 : List (List Char) := utf80 ++ utf81 ++ utf82

end Verif.Source
