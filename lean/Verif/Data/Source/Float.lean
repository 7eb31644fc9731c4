import Verif.Base.Chars

/-! src/float.c:1-74, line by line. Written by tools/gen_source.py. -/

set_option autoImplicit false

namespace Verif.Source

/-- src/float.c:1-40. -/
def float0 : List (List Char) := [
  c!"#include <limits.h>",
  c!"#include <stdbool.h>",
  c!"#include <stdint.h>",
  c!"#include <sys/types.h>",
  c!"",
  c!"bool binary64_to_integer(uint64_t value, long long *n)",
  c!"{",
  c!"    if (!(value << 1)) {",
  c!"        *n = 0;",
  c!"        return true;",
  c!"    }",
  c!"",
  c!"    if (value == 0xc3e0000000000000) {",
  c!"        *n = LLONG_MIN;",
  c!"        return true;",
  c!"    }",
  c!"",
  c!"    size_t bits = 8 * sizeof *n;",
  c!"    int exp = (int)(value >> 52 & 0x7ff) - 1023;",
  c!"    if (exp < 0 || exp >= bits - 1)",
  c!"        return false;",
  c!"",
  c!"    bool negative = value >> 63;",
  c!"    uint64_t mask = ~0ULL >> 12;",
  c!"    uint64_t significand = (value & mask) | 1ULL << 52;",
  c!"",
  c!"    if (exp >= 52) {",
  c!"        *n = significand << (exp - 52);",
  c!"        if (negative)",
  c!"            *n = -*n;",
  c!"        return true;",
  c!"    }",
  c!"",
  c!"    if ((value & (mask >> exp)) == 0) {",
  c!"        *n = significand >> (52 - exp);",
  c!"        if (negative)",
  c!"            *n = -*n;",
  c!"        return true;",
  c!"    }",
  c!""]

/-- src/float.c:41-74. -/
def float1 : List (List Char) := [
  c!"    return false;",
  c!"}",
  c!"",
  c!"bool binary64_to_unsigned(uint64_t value, unsigned long long *n)",
  c!"{",
  c!"    if (!(value << 1)) {",
  c!"        *n = 0;",
  c!"        return true;",
  c!"    }",
  c!"",
  c!"    bool negative = value >> 63;",
  c!"    if (negative)",
  c!"        return false;",
  c!"",
  c!"    size_t bits = 8 * sizeof *n;",
  c!"    int exp = (int)(value >> 52 & 0x7ff) - 1023;",
  c!"    if (exp < 0 || exp >= bits)",
  c!"        return false;",
  c!"",
  c!"    uint64_t mask = ~0ULL >> 12;",
  c!"    uint64_t significand = (value & mask) | 1ULL << 52;",
  c!"",
  c!"    if (exp >= 52) {",
  c!"        *n = significand << (exp - 52);",
  c!"        return true;",
  c!"    }",
  c!"",
  c!"    if ((value & (mask >> exp)) == 0) {",
  c!"        *n = significand >> (52 - exp);",
  c!"        return true;",
  c!"    }",
  c!"",
  c!"    return false;",
  c!"}"]

/-- src/float.c:1-74. -/
def float : List (List Char) := float0 ++ float1

end Verif.Source
