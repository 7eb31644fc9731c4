import Verif.Base.Chars

/-! src/base64.c:8-36, line by line. Written by tools/gen_source.py. -/

set_option autoImplicit false

namespace Verif.Source

/-- src/base64.c:8-36. -/
def base64Tables0 : List (List Char) := [
  c!"size_t base64_encoding_size(size_t binary_size)",
  c!"{",
  c!"    size_t encoding_size = (binary_size + 2) / 3 * 4;",
  c!"    if (encoding_size < binary_size)",
  c!"        return -1;",
  c!"    return encoding_size;",
  c!"}",
  c!"",
  c!"const char base64_bitfield_encoding[64] =",
  c!"    \"ABCDEFGHIJKLMNOPQRSTUVWXYZabcdefghijklmnopqrstuvwxyz0123456789+/\";",
  c!"",
  c!"const int8_t base64_bitfield_decoding[256] = {",
  c!"    -4, -1, -1, -1, -1, -1, -1, -1, -1, -2, -2, -1, -2, -2, -1, -1,",
  c!"    -1, -1, -1, -1, -1, -1, -1, -1, -1, -1, -1, -1, -1, -1, -1, -1,",
  c!"    -2, -1, -1, -1, -1, -1, -1, -1, -1, -1, -1, 62, -1, -1, -1, 63,",
  c!"    52, 53, 54, 55, 56, 57, 58, 59, 60, 61, -1, -1, -1, -3, -1, -1,",
  c!"    -1,  0,  1,  2,  3,  4,  5,  6,  7,  8,  9, 10, 11, 12, 13, 14,",
  c!"    15, 16, 17, 18, 19, 20, 21, 22, 23, 24, 25, -1, -1, -1, -1, -1,",
  c!"    -1, 26, 27, 28, 29, 30, 31, 32, 33, 34, 35, 36, 37, 38, 39, 40,",
  c!"    41, 42, 43, 44, 45, 46, 47, 48, 49, 50, 51, -1, -1, -1, -1, -1",
  c!"    -1, -1, -1, -1, -1, -1, -1, -1, -1, -1, -1, -1, -1, -1, -1, -1,",
  c!"    -1, -1, -1, -1, -1, -1, -1, -1, -1, -1, -1, -1, -1, -1, -1, -1,",
  c!"    -1, -1, -1, -1, -1, -1, -1, -1, -1, -1, -1, -1, -1, -1, -1, -1,",
  c!"    -1, -1, -1, -1, -1, -1, -1, -1, -1, -1, -1, -1, -1, -1, -1, -1,",
  c!"    -1, -1, -1, -1, -1, -1, -1, -1, -1, -1, -1, -1, -1, -1, -1, -1,",
  c!"    -1, -1, -1, -1, -1, -1, -1, -1, -1, -1, -1, -1, -1, -1, -1, -1,",
  c!"    -1, -1, -1, -1, -1, -1, -1, -1, -1, -1, -1, -1, -1, -1, -1, -1,",
  c!"    -1, -1, -1, -1, -1, -1, -1, -1, -1, -1, -1, -1, -1, -1, -1, -1,",
  c!"};"]

/-- src/base64.c:8-36. -/
def base64Tables : List (List Char) := base64Tables0

end Verif.Source
