import Verif.Base.Chars

/-! src/charstr.c:8-324, line by line. Written by tools/gen_source.py. -/

set_option autoImplicit false

namespace Verif.Source

/-- src/charstr.c:8-47. -/
def charstr0 : List (List Char) := [
  c!"static const struct {",
  c!"    char lower, upper;",
  c!"} case_table[256] = {",
  c!"    /* Control Characters */",
  c!"    { 0x00, 0x00 }, { 0x01, 0x01 }, { 0x02, 0x02 }, { 0x03, 0x03 },",
  c!"    { 0x04, 0x04 }, { 0x05, 0x05 }, { 0x06, 0x06 }, { 0x07, 0x07 },",
  c!"    { 0x08, 0x08 }, { 0x09, 0x09 }, { 0x0a, 0x0a }, { 0x0b, 0x0b },",
  c!"    { 0x0c, 0x0c }, { 0x0d, 0x0d }, { 0x0e, 0x0e }, { 0x0f, 0x0f },",
  c!"    { 0x10, 0x10 }, { 0x11, 0x11 }, { 0x12, 0x12 }, { 0x13, 0x13 },",
  c!"    { 0x14, 0x14 }, { 0x15, 0x15 }, { 0x16, 0x16 }, { 0x17, 0x17 },",
  c!"    { 0x18, 0x18 }, { 0x19, 0x19 }, { 0x1a, 0x1a }, { 0x1b, 0x1b },",
  c!"    { 0x1c, 0x1c }, { 0x1d, 0x1d }, { 0x1e, 0x1e }, { 0x1f, 0x1f },",
  c!"    /* Printable */",
  c!"    { 0x20, 0x20 }, { 0x21, 0x21 }, { 0x22, 0x22 }, { 0x23, 0x23 },",
  c!"    { 0x24, 0x24 }, { 0x25, 0x25 }, { 0x26, 0x26 }, { 0x27, 0x27 },",
  c!"    { 0x28, 0x28 }, { 0x29, 0x29 }, { 0x2a, 0x2a }, { 0x2b, 0x2b },",
  c!"    { 0x2c, 0x2c }, { 0x2d, 0x2d }, { 0x2e, 0x2e }, { 0x2f, 0x2f },",
  c!"    /* Digits */",
  c!"    { 0x30, 0x30 }, { 0x31, 0x31 }, { 0x32, 0x32 }, { 0x33, 0x33 },",
  c!"    { 0x34, 0x34 }, { 0x35, 0x35 }, { 0x36, 0x36 }, { 0x37, 0x37 },",
  c!"    { 0x38, 0x38 }, { 0x39, 0x39 }, { 0x3a, 0x3a }, { 0x3b, 0x3b },",
  c!"    { 0x3c, 0x3c }, { 0x3d, 0x3d }, { 0x3e, 0x3e }, { 0x3f, 0x3f },",
  c!"    /* Upper Case */",
  c!"    { 0x40, 0x40 }, { 0x61, 0x41 }, { 0x62, 0x42 }, { 0x63, 0x43 },",
  c!"    { 0x64, 0x44 }, { 0x65, 0x45 }, { 0x66, 0x46 }, { 0x67, 0x47 },",
  c!"    { 0x68, 0x48 }, { 0x69, 0x49 }, { 0x6a, 0x4a }, { 0x6b, 0x4b },",
  c!"    { 0x6c, 0x4c }, { 0x6d, 0x4d }, { 0x6e, 0x4e }, { 0x6f, 0x4f },",
  c!"    { 0x70, 0x50 }, { 0x71, 0x51 }, { 0x72, 0x52 }, { 0x73, 0x53 },",
  c!"    { 0x74, 0x54 }, { 0x75, 0x55 }, { 0x76, 0x56 }, { 0x77, 0x57 },",
  c!"    { 0x78, 0x58 }, { 0x79, 0x59 }, { 0x7a, 0x5a }, { 0x5b, 0x5b },",
  c!"    { 0x5c, 0x5c }, { 0x5d, 0x5d }, { 0x5e, 0x5e }, { 0x5f, 0x5f },",
  c!"    /* Lower Case*/",
  c!"    { 0x60, 0x60 }, { 0x61, 0x41 }, { 0x62, 0x42 }, { 0x63, 0x43 },",
  c!"    { 0x64, 0x44 }, { 0x65, 0x45 }, { 0x66, 0x46 }, { 0x67, 0x47 },",
  c!"    { 0x68, 0x48 }, { 0x69, 0x49 }, { 0x6a, 0x4a }, { 0x6b, 0x4b },",
  c!"    { 0x6c, 0x4c }, { 0x6d, 0x4d }, { 0x6e, 0x4e }, { 0x6f, 0x4f },",
  c!"    { 0x70, 0x50 }, { 0x71, 0x51 }, { 0x72, 0x52 }, { 0x73, 0x53 },",
  c!"    { 0x74, 0x54 }, { 0x75, 0x55 }, { 0x76, 0x56 }, { 0x77, 0x57 },",
  c!"    { 0x78, 0x58 }, { 0x79, 0x59 }, { 0x7a, 0x5a }, { 0x7b, 0x7b },",
  c!"    { 0x7c, 0x7c }, { 0x7d, 0x7d }, { 0x7e, 0x7e }, { 0x7f, 0x7f },"]

/-- src/charstr.c:48-87. -/
def charstr1 : List (List Char) := [
  c!"    /* Non-ASCII */",
  c!"    { 0x80, 0x80 }, { 0x81, 0x81 }, { 0x82, 0x82 }, { 0x83, 0x83 },",
  c!"    { 0x84, 0x84 }, { 0x85, 0x85 }, { 0x86, 0x86 }, { 0x87, 0x87 },",
  c!"    { 0x88, 0x88 }, { 0x89, 0x89 }, { 0x8a, 0x8a }, { 0x8b, 0x8b },",
  c!"    { 0x8c, 0x8c }, { 0x8d, 0x8d }, { 0x8e, 0x8e }, { 0x8f, 0x8f },",
  c!"    { 0x90, 0x90 }, { 0x91, 0x91 }, { 0x92, 0x92 }, { 0x93, 0x93 },",
  c!"    { 0x94, 0x94 }, { 0x95, 0x95 }, { 0x96, 0x96 }, { 0x97, 0x97 },",
  c!"    { 0x98, 0x98 }, { 0x99, 0x99 }, { 0x9a, 0x9a }, { 0x9b, 0x9b },",
  c!"    { 0x9c, 0x9c }, { 0x9d, 0x9d }, { 0x9e, 0x9e }, { 0x9f, 0x9f },",
  c!"    { 0xa0, 0xa0 }, { 0xa1, 0xa1 }, { 0xa2, 0xa2 }, { 0xa3, 0xa3 },",
  c!"    { 0xa4, 0xa4 }, { 0xa5, 0xa5 }, { 0xa6, 0xa6 }, { 0xa7, 0xa7 },",
  c!"    { 0xa8, 0xa8 }, { 0xa9, 0xa9 }, { 0xaa, 0xaa }, { 0xab, 0xab },",
  c!"    { 0xac, 0xac }, { 0xad, 0xad }, { 0xae, 0xae }, { 0xaf, 0xaf },",
  c!"    { 0xb0, 0xb0 }, { 0xb1, 0xb1 }, { 0xb2, 0xb2 }, { 0xb3, 0xb3 },",
  c!"    { 0xb4, 0xb4 }, { 0xb5, 0xb5 }, { 0xb6, 0xb6 }, { 0xb7, 0xb7 },",
  c!"    { 0xb8, 0xb8 }, { 0xb9, 0xb9 }, { 0xba, 0xba }, { 0xbb, 0xbb },",
  c!"    { 0xbc, 0xbc }, { 0xbd, 0xbd }, { 0xbe, 0xbe }, { 0xbf, 0xbf },",
  c!"    { 0xc0, 0xc0 }, { 0xc1, 0xc1 }, { 0xc2, 0xc2 }, { 0xc3, 0xc3 },",
  c!"    { 0xc4, 0xc4 }, { 0xc5, 0xc5 }, { 0xc6, 0xc6 }, { 0xc7, 0xc7 },",
  c!"    { 0xc8, 0xc8 }, { 0xc9, 0xc9 }, { 0xca, 0xca }, { 0xcb, 0xcb },",
  c!"    { 0xcc, 0xcc }, { 0xcd, 0xcd }, { 0xce, 0xce }, { 0xcf, 0xcf },",
  c!"    { 0xd0, 0xd0 }, { 0xd1, 0xd1 }, { 0xd2, 0xd2 }, { 0xd3, 0xd3 },",
  c!"    { 0xd4, 0xd4 }, { 0xd5, 0xd5 }, { 0xd6, 0xd6 }, { 0xd7, 0xd7 },",
  c!"    { 0xd8, 0xd8 }, { 0xd9, 0xd9 }, { 0xda, 0xda }, { 0xdb, 0xdb },",
  c!"    { 0xdc, 0xdc }, { 0xdd, 0xdd }, { 0xde, 0xde }, { 0xdf, 0xdf },",
  c!"    { 0xe0, 0xe0 }, { 0xe1, 0xe1 }, { 0xe2, 0xe2 }, { 0xe3, 0xe3 },",
  c!"    { 0xe4, 0xe4 }, { 0xe5, 0xe5 }, { 0xe6, 0xe6 }, { 0xe7, 0xe7 },",
  c!"    { 0xe8, 0xe8 }, { 0xe9, 0xe9 }, { 0xea, 0xea }, { 0xeb, 0xeb },",
  c!"    { 0xec, 0xec }, { 0xed, 0xed }, { 0xee, 0xee }, { 0xef, 0xef },",
  c!"    { 0xf0, 0xf0 }, { 0xf1, 0xf1 }, { 0xf2, 0xf2 }, { 0xf3, 0xf3 },",
  c!"    { 0xf4, 0xf4 }, { 0xf5, 0xf5 }, { 0xf6, 0xf6 }, { 0xf7, 0xf7 },",
  c!"    { 0xf8, 0xf8 }, { 0xf9, 0xf9 }, { 0xfa, 0xfa }, { 0xfb, 0xfb },",
  c!"    { 0xfc, 0xfc }, { 0xfd, 0xfd }, { 0xfe, 0xfe }, { 0xff, 0xff }",
  c!"};",
  c!"",
  c!"int charstr_case_cmp(const char *a, const char *b)",
  c!"{",
  c!"    while (*a) {",
  c!"        unsigned char ac = case_table[*(unsigned char *) a++].lower;",
  c!"        unsigned char bc = case_table[*(unsigned char *) b++].lower;"]

/-- src/charstr.c:88-127. -/
def charstr2 : List (List Char) := [
  c!"        if (ac < bc)",
  c!"            return -1;",
  c!"        if (ac > bc)",
  c!"            return 1;",
  c!"    }",
  c!"    if (*b)",
  c!"        return -1;",
  c!"    return 0;",
  c!"}",
  c!"",
  c!"int charstr_ncase_cmp(const char *a, const char *b, size_t n)",
  c!"{",
  c!"    for (; n && *a; n--) {",
  c!"        unsigned char ac = case_table[*(unsigned char *) a++].lower;",
  c!"        unsigned char bc = case_table[*(unsigned char *) b++].lower;",
  c!"        if (ac < bc)",
  c!"            return -1;",
  c!"        if (ac > bc)",
  c!"            return 1;",
  c!"    }",
  c!"    if (n && *b)",
  c!"        return -1;",
  c!"    return 0;",
  c!"}",
  c!"",
  c!"static const uint64_t char_class[256] = {",
  c!"    CHARSTR_CONTROL,                                             /* '\\000' */",
  c!"    CHARSTR_CONTROL,                                             /* '\\001' */",
  c!"    CHARSTR_CONTROL,                                             /* '\\002' */",
  c!"    CHARSTR_CONTROL,                                             /* '\\003' */",
  c!"    CHARSTR_CONTROL,                                             /* '\\004' */",
  c!"    CHARSTR_CONTROL,                                             /* '\\005' */",
  c!"    CHARSTR_CONTROL,                                             /* '\\006' */",
  c!"    CHARSTR_CONTROL,                                             /* '\\007' */",
  c!"    CHARSTR_CONTROL | CHARSTR_LF,                                /* '\\n' */",
  c!"    CHARSTR_CONTROL | CHARSTR_HT,                                /* '\\t' */",
  c!"    CHARSTR_CONTROL | CHARSTR_FF,                                /* '\\f' */",
  c!"    CHARSTR_CONTROL | CHARSTR_CR,                                /* '\\r' */",
  c!"    CHARSTR_CONTROL,                                             /* '\\014' */",
  c!"    CHARSTR_CONTROL,                                             /* '\\015' */"]

/-- src/charstr.c:128-167. -/
def charstr3 : List (List Char) := [
  c!"    CHARSTR_CONTROL,                                             /* '\\016' */",
  c!"    CHARSTR_CONTROL,                                             /* '\\017' */",
  c!"    CHARSTR_CONTROL,                                             /* '\\020' */",
  c!"    CHARSTR_CONTROL,                                             /* '\\021' */",
  c!"    CHARSTR_CONTROL,                                             /* '\\022' */",
  c!"    CHARSTR_CONTROL,                                             /* '\\023' */",
  c!"    CHARSTR_CONTROL,                                             /* '\\024' */",
  c!"    CHARSTR_CONTROL,                                             /* '\\025' */",
  c!"    CHARSTR_CONTROL,                                             /* '\\026' */",
  c!"    CHARSTR_CONTROL,                                             /* '\\027' */",
  c!"    CHARSTR_CONTROL,                                             /* '\\030' */",
  c!"    CHARSTR_CONTROL,                                             /* '\\031' */",
  c!"    CHARSTR_CONTROL,                                             /* '\\032' */",
  c!"    CHARSTR_CONTROL,                                             /* '\\033' */",
  c!"    CHARSTR_CONTROL,                                             /* '\\034' */",
  c!"    CHARSTR_CONTROL,                                             /* '\\035' */",
  c!"    CHARSTR_CONTROL,                                             /* '\\036' */",
  c!"    CHARSTR_CONTROL,                                             /* '\\037' */",
  c!"    CHARSTR_PRINT | CHARSTR_SPACE,                               /* ' ' */",
  c!"    CHARSTR_PRINT,                                               /* '!' */",
  c!"    CHARSTR_PRINT,                                               /* '\"' */",
  c!"    CHARSTR_PRINT,                                               /* '#' */",
  c!"    CHARSTR_PRINT,                                               /* '$' */",
  c!"    CHARSTR_PRINT,                                               /* '%' */",
  c!"    CHARSTR_PRINT,                                               /* '&' */",
  c!"    CHARSTR_PRINT,                                               /* '\\'' */",
  c!"    CHARSTR_PRINT,                                               /* '(' */",
  c!"    CHARSTR_PRINT,                                               /* ')' */",
  c!"    CHARSTR_PRINT,                                               /* '*' */",
  c!"    CHARSTR_PRINT,                                               /* '+' */",
  c!"    CHARSTR_PRINT,                                               /* ',' */",
  c!"    CHARSTR_PRINT,                                               /* '-' */",
  c!"    CHARSTR_PRINT,                                               /* '.' */",
  c!"    CHARSTR_PRINT,                                               /* '/' */",
  c!"    CHARSTR_PRINT | CHARSTR_DIGIT | CHARSTR_HEX | CHARSTR_OCTAL, /* '0' */",
  c!"    CHARSTR_PRINT | CHARSTR_DIGIT | CHARSTR_HEX | CHARSTR_OCTAL, /* '1' */",
  c!"    CHARSTR_PRINT | CHARSTR_DIGIT | CHARSTR_HEX | CHARSTR_OCTAL, /* '2' */",
  c!"    CHARSTR_PRINT | CHARSTR_DIGIT | CHARSTR_HEX | CHARSTR_OCTAL, /* '3' */",
  c!"    CHARSTR_PRINT | CHARSTR_DIGIT | CHARSTR_HEX | CHARSTR_OCTAL, /* '4' */",
  c!"    CHARSTR_PRINT | CHARSTR_DIGIT | CHARSTR_HEX | CHARSTR_OCTAL, /* '5' */"]

/-- src/charstr.c:168-207. -/
def charstr4 : List (List Char) := [
  c!"    CHARSTR_PRINT | CHARSTR_DIGIT | CHARSTR_HEX | CHARSTR_OCTAL, /* '6' */",
  c!"    CHARSTR_PRINT | CHARSTR_DIGIT | CHARSTR_HEX | CHARSTR_OCTAL, /* '7' */",
  c!"    CHARSTR_PRINT | CHARSTR_DIGIT | CHARSTR_HEX,                 /* '8' */",
  c!"    CHARSTR_PRINT | CHARSTR_DIGIT | CHARSTR_HEX,                 /* '9' */",
  c!"    CHARSTR_PRINT,                                               /* ':' */",
  c!"    CHARSTR_PRINT,                                               /* ';' */",
  c!"    CHARSTR_PRINT,                                               /* '<' */",
  c!"    CHARSTR_PRINT,                                               /* '=' */",
  c!"    CHARSTR_PRINT,                                               /* '>' */",
  c!"    CHARSTR_PRINT,                                               /* '?' */",
  c!"    CHARSTR_PRINT,                                               /* '@' */",
  c!"    CHARSTR_PRINT | CHARSTR_UPPER | CHARSTR_HEX,                 /* 'A' */",
  c!"    CHARSTR_PRINT | CHARSTR_UPPER | CHARSTR_HEX,                 /* 'B' */",
  c!"    CHARSTR_PRINT | CHARSTR_UPPER | CHARSTR_HEX,                 /* 'C' */",
  c!"    CHARSTR_PRINT | CHARSTR_UPPER | CHARSTR_HEX,                 /* 'D' */",
  c!"    CHARSTR_PRINT | CHARSTR_UPPER | CHARSTR_HEX,                 /* 'E' */",
  c!"    CHARSTR_PRINT | CHARSTR_UPPER | CHARSTR_HEX,                 /* 'F' */",
  c!"    CHARSTR_PRINT | CHARSTR_UPPER,                               /* 'G' */",
  c!"    CHARSTR_PRINT | CHARSTR_UPPER,                               /* 'H' */",
  c!"    CHARSTR_PRINT | CHARSTR_UPPER,                               /* 'I' */",
  c!"    CHARSTR_PRINT | CHARSTR_UPPER,                               /* 'J' */",
  c!"    CHARSTR_PRINT | CHARSTR_UPPER,                               /* 'K' */",
  c!"    CHARSTR_PRINT | CHARSTR_UPPER,                               /* 'L' */",
  c!"    CHARSTR_PRINT | CHARSTR_UPPER,                               /* 'M' */",
  c!"    CHARSTR_PRINT | CHARSTR_UPPER,                               /* 'N' */",
  c!"    CHARSTR_PRINT | CHARSTR_UPPER,                               /* 'O' */",
  c!"    CHARSTR_PRINT | CHARSTR_UPPER,                               /* 'P' */",
  c!"    CHARSTR_PRINT | CHARSTR_UPPER,                               /* 'Q' */",
  c!"    CHARSTR_PRINT | CHARSTR_UPPER,                               /* 'R' */",
  c!"    CHARSTR_PRINT | CHARSTR_UPPER,                               /* 'S' */",
  c!"    CHARSTR_PRINT | CHARSTR_UPPER,                               /* 'T' */",
  c!"    CHARSTR_PRINT | CHARSTR_UPPER,                               /* 'U' */",
  c!"    CHARSTR_PRINT | CHARSTR_UPPER,                               /* 'V' */",
  c!"    CHARSTR_PRINT | CHARSTR_UPPER,                               /* 'W' */",
  c!"    CHARSTR_PRINT | CHARSTR_UPPER,                               /* 'X' */",
  c!"    CHARSTR_PRINT | CHARSTR_UPPER,                               /* 'Y' */",
  c!"    CHARSTR_PRINT | CHARSTR_UPPER,                               /* 'Z' */",
  c!"    CHARSTR_PRINT,                                               /* '[' */",
  c!"    CHARSTR_PRINT,                                               /* '\\' */",
  c!"    CHARSTR_PRINT,                                               /* ']' */"]

/-- src/charstr.c:208-247. -/
def charstr5 : List (List Char) := [
  c!"    CHARSTR_PRINT,                                               /* '^' */",
  c!"    CHARSTR_PRINT | CHARSTR_UNDER,                               /* '_' */",
  c!"    CHARSTR_PRINT,                                               /* '`' */",
  c!"    CHARSTR_PRINT | CHARSTR_LOWER | CHARSTR_HEX,                 /* 'a' */",
  c!"    CHARSTR_PRINT | CHARSTR_LOWER | CHARSTR_HEX,                 /* 'b' */",
  c!"    CHARSTR_PRINT | CHARSTR_LOWER | CHARSTR_HEX,                 /* 'c' */",
  c!"    CHARSTR_PRINT | CHARSTR_LOWER | CHARSTR_HEX,                 /* 'd' */",
  c!"    CHARSTR_PRINT | CHARSTR_LOWER | CHARSTR_HEX,                 /* 'e' */",
  c!"    CHARSTR_PRINT | CHARSTR_LOWER | CHARSTR_HEX,                 /* 'f' */",
  c!"    CHARSTR_PRINT | CHARSTR_LOWER,                               /* 'g' */",
  c!"    CHARSTR_PRINT | CHARSTR_LOWER,                               /* 'h' */",
  c!"    CHARSTR_PRINT | CHARSTR_LOWER,                               /* 'i' */",
  c!"    CHARSTR_PRINT | CHARSTR_LOWER,                               /* 'j' */",
  c!"    CHARSTR_PRINT | CHARSTR_LOWER,                               /* 'k' */",
  c!"    CHARSTR_PRINT | CHARSTR_LOWER,                               /* 'l' */",
  c!"    CHARSTR_PRINT | CHARSTR_LOWER,                               /* 'm' */",
  c!"    CHARSTR_PRINT | CHARSTR_LOWER,                               /* 'n' */",
  c!"    CHARSTR_PRINT | CHARSTR_LOWER,                               /* 'o' */",
  c!"    CHARSTR_PRINT | CHARSTR_LOWER,                               /* 'p' */",
  c!"    CHARSTR_PRINT | CHARSTR_LOWER,                               /* 'q' */",
  c!"    CHARSTR_PRINT | CHARSTR_LOWER,                               /* 'r' */",
  c!"    CHARSTR_PRINT | CHARSTR_LOWER,                               /* 's' */",
  c!"    CHARSTR_PRINT | CHARSTR_LOWER,                               /* 't' */",
  c!"    CHARSTR_PRINT | CHARSTR_LOWER,                               /* 'u' */",
  c!"    CHARSTR_PRINT | CHARSTR_LOWER,                               /* 'v' */",
  c!"    CHARSTR_PRINT | CHARSTR_LOWER,                               /* 'w' */",
  c!"    CHARSTR_PRINT | CHARSTR_LOWER,                               /* 'x' */",
  c!"    CHARSTR_PRINT | CHARSTR_LOWER,                               /* 'y' */",
  c!"    CHARSTR_PRINT | CHARSTR_LOWER,                               /* 'z' */",
  c!"    CHARSTR_PRINT,                                               /* '{' */",
  c!"    CHARSTR_PRINT,                                               /* '|' */",
  c!"    CHARSTR_PRINT,                                               /* '}' */",
  c!"    CHARSTR_PRINT,                                               /* '~' */",
  c!"    CHARSTR_CONTROL                                              /* '\\177' */",
  c!"};",
  c!"",
  c!"uint64_t charstr_char_class(char c)",
  c!"{",
  c!"    return char_class[(unsigned char) c];",
  c!"}"]

/-- src/charstr.c:248-287. -/
def charstr6 : List (List Char) := [
  c!"",
  c!"char charstr_lcase_char(char c)",
  c!"{",
  c!"    return case_table[(unsigned char) c].lower;",
  c!"}",
  c!"",
  c!"char charstr_ucase_char(char c)",
  c!"{",
  c!"    return case_table[(unsigned char) c].upper;",
  c!"}",
  c!"",
  c!"const char *charstr_skip_prefix(const char *s, const char *prefix)",
  c!"{",
  c!"    while (*prefix)",
  c!"        if (*s++ != *prefix++)",
  c!"            return NULL;",
  c!"    return s;",
  c!"}",
  c!"",
  c!"const char *charstr_case_starts_with(const char *s, const char *prefix)",
  c!"{",
  c!"    return charstr_skip_prefix(s, prefix);",
  c!"}",
  c!"",
  c!"const char *charstr_case_skip_prefix(const char *s, const char *prefix)",
  c!"{",
  c!"    while (*prefix)",
  c!"        if (charstr_lcase_char(*s++) != charstr_lcase_char(*prefix++))",
  c!"            return NULL;",
  c!"    return s;",
  c!"}",
  c!"",
  c!"const char *charstr_ncase_starts_with(const char *s, const char *prefix)",
  c!"{",
  c!"    return charstr_case_skip_prefix(s, prefix);",
  c!"}",
  c!"",
  c!"bool charstr_ends_with(const char *s, const char *suffix)",
  c!"{",
  c!"    size_t len = strlen(s);"]

/-- src/charstr.c:288-324. -/
def charstr7 : List (List Char) := [
  c!"    size_t suffix_len = strlen(suffix);",
  c!"",
  c!"    if (len < suffix_len)",
  c!"        return false;",
  c!"",
  c!"    return !strcmp(s + len - suffix_len, suffix);",
  c!"}",
  c!"",
  c!"static const char digit_value[256] = {",
  c!"    /* Control Characters */",
  c!"    0, 0, 0, 0, 0, 0, 0, 0, 0, 0, 0, 0, 0, 0, 0, 0,",
  c!"    0, 0, 0, 0, 0, 0, 0, 0, 0, 0, 0, 0, 0, 0, 0, 0,",
  c!"    /* Printable */",
  c!"    0, 0, 0, 0, 0, 0, 0, 0, 0, 0, 0, 0, 0, 0, 0, 0,",
  c!"    /* Digits */",
  c!"    0, 1, 2, 3, 4, 5, 6, 7, 8, 9, 0, 0, 0, 0, 0, 0,",
  c!"    /* Upper Case */",
  c!"    0, 10, 11, 12, 13, 14, 15, 0, 0, 0, 0, 0, 0, 0, 0, 0,",
  c!"    0, 0, 0, 0, 0, 0, 0, 0, 0, 0, 0, 0, 0, 0, 0, 0,",
  c!"    /* Lower Case*/",
  c!"    0, 10, 11, 12, 13, 14, 15, 0, 0, 0, 0, 0, 0, 0, 0, 0,",
  c!"    0, 0, 0, 0, 0, 0, 0, 0, 0, 0, 0, 0, 0, 0, 0, 0,",
  c!"    /* Non-ASCII */",
  c!"    0, 0, 0, 0, 0, 0, 0, 0, 0, 0, 0, 0, 0, 0, 0, 0,",
  c!"    0, 0, 0, 0, 0, 0, 0, 0, 0, 0, 0, 0, 0, 0, 0, 0,",
  c!"    0, 0, 0, 0, 0, 0, 0, 0, 0, 0, 0, 0, 0, 0, 0, 0,",
  c!"    0, 0, 0, 0, 0, 0, 0, 0, 0, 0, 0, 0, 0, 0, 0, 0,",
  c!"    0, 0, 0, 0, 0, 0, 0, 0, 0, 0, 0, 0, 0, 0, 0, 0,",
  c!"    0, 0, 0, 0, 0, 0, 0, 0, 0, 0, 0, 0, 0, 0, 0, 0,",
  c!"    0, 0, 0, 0, 0, 0, 0, 0, 0, 0, 0, 0, 0, 0, 0, 0,",
  c!"    0, 0, 0, 0, 0, 0, 0, 0, 0, 0, 0, 0, 0, 0, 0, 0",
  c!"};",
  c!"",
  c!"unsigned charstr_digit_value(char c)",
  c!"{",
  c!"    return digit_value[(unsigned char) c];",
  c!"}"]

/-- src/charstr.c:8-324. -/
def charstr : List (List Char) := charstr0 ++ charstr1 ++ charstr2 ++ charstr3 ++ charstr4 ++ charstr5 ++ charstr6 ++ charstr7

end Verif.Source
