import Verif.Base.Chars

/-! src/date.c:1-427, line by line. Written by tools/gen_source.py. -/

set_option autoImplicit false

namespace Verif.Source

/-- src/date.c:1-40. -/
def date0 : List (List Char) := [
  c!"#include \"date.h\"",
  c!"#include \"fsdyn_version.h\"",
  c!"",
  c!"typedef struct {",
  c!"    int year_offset;",
  c!"    int month;                  /* 0 = January */",
  c!"    int mday;                   /* 1..31 */",
  c!"} yday_info_t;",
  c!"",
  c!"static const yday_info_t YDAY_INFO[];",
  c!"",
  c!"struct tm *epoch_to_utc(time_t epoch, struct tm *tm)",
  c!"{",
  c!"    enum {",
  c!"        SECONDS_PER_DAY = 86400,",
  c!"        FROM_1600_03_01 = 135080, /* days from 1600-03-01 to 1970-01-01 */",
  c!"        YEAR = 365,",
  c!"        CENTURY = 100 * YEAR + 24,",
  c!"        _400_YEARS = 4 * CENTURY + 1,",
  c!"        _4_YEARS = 4 * YEAR + 1,",
  c!"        FEBRUARY = 1            /* sic */",
  c!"    };",
  c!"    tm->tm_sec = epoch % SECONDS_PER_DAY;",
  c!"    tm->tm_min = tm->tm_sec / 60;",
  c!"    tm->tm_sec %= 60;",
  c!"    tm->tm_hour = tm->tm_min / 60;",
  c!"    tm->tm_min %= 60;",
  c!"    tm->tm_yday = -1;           /* not supported */",
  c!"    tm->tm_isdst = 0;",
  c!"    int days = epoch / SECONDS_PER_DAY;",
  c!"    tm->tm_wday = (days + 4) % 7;",
  c!"    days += FROM_1600_03_01;",
  c!"    tm->tm_year = 1600 + days / _400_YEARS * 400 - 1900;",
  c!"    days %= _400_YEARS;",
  c!"    int centuries = days / CENTURY;",
  c!"    tm->tm_year += centuries * 100;",
  c!"    if (centuries == 4) {",
  c!"        tm->tm_mon = FEBRUARY;",
  c!"        tm->tm_mday = 29;",
  c!"        return tm;"]

/-- src/date.c:41-80. -/
def date1 : List (List Char) := [
  c!"    }",
  c!"    days %= CENTURY;",
  c!"    tm->tm_year += days / _4_YEARS * 4;",
  c!"    days %= _4_YEARS;",
  c!"    int years = days / YEAR;",
  c!"    tm->tm_year += years;",
  c!"    if (years == 4) {",
  c!"        tm->tm_mon = FEBRUARY;",
  c!"        tm->tm_mday = 29;",
  c!"        return tm;",
  c!"    }",
  c!"    days %= YEAR;        /* 1 Jan = 0 */",
  c!"    const yday_info_t *info = &YDAY_INFO[days];",
  c!"    tm->tm_year += info->year_offset;",
  c!"    tm->tm_mon = info->month;",
  c!"    tm->tm_mday = info->mday;",
  c!"    return tm;",
  c!"}",
  c!"",
  c!"static const yday_info_t YDAY_INFO[] = {",
  c!"    { 0, 2, 1 },  /* 0 */",
  c!"    { 0, 2, 2 },  /* 1 */",
  c!"    { 0, 2, 3 },  /* 2 */",
  c!"    { 0, 2, 4 },  /* 3 */",
  c!"    { 0, 2, 5 },  /* 4 */",
  c!"    { 0, 2, 6 },  /* 5 */",
  c!"    { 0, 2, 7 },  /* 6 */",
  c!"    { 0, 2, 8 },  /* 7 */",
  c!"    { 0, 2, 9 },  /* 8 */",
  c!"    { 0, 2, 10 }, /* 9 */",
  c!"    { 0, 2, 11 }, /* 10 */",
  c!"    { 0, 2, 12 }, /* 11 */",
  c!"    { 0, 2, 13 }, /* 12 */",
  c!"    { 0, 2, 14 }, /* 13 */",
  c!"    { 0, 2, 15 }, /* 14 */",
  c!"    { 0, 2, 16 }, /* 15 */",
  c!"    { 0, 2, 17 }, /* 16 */",
  c!"    { 0, 2, 18 }, /* 17 */",
  c!"    { 0, 2, 19 }, /* 18 */",
  c!"    { 0, 2, 20 }, /* 19 */"]

/-- src/date.c:81-120. -/
def date2 : List (List Char) := [
  c!"    { 0, 2, 21 }, /* 20 */",
  c!"    { 0, 2, 22 }, /* 21 */",
  c!"    { 0, 2, 23 }, /* 22 */",
  c!"    { 0, 2, 24 }, /* 23 */",
  c!"    { 0, 2, 25 }, /* 24 */",
  c!"    { 0, 2, 26 }, /* 25 */",
  c!"    { 0, 2, 27 }, /* 26 */",
  c!"    { 0, 2, 28 }, /* 27 */",
  c!"    { 0, 2, 29 }, /* 28 */",
  c!"    { 0, 2, 30 }, /* 29 */",
  c!"    { 0, 2, 31 }, /* 30 */",
  c!"    { 0, 3, 1 }, /* 31 */",
  c!"    { 0, 3, 2 }, /* 32 */",
  c!"    { 0, 3, 3 }, /* 33 */",
  c!"    { 0, 3, 4 }, /* 34 */",
  c!"    { 0, 3, 5 }, /* 35 */",
  c!"    { 0, 3, 6 }, /* 36 */",
  c!"    { 0, 3, 7 }, /* 37 */",
  c!"    { 0, 3, 8 }, /* 38 */",
  c!"    { 0, 3, 9 }, /* 39 */",
  c!"    { 0, 3, 10 }, /* 40 */",
  c!"    { 0, 3, 11 }, /* 41 */",
  c!"    { 0, 3, 12 }, /* 42 */",
  c!"    { 0, 3, 13 }, /* 43 */",
  c!"    { 0, 3, 14 }, /* 44 */",
  c!"    { 0, 3, 15 }, /* 45 */",
  c!"    { 0, 3, 16 }, /* 46 */",
  c!"    { 0, 3, 17 }, /* 47 */",
  c!"    { 0, 3, 18 }, /* 48 */",
  c!"    { 0, 3, 19 }, /* 49 */",
  c!"    { 0, 3, 20 }, /* 50 */",
  c!"    { 0, 3, 21 }, /* 51 */",
  c!"    { 0, 3, 22 }, /* 52 */",
  c!"    { 0, 3, 23 }, /* 53 */",
  c!"    { 0, 3, 24 }, /* 54 */",
  c!"    { 0, 3, 25 }, /* 55 */",
  c!"    { 0, 3, 26 }, /* 56 */",
  c!"    { 0, 3, 27 }, /* 57 */",
  c!"    { 0, 3, 28 }, /* 58 */",
  c!"    { 0, 3, 29 }, /* 59 */"]

/-- src/date.c:121-160. -/
def date3 : List (List Char) := [
  c!"    { 0, 3, 30 }, /* 60 */",
  c!"    { 0, 4, 1 }, /* 61 */",
  c!"    { 0, 4, 2 }, /* 62 */",
  c!"    { 0, 4, 3 }, /* 63 */",
  c!"    { 0, 4, 4 }, /* 64 */",
  c!"    { 0, 4, 5 }, /* 65 */",
  c!"    { 0, 4, 6 }, /* 66 */",
  c!"    { 0, 4, 7 }, /* 67 */",
  c!"    { 0, 4, 8 }, /* 68 */",
  c!"    { 0, 4, 9 }, /* 69 */",
  c!"    { 0, 4, 10 }, /* 70 */",
  c!"    { 0, 4, 11 }, /* 71 */",
  c!"    { 0, 4, 12 }, /* 72 */",
  c!"    { 0, 4, 13 }, /* 73 */",
  c!"    { 0, 4, 14 }, /* 74 */",
  c!"    { 0, 4, 15 }, /* 75 */",
  c!"    { 0, 4, 16 }, /* 76 */",
  c!"    { 0, 4, 17 }, /* 77 */",
  c!"    { 0, 4, 18 }, /* 78 */",
  c!"    { 0, 4, 19 }, /* 79 */",
  c!"    { 0, 4, 20 }, /* 80 */",
  c!"    { 0, 4, 21 }, /* 81 */",
  c!"    { 0, 4, 22 }, /* 82 */",
  c!"    { 0, 4, 23 }, /* 83 */",
  c!"    { 0, 4, 24 }, /* 84 */",
  c!"    { 0, 4, 25 }, /* 85 */",
  c!"    { 0, 4, 26 }, /* 86 */",
  c!"    { 0, 4, 27 }, /* 87 */",
  c!"    { 0, 4, 28 }, /* 88 */",
  c!"    { 0, 4, 29 }, /* 89 */",
  c!"    { 0, 4, 30 }, /* 90 */",
  c!"    { 0, 4, 31 }, /* 91 */",
  c!"    { 0, 5, 1 }, /* 92 */",
  c!"    { 0, 5, 2 }, /* 93 */",
  c!"    { 0, 5, 3 }, /* 94 */",
  c!"    { 0, 5, 4 }, /* 95 */",
  c!"    { 0, 5, 5 }, /* 96 */",
  c!"    { 0, 5, 6 }, /* 97 */",
  c!"    { 0, 5, 7 }, /* 98 */",
  c!"    { 0, 5, 8 }, /* 99 */"]

/-- src/date.c:161-200. -/
def date4 : List (List Char) := [
  c!"    { 0, 5, 9 }, /* 100 */",
  c!"    { 0, 5, 10 }, /* 101 */",
  c!"    { 0, 5, 11 }, /* 102 */",
  c!"    { 0, 5, 12 }, /* 103 */",
  c!"    { 0, 5, 13 }, /* 104 */",
  c!"    { 0, 5, 14 }, /* 105 */",
  c!"    { 0, 5, 15 }, /* 106 */",
  c!"    { 0, 5, 16 }, /* 107 */",
  c!"    { 0, 5, 17 }, /* 108 */",
  c!"    { 0, 5, 18 }, /* 109 */",
  c!"    { 0, 5, 19 }, /* 110 */",
  c!"    { 0, 5, 20 }, /* 111 */",
  c!"    { 0, 5, 21 }, /* 112 */",
  c!"    { 0, 5, 22 }, /* 113 */",
  c!"    { 0, 5, 23 }, /* 114 */",
  c!"    { 0, 5, 24 }, /* 115 */",
  c!"    { 0, 5, 25 }, /* 116 */",
  c!"    { 0, 5, 26 }, /* 117 */",
  c!"    { 0, 5, 27 }, /* 118 */",
  c!"    { 0, 5, 28 }, /* 119 */",
  c!"    { 0, 5, 29 }, /* 120 */",
  c!"    { 0, 5, 30 }, /* 121 */",
  c!"    { 0, 6, 1 }, /* 122 */",
  c!"    { 0, 6, 2 }, /* 123 */",
  c!"    { 0, 6, 3 }, /* 124 */",
  c!"    { 0, 6, 4 }, /* 125 */",
  c!"    { 0, 6, 5 }, /* 126 */",
  c!"    { 0, 6, 6 }, /* 127 */",
  c!"    { 0, 6, 7 }, /* 128 */",
  c!"    { 0, 6, 8 }, /* 129 */",
  c!"    { 0, 6, 9 }, /* 130 */",
  c!"    { 0, 6, 10 }, /* 131 */",
  c!"    { 0, 6, 11 }, /* 132 */",
  c!"    { 0, 6, 12 }, /* 133 */",
  c!"    { 0, 6, 13 }, /* 134 */",
  c!"    { 0, 6, 14 }, /* 135 */",
  c!"    { 0, 6, 15 }, /* 136 */",
  c!"    { 0, 6, 16 }, /* 137 */",
  c!"    { 0, 6, 17 }, /* 138 */",
  c!"    { 0, 6, 18 }, /* 139 */"]

/-- src/date.c:201-240. -/
def date5 : List (List Char) := [
  c!"    { 0, 6, 19 }, /* 140 */",
  c!"    { 0, 6, 20 }, /* 141 */",
  c!"    { 0, 6, 21 }, /* 142 */",
  c!"    { 0, 6, 22 }, /* 143 */",
  c!"    { 0, 6, 23 }, /* 144 */",
  c!"    { 0, 6, 24 }, /* 145 */",
  c!"    { 0, 6, 25 }, /* 146 */",
  c!"    { 0, 6, 26 }, /* 147 */",
  c!"    { 0, 6, 27 }, /* 148 */",
  c!"    { 0, 6, 28 }, /* 149 */",
  c!"    { 0, 6, 29 }, /* 150 */",
  c!"    { 0, 6, 30 }, /* 151 */",
  c!"    { 0, 6, 31 }, /* 152 */",
  c!"    { 0, 7, 1 }, /* 153 */",
  c!"    { 0, 7, 2 }, /* 154 */",
  c!"    { 0, 7, 3 }, /* 155 */",
  c!"    { 0, 7, 4 }, /* 156 */",
  c!"    { 0, 7, 5 }, /* 157 */",
  c!"    { 0, 7, 6 }, /* 158 */",
  c!"    { 0, 7, 7 }, /* 159 */",
  c!"    { 0, 7, 8 }, /* 160 */",
  c!"    { 0, 7, 9 }, /* 161 */",
  c!"    { 0, 7, 10 }, /* 162 */",
  c!"    { 0, 7, 11 }, /* 163 */",
  c!"    { 0, 7, 12 }, /* 164 */",
  c!"    { 0, 7, 13 }, /* 165 */",
  c!"    { 0, 7, 14 }, /* 166 */",
  c!"    { 0, 7, 15 }, /* 167 */",
  c!"    { 0, 7, 16 }, /* 168 */",
  c!"    { 0, 7, 17 }, /* 169 */",
  c!"    { 0, 7, 18 }, /* 170 */",
  c!"    { 0, 7, 19 }, /* 171 */",
  c!"    { 0, 7, 20 }, /* 172 */",
  c!"    { 0, 7, 21 }, /* 173 */",
  c!"    { 0, 7, 22 }, /* 174 */",
  c!"    { 0, 7, 23 }, /* 175 */",
  c!"    { 0, 7, 24 }, /* 176 */",
  c!"    { 0, 7, 25 }, /* 177 */",
  c!"    { 0, 7, 26 }, /* 178 */",
  c!"    { 0, 7, 27 }, /* 179 */"]

/-- src/date.c:241-280. -/
def date6 : List (List Char) := [
  c!"    { 0, 7, 28 }, /* 180 */",
  c!"    { 0, 7, 29 }, /* 181 */",
  c!"    { 0, 7, 30 }, /* 182 */",
  c!"    { 0, 7, 31 }, /* 183 */",
  c!"    { 0, 8, 1 }, /* 184 */",
  c!"    { 0, 8, 2 }, /* 185 */",
  c!"    { 0, 8, 3 }, /* 186 */",
  c!"    { 0, 8, 4 }, /* 187 */",
  c!"    { 0, 8, 5 }, /* 188 */",
  c!"    { 0, 8, 6 }, /* 189 */",
  c!"    { 0, 8, 7 }, /* 190 */",
  c!"    { 0, 8, 8 }, /* 191 */",
  c!"    { 0, 8, 9 }, /* 192 */",
  c!"    { 0, 8, 10 }, /* 193 */",
  c!"    { 0, 8, 11 }, /* 194 */",
  c!"    { 0, 8, 12 }, /* 195 */",
  c!"    { 0, 8, 13 }, /* 196 */",
  c!"    { 0, 8, 14 }, /* 197 */",
  c!"    { 0, 8, 15 }, /* 198 */",
  c!"    { 0, 8, 16 }, /* 199 */",
  c!"    { 0, 8, 17 }, /* 200 */",
  c!"    { 0, 8, 18 }, /* 201 */",
  c!"    { 0, 8, 19 }, /* 202 */",
  c!"    { 0, 8, 20 }, /* 203 */",
  c!"    { 0, 8, 21 }, /* 204 */",
  c!"    { 0, 8, 22 }, /* 205 */",
  c!"    { 0, 8, 23 }, /* 206 */",
  c!"    { 0, 8, 24 }, /* 207 */",
  c!"    { 0, 8, 25 }, /* 208 */",
  c!"    { 0, 8, 26 }, /* 209 */",
  c!"    { 0, 8, 27 }, /* 210 */",
  c!"    { 0, 8, 28 }, /* 211 */",
  c!"    { 0, 8, 29 }, /* 212 */",
  c!"    { 0, 8, 30 }, /* 213 */",
  c!"    { 0, 9, 1 }, /* 214 */",
  c!"    { 0, 9, 2 }, /* 215 */",
  c!"    { 0, 9, 3 }, /* 216 */",
  c!"    { 0, 9, 4 }, /* 217 */",
  c!"    { 0, 9, 5 }, /* 218 */",
  c!"    { 0, 9, 6 }, /* 219 */"]

/-- src/date.c:281-320. -/
def date7 : List (List Char) := [
  c!"    { 0, 9, 7 }, /* 220 */",
  c!"    { 0, 9, 8 }, /* 221 */",
  c!"    { 0, 9, 9 }, /* 222 */",
  c!"    { 0, 9, 10 }, /* 223 */",
  c!"    { 0, 9, 11 }, /* 224 */",
  c!"    { 0, 9, 12 }, /* 225 */",
  c!"    { 0, 9, 13 }, /* 226 */",
  c!"    { 0, 9, 14 }, /* 227 */",
  c!"    { 0, 9, 15 }, /* 228 */",
  c!"    { 0, 9, 16 }, /* 229 */",
  c!"    { 0, 9, 17 }, /* 230 */",
  c!"    { 0, 9, 18 }, /* 231 */",
  c!"    { 0, 9, 19 }, /* 232 */",
  c!"    { 0, 9, 20 }, /* 233 */",
  c!"    { 0, 9, 21 }, /* 234 */",
  c!"    { 0, 9, 22 }, /* 235 */",
  c!"    { 0, 9, 23 }, /* 236 */",
  c!"    { 0, 9, 24 }, /* 237 */",
  c!"    { 0, 9, 25 }, /* 238 */",
  c!"    { 0, 9, 26 }, /* 239 */",
  c!"    { 0, 9, 27 }, /* 240 */",
  c!"    { 0, 9, 28 }, /* 241 */",
  c!"    { 0, 9, 29 }, /* 242 */",
  c!"    { 0, 9, 30 }, /* 243 */",
  c!"    { 0, 9, 31 }, /* 244 */",
  c!"    { 0, 10, 1 }, /* 245 */",
  c!"    { 0, 10, 2 }, /* 246 */",
  c!"    { 0, 10, 3 }, /* 247 */",
  c!"    { 0, 10, 4 }, /* 248 */",
  c!"    { 0, 10, 5 }, /* 249 */",
  c!"    { 0, 10, 6 }, /* 250 */",
  c!"    { 0, 10, 7 }, /* 251 */",
  c!"    { 0, 10, 8 }, /* 252 */",
  c!"    { 0, 10, 9 }, /* 253 */",
  c!"    { 0, 10, 10 }, /* 254 */",
  c!"    { 0, 10, 11 }, /* 255 */",
  c!"    { 0, 10, 12 }, /* 256 */",
  c!"    { 0, 10, 13 }, /* 257 */",
  c!"    { 0, 10, 14 }, /* 258 */",
  c!"    { 0, 10, 15 }, /* 259 */"]

/-- src/date.c:321-360. -/
def date8 : List (List Char) := [
  c!"    { 0, 10, 16 }, /* 260 */",
  c!"    { 0, 10, 17 }, /* 261 */",
  c!"    { 0, 10, 18 }, /* 262 */",
  c!"    { 0, 10, 19 }, /* 263 */",
  c!"    { 0, 10, 20 }, /* 264 */",
  c!"    { 0, 10, 21 }, /* 265 */",
  c!"    { 0, 10, 22 }, /* 266 */",
  c!"    { 0, 10, 23 }, /* 267 */",
  c!"    { 0, 10, 24 }, /* 268 */",
  c!"    { 0, 10, 25 }, /* 269 */",
  c!"    { 0, 10, 26 }, /* 270 */",
  c!"    { 0, 10, 27 }, /* 271 */",
  c!"    { 0, 10, 28 }, /* 272 */",
  c!"    { 0, 10, 29 }, /* 273 */",
  c!"    { 0, 10, 30 }, /* 274 */",
  c!"    { 0, 11, 1 }, /* 275 */",
  c!"    { 0, 11, 2 }, /* 276 */",
  c!"    { 0, 11, 3 }, /* 277 */",
  c!"    { 0, 11, 4 }, /* 278 */",
  c!"    { 0, 11, 5 }, /* 279 */",
  c!"    { 0, 11, 6 }, /* 280 */",
  c!"    { 0, 11, 7 }, /* 281 */",
  c!"    { 0, 11, 8 }, /* 282 */",
  c!"    { 0, 11, 9 }, /* 283 */",
  c!"    { 0, 11, 10 }, /* 284 */",
  c!"    { 0, 11, 11 }, /* 285 */",
  c!"    { 0, 11, 12 }, /* 286 */",
  c!"    { 0, 11, 13 }, /* 287 */",
  c!"    { 0, 11, 14 }, /* 288 */",
  c!"    { 0, 11, 15 }, /* 289 */",
  c!"    { 0, 11, 16 }, /* 290 */",
  c!"    { 0, 11, 17 }, /* 291 */",
  c!"    { 0, 11, 18 }, /* 292 */",
  c!"    { 0, 11, 19 }, /* 293 */",
  c!"    { 0, 11, 20 }, /* 294 */",
  c!"    { 0, 11, 21 }, /* 295 */",
  c!"    { 0, 11, 22 }, /* 296 */",
  c!"    { 0, 11, 23 }, /* 297 */",
  c!"    { 0, 11, 24 }, /* 298 */",
  c!"    { 0, 11, 25 }, /* 299 */"]

/-- src/date.c:361-400. -/
def date9 : List (List Char) := [
  c!"    { 0, 11, 26 }, /* 300 */",
  c!"    { 0, 11, 27 }, /* 301 */",
  c!"    { 0, 11, 28 }, /* 302 */",
  c!"    { 0, 11, 29 }, /* 303 */",
  c!"    { 0, 11, 30 }, /* 304 */",
  c!"    { 0, 11, 31 }, /* 305 */",
  c!"    { 1, 0, 1 }, /* 306 */",
  c!"    { 1, 0, 2 }, /* 307 */",
  c!"    { 1, 0, 3 }, /* 308 */",
  c!"    { 1, 0, 4 }, /* 309 */",
  c!"    { 1, 0, 5 }, /* 310 */",
  c!"    { 1, 0, 6 }, /* 311 */",
  c!"    { 1, 0, 7 }, /* 312 */",
  c!"    { 1, 0, 8 }, /* 313 */",
  c!"    { 1, 0, 9 }, /* 314 */",
  c!"    { 1, 0, 10 }, /* 315 */",
  c!"    { 1, 0, 11 }, /* 316 */",
  c!"    { 1, 0, 12 }, /* 317 */",
  c!"    { 1, 0, 13 }, /* 318 */",
  c!"    { 1, 0, 14 }, /* 319 */",
  c!"    { 1, 0, 15 }, /* 320 */",
  c!"    { 1, 0, 16 }, /* 321 */",
  c!"    { 1, 0, 17 }, /* 322 */",
  c!"    { 1, 0, 18 }, /* 323 */",
  c!"    { 1, 0, 19 }, /* 324 */",
  c!"    { 1, 0, 20 }, /* 325 */",
  c!"    { 1, 0, 21 }, /* 326 */",
  c!"    { 1, 0, 22 }, /* 327 */",
  c!"    { 1, 0, 23 }, /* 328 */",
  c!"    { 1, 0, 24 }, /* 329 */",
  c!"    { 1, 0, 25 }, /* 330 */",
  c!"    { 1, 0, 26 }, /* 331 */",
  c!"    { 1, 0, 27 }, /* 332 */",
  c!"    { 1, 0, 28 }, /* 333 */",
  c!"    { 1, 0, 29 }, /* 334 */",
  c!"    { 1, 0, 30 }, /* 335 */",
  c!"    { 1, 0, 31 }, /* 336 */",
  c!"    { 1, 1, 1 }, /* 337 */",
  c!"    { 1, 1, 2 }, /* 338 */",
  c!"    { 1, 1, 3 }, /* 339 */"]

/-- src/date.c:401-427. -/
def date10 : List (List Char) := [
  c!"    { 1, 1, 4 }, /* 340 */",
  c!"    { 1, 1, 5 }, /* 341 */",
  c!"    { 1, 1, 6 }, /* 342 */",
  c!"    { 1, 1, 7 }, /* 343 */",
  c!"    { 1, 1, 8 }, /* 344 */",
  c!"    { 1, 1, 9 }, /* 345 */",
  c!"    { 1, 1, 10 }, /* 346 */",
  c!"    { 1, 1, 11 }, /* 347 */",
  c!"    { 1, 1, 12 }, /* 348 */",
  c!"    { 1, 1, 13 }, /* 349 */",
  c!"    { 1, 1, 14 }, /* 350 */",
  c!"    { 1, 1, 15 }, /* 351 */",
  c!"    { 1, 1, 16 }, /* 352 */",
  c!"    { 1, 1, 17 }, /* 353 */",
  c!"    { 1, 1, 18 }, /* 354 */",
  c!"    { 1, 1, 19 }, /* 355 */",
  c!"    { 1, 1, 20 }, /* 356 */",
  c!"    { 1, 1, 21 }, /* 357 */",
  c!"    { 1, 1, 22 }, /* 358 */",
  c!"    { 1, 1, 23 }, /* 359 */",
  c!"    { 1, 1, 24 }, /* 360 */",
  c!"    { 1, 1, 25 }, /* 361 */",
  c!"    { 1, 1, 26 }, /* 362 */",
  c!"    { 1, 1, 27 }, /* 363 */",
  c!"    { 1, 1, 28 }, /* 364 */",
  c!"    { 1, 1, 29 }, /* 365 */",
  c!"};"]

/-- src/date.c:1-427. -/
def date : List (List Char) := date0 ++ date1 ++ date2 ++ date3 ++ date4 ++ date5 ++ date6 ++ date7 ++ date8 ++ date9 ++ date10

end Verif.Source
