import Verif.Base.Outcome

/-!
Model of `/repo/src/charstr.c` lines 1-449: ASCII case, character classes, prefixes, duplication and splitting.

A `const char *` is the list of bytes from the pointer to the end of its buffer; dereferencing the empty list is undefined behaviour.
A bounded substring is a pointer with a length (`end - s`). A string allocated by a call is the list of bytes of its block.
The `list_t` a call returns is the list of its elements (`list.c` itself is modelled in `Model/List.lean`). The libc functions
`strlen`, `strcmp`, `strchr`, `strstr` are modelled by scanning to the NUL; `memcpy` is undefined past the end of the source.
-/

namespace Verif.Charstr

/-- `*p`. -/
def peek : List UInt8 → C UInt8
  | [] => .error .ub
  | c :: _ => .ok c

/-- charstr.c:8-81 `case_table`: lower and upper case of each character code. -/
def caseTable : List (UInt8 × UInt8) := [
  (0, 0), (1, 1), (2, 2), (3, 3), (4, 4), (5, 5), (6, 6), (7, 7), (8, 8), (9, 9), (10, 10), (11, 11), (12, 12), (13, 13),
  (14, 14), (15, 15), (16, 16), (17, 17), (18, 18), (19, 19), (20, 20), (21, 21), (22, 22), (23, 23), (24, 24), (25, 25),
  (26, 26), (27, 27), (28, 28), (29, 29), (30, 30), (31, 31), (32, 32), (33, 33), (34, 34), (35, 35), (36, 36), (37, 37),
  (38, 38), (39, 39), (40, 40), (41, 41), (42, 42), (43, 43), (44, 44), (45, 45), (46, 46), (47, 47), (48, 48), (49, 49),
  (50, 50), (51, 51), (52, 52), (53, 53), (54, 54), (55, 55), (56, 56), (57, 57), (58, 58), (59, 59), (60, 60), (61, 61),
  (62, 62), (63, 63), (64, 64), (97, 65), (98, 66), (99, 67), (100, 68), (101, 69), (102, 70), (103, 71), (104, 72),
  (105, 73), (106, 74), (107, 75), (108, 76), (109, 77), (110, 78), (111, 79), (112, 80), (113, 81), (114, 82), (115, 83),
  (116, 84), (117, 85), (118, 86), (119, 87), (120, 88), (121, 89), (122, 90), (91, 91), (92, 92), (93, 93), (94, 94),
  (95, 95), (96, 96), (97, 65), (98, 66), (99, 67), (100, 68), (101, 69), (102, 70), (103, 71), (104, 72), (105, 73),
  (106, 74), (107, 75), (108, 76), (109, 77), (110, 78), (111, 79), (112, 80), (113, 81), (114, 82), (115, 83), (116, 84),
  (117, 85), (118, 86), (119, 87), (120, 88), (121, 89), (122, 90), (123, 123), (124, 124), (125, 125), (126, 126),
  (127, 127), (128, 128), (129, 129), (130, 130), (131, 131), (132, 132), (133, 133), (134, 134), (135, 135), (136, 136),
  (137, 137), (138, 138), (139, 139), (140, 140), (141, 141), (142, 142), (143, 143), (144, 144), (145, 145), (146, 146),
  (147, 147), (148, 148), (149, 149), (150, 150), (151, 151), (152, 152), (153, 153), (154, 154), (155, 155), (156, 156),
  (157, 157), (158, 158), (159, 159), (160, 160), (161, 161), (162, 162), (163, 163), (164, 164), (165, 165), (166, 166),
  (167, 167), (168, 168), (169, 169), (170, 170), (171, 171), (172, 172), (173, 173), (174, 174), (175, 175), (176, 176),
  (177, 177), (178, 178), (179, 179), (180, 180), (181, 181), (182, 182), (183, 183), (184, 184), (185, 185), (186, 186),
  (187, 187), (188, 188), (189, 189), (190, 190), (191, 191), (192, 192), (193, 193), (194, 194), (195, 195), (196, 196),
  (197, 197), (198, 198), (199, 199), (200, 200), (201, 201), (202, 202), (203, 203), (204, 204), (205, 205), (206, 206),
  (207, 207), (208, 208), (209, 209), (210, 210), (211, 211), (212, 212), (213, 213), (214, 214), (215, 215), (216, 216),
  (217, 217), (218, 218), (219, 219), (220, 220), (221, 221), (222, 222), (223, 223), (224, 224), (225, 225), (226, 226),
  (227, 227), (228, 228), (229, 229), (230, 230), (231, 231), (232, 232), (233, 233), (234, 234), (235, 235), (236, 236),
  (237, 237), (238, 238), (239, 239), (240, 240), (241, 241), (242, 242), (243, 243), (244, 244), (245, 245), (246, 246),
  (247, 247), (248, 248), (249, 249), (250, 250), (251, 251), (252, 252), (253, 253), (254, 254), (255, 255)]

/-- charstr.c:249-252 `charstr_lcase_char`. -/
def lcaseChar (c : UInt8) : UInt8 := (caseTable.getD c.toNat (0, 0)).1

/-- charstr.c:254-257 `charstr_ucase_char`. -/
def ucaseChar (c : UInt8) : UInt8 := (caseTable.getD c.toNat (0, 0)).2

/-- charstr.c:83-96 `charstr_case_cmp`. -/
def caseCmp : List UInt8 → List UInt8 → C Int
  | [], _ => .error .ub
  | a :: as, b =>
    if a ≠ 0 then match b with
      | [] => .error .ub
      | b :: bs =>
        let ac := lcaseChar a
        let bc := lcaseChar b
        if ac < bc then .ok (-1) else if ac > bc then .ok 1 else caseCmp as bs
    else match peek b with
      | .error e => .error e
      | .ok c => if c ≠ 0 then .ok (-1) else .ok 0

/-- charstr.c:98-111 `charstr_ncase_cmp`. -/
def ncaseCmp : List UInt8 → List UInt8 → Nat → C Int
  | _, _, 0 => .ok 0
  | [], _, _ + 1 => .error .ub
  | a :: as, b, n + 1 =>
    if a ≠ 0 then match b with
      | [] => .error .ub
      | b :: bs =>
        let ac := lcaseChar a
        let bc := lcaseChar b
        if ac < bc then .ok (-1) else if ac > bc then .ok 1 else ncaseCmp as bs n
    else match peek b with
      | .error e => .error e
      | .ok c => if c ≠ 0 then .ok (-1) else .ok 0

/-! charstr.h:34-46: the class flags. -/
def CONTROL : Nat := 0x0001
def DIGIT : Nat := 0x0002
def LOWER : Nat := 0x0004
def UPPER : Nat := 0x0008
def HT : Nat := 0x0010
def LF : Nat := 0x0020
def FF : Nat := 0x0040
def CR : Nat := 0x0080
def SPACE : Nat := 0x0100
def OCTAL : Nat := 0x0200
def HEX : Nat := 0x0400
def UNDER : Nat := 0x0800
def PRINT : Nat := 0x1000

/-- charstr.h:51-52 `CHARSTR_WHITESPACE`. -/
def WHITESPACE : Nat := HT ||| LF ||| FF ||| CR ||| SPACE

/-- charstr.c:113-242 `char_class`; the entries from 128 on are not given and hence zero. -/
def classTable : List Nat := [
  0x1, 0x1, 0x1, 0x1, 0x1, 0x1, 0x1, 0x1, 0x21, 0x11, 0x41, 0x81, 0x1, 0x1, 0x1, 0x1, 0x1, 0x1, 0x1, 0x1, 0x1, 0x1, 0x1,
  0x1, 0x1, 0x1, 0x1, 0x1, 0x1, 0x1, 0x1, 0x1, 0x1100, 0x1000, 0x1000, 0x1000, 0x1000, 0x1000, 0x1000, 0x1000, 0x1000,
  0x1000, 0x1000, 0x1000, 0x1000, 0x1000, 0x1000, 0x1000, 0x1602, 0x1602, 0x1602, 0x1602, 0x1602, 0x1602, 0x1602, 0x1602,
  0x1402, 0x1402, 0x1000, 0x1000, 0x1000, 0x1000, 0x1000, 0x1000, 0x1000, 0x1408, 0x1408, 0x1408, 0x1408, 0x1408, 0x1408,
  0x1008, 0x1008, 0x1008, 0x1008, 0x1008, 0x1008, 0x1008, 0x1008, 0x1008, 0x1008, 0x1008, 0x1008, 0x1008, 0x1008, 0x1008,
  0x1008, 0x1008, 0x1008, 0x1008, 0x1008, 0x1000, 0x1000, 0x1000, 0x1000, 0x1800, 0x1000, 0x1404, 0x1404, 0x1404, 0x1404,
  0x1404, 0x1404, 0x1004, 0x1004, 0x1004, 0x1004, 0x1004, 0x1004, 0x1004, 0x1004, 0x1004, 0x1004, 0x1004, 0x1004, 0x1004,
  0x1004, 0x1004, 0x1004, 0x1004, 0x1004, 0x1004, 0x1004, 0x1000, 0x1000, 0x1000, 0x1000, 0x1, 0, 0, 0, 0, 0, 0, 0, 0, 0,
  0, 0, 0, 0, 0, 0, 0, 0, 0, 0, 0, 0, 0, 0, 0, 0, 0, 0, 0, 0, 0, 0, 0, 0, 0, 0, 0, 0, 0, 0, 0, 0, 0, 0, 0, 0, 0, 0, 0, 0,
  0, 0, 0, 0, 0, 0, 0, 0, 0, 0, 0, 0, 0, 0, 0, 0, 0, 0, 0, 0, 0, 0, 0, 0, 0, 0, 0, 0, 0, 0, 0, 0, 0, 0, 0, 0, 0, 0, 0, 0,
  0, 0, 0, 0, 0, 0, 0, 0, 0, 0, 0, 0, 0, 0, 0, 0, 0, 0, 0, 0, 0, 0, 0, 0, 0, 0, 0, 0, 0, 0, 0, 0, 0, 0, 0, 0, 0, 0, 0]

/-- charstr.c:244-247 `charstr_char_class`. -/
def charClass (c : UInt8) : Nat := classTable.getD c.toNat 0

/-- The test `charstr_char_class(c) & flags`. -/
def hasClass (c : UInt8) (flags : Nat) : Bool := charClass c &&& flags != 0

/-- charstr.c:259-265 `charstr_skip_prefix` (and 267-270 `charstr_case_starts_with`). -/
def skipPrefix : List UInt8 → List UInt8 → C (Option (List UInt8))
  | _, [] => .error .ub
  | s, p :: ps =>
    if p ≠ 0 then match s with
      | [] => .error .ub
      | c :: cs => if c ≠ p then .ok none else skipPrefix cs ps
    else .ok (some s)

/-- charstr.c:272-278 `charstr_case_skip_prefix` (and 280-283 `charstr_ncase_starts_with`). -/
def caseSkipPrefix : List UInt8 → List UInt8 → C (Option (List UInt8))
  | _, [] => .error .ub
  | s, p :: ps =>
    if p ≠ 0 then match s with
      | [] => .error .ub
      | c :: cs => if lcaseChar c ≠ lcaseChar p then .ok none else caseSkipPrefix cs ps
    else .ok (some s)

/-- libc `strlen`. -/
def strlen : List UInt8 → C Nat
  | [] => .error .ub
  | c :: s => if c = 0 then .ok 0 else match strlen s with
    | .error e => .error e
    | .ok n => .ok (n + 1)

/-- libc `strcmp`, up to the sign of the result. -/
def strcmp : List UInt8 → List UInt8 → C Int
  | [], _ => .error .ub
  | _ :: _, [] => .error .ub
  | a :: as, b :: bs =>
    if a < b then .ok (-1) else if a > b then .ok 1 else if a = 0 then .ok 0 else strcmp as bs

/-- charstr.c:285-294 `charstr_ends_with`. -/
def endsWith (s suffix : List UInt8) : C Bool :=
  match strlen s with
  | .error e => .error e
  | .ok len => match strlen suffix with
    | .error e => .error e
    | .ok suffixLen =>
      if len < suffixLen then .ok false
      else match strcmp (s.drop (len - suffixLen)) suffix with
        | .error e => .error e
        | .ok r => .ok (r == 0)

/-- charstr.c:296-319 `digit_value`. -/
def digitTable : List Nat := [
  0, 0, 0, 0, 0, 0, 0, 0, 0, 0, 0, 0, 0, 0, 0, 0, 0, 0, 0, 0, 0, 0, 0, 0, 0, 0, 0, 0, 0, 0, 0, 0, 0, 0, 0, 0, 0, 0, 0, 0,
  0, 0, 0, 0, 0, 0, 0, 0, 0, 1, 2, 3, 4, 5, 6, 7, 8, 9, 0, 0, 0, 0, 0, 0, 0, 10, 11, 12, 13, 14, 15, 0, 0, 0, 0, 0, 0, 0,
  0, 0, 0, 0, 0, 0, 0, 0, 0, 0, 0, 0, 0, 0, 0, 0, 0, 0, 0, 10, 11, 12, 13, 14, 15, 0, 0, 0, 0, 0, 0, 0, 0, 0, 0, 0, 0, 0,
  0, 0, 0, 0, 0, 0, 0, 0, 0, 0, 0, 0, 0, 0, 0, 0, 0, 0, 0, 0, 0, 0, 0, 0, 0, 0, 0, 0, 0, 0, 0, 0, 0, 0, 0, 0, 0, 0, 0, 0,
  0, 0, 0, 0, 0, 0, 0, 0, 0, 0, 0, 0, 0, 0, 0, 0, 0, 0, 0, 0, 0, 0, 0, 0, 0, 0, 0, 0, 0, 0, 0, 0, 0, 0, 0, 0, 0, 0, 0, 0,
  0, 0, 0, 0, 0, 0, 0, 0, 0, 0, 0, 0, 0, 0, 0, 0, 0, 0, 0, 0, 0, 0, 0, 0, 0, 0, 0, 0, 0, 0, 0, 0, 0, 0, 0, 0, 0, 0, 0, 0,
  0, 0, 0, 0, 0, 0, 0, 0, 0, 0, 0, 0, 0, 0, 0, 0, 0, 0, 0, 0]

/-- charstr.c:321-324 `charstr_digit_value`. -/
def digitValue (c : UInt8) : Nat := digitTable.getD c.toNat 0

/-- charstr.c:337-341: the copying part of `charstr_dupsubstr`. -/
def dupBytes (s : List UInt8) (length : Nat) : C (List UInt8) :=
  if length ≤ s.length then .ok (s.take length ++ [0]) else .error .ub

/-- charstr.c:326-331 `charstr_dupstr`; `none` is NULL. -/
def dupstr : Option (List UInt8) → C (Option (List UInt8))
  | none => .ok none
  | some s => match strlen s with
    | .error e => .error e
    | .ok n => match dupBytes s n with
      | .error e => .error e
      | .ok d => .ok (some d)

/-- charstr.c:333-342 `charstr_dupsubstr`; `length` is `end - s`, `none` if `end` is NULL. -/
def dupsubstr (s : Option (List UInt8)) (length : Option Nat) : C (Option (List UInt8)) :=
  match s, length with
  | some p, some n => match dupBytes p n with
    | .error e => .error e
    | .ok d => .ok (some d)
  | s, _ => dupstr s

/-- `charstr_dupstr` of a pointer that is not NULL. -/
def dup (s : List UInt8) : C (List UInt8) :=
  match dupstr (some s) with
  | .error e => .error e
  | .ok none => .error .ub
  | .ok (some d) => .ok d

/-- charstr.c:344-350 `charstr_lcase_str` and 361-367 `charstr_ucase_str`, by the character function; the result is the buffer
afterwards. -/
def mapStr (f : UInt8 → UInt8) : List UInt8 → C (List UInt8)
  | [] => .error .ub
  | c :: cs => if c = 0 then .ok (c :: cs) else match mapStr f cs with
    | .error e => .error e
    | .ok ds => .ok (f c :: ds)

/-- charstr.c:344-350. -/
def lcaseStr (s : List UInt8) : C (List UInt8) := mapStr lcaseChar s
/-- charstr.c:361-367. -/
def ucaseStr (s : List UInt8) : C (List UInt8) := mapStr ucaseChar s

/-- charstr.c:352-359 `charstr_lcase_substr` and 369-376 `charstr_ucase_substr`; the count is `end - p`. -/
def mapSubstr (f : UInt8 → UInt8) : List UInt8 → Nat → C (List UInt8)
  | s, 0 => .ok s
  | [], _ + 1 => .error .ub
  | c :: cs, n + 1 => match mapSubstr f cs n with
    | .error e => .error e
    | .ok ds => .ok (f c :: ds)

/-- charstr.c:352-359. -/
def lcaseSubstr (s : List UInt8) (n : Nat) : C (List UInt8) := mapSubstr lcaseChar s n
/-- charstr.c:369-376. -/
def ucaseSubstr (s : List UInt8) (n : Nat) : C (List UInt8) := mapSubstr ucaseChar s n

/-- libc `strchr`: offset of the first `c`; the terminating NUL counts as part of the string. -/
def strchr (c : UInt8) : List UInt8 → C (Option Nat)
  | [] => .error .ub
  | a :: s => if a = c then .ok (some 0) else if a = 0 then .ok none else match strchr c s with
    | .error e => .error e
    | .ok r => .ok (r.map (· + 1))

/-- charstr.c:378-390 `charstr_split`; the strings of the returned list. -/
def split (delim : UInt8) : Nat → List UInt8 → C (List (List UInt8))
  | 0, s => match dup s with
    | .error e => .error e
    | .ok d => .ok [d]
  | maxSplit + 1, s => match strchr delim s with
    | .error e => .error e
    | .ok none => match dup s with
      | .error e => .error e
      | .ok d => .ok [d]
    | .ok (some p) => match dupBytes s p with
      | .error e => .error e
      | .ok d => match split delim maxSplit (s.drop (p + 1)) with
        | .error e => .error e
        | .ok ds => .ok (d :: ds)

/-- `array[i] = d`. -/
def store (array : List (Option (List UInt8))) (i : Nat) (d : List UInt8) : C (List (Option (List UInt8))) :=
  if i < array.length then .ok (array.set i (some d)) else .error .ub

/-- charstr.c:403-404. -/
def arrayLast (s : List UInt8) (array : List (Option (List UInt8))) (i : Nat) : C (Nat × List (Option (List UInt8))) :=
  match dup s with
  | .error e => .error e
  | .ok d => match store array i d with
    | .error e => .error e
    | .ok array => .ok (i, array)

/-- charstr.c:396-404: the loop of `charstr_split_into_array`; `k` is `max_split - i`. -/
def splitArray (delim : UInt8) : Nat → List UInt8 → List (Option (List UInt8)) → Nat → C (Nat × List (Option (List UInt8)))
  | 0, s, array, i => arrayLast s array i
  | k + 1, s, array, i => match strchr delim s with
    | .error e => .error e
    | .ok none => arrayLast s array i
    | .ok (some p) => match dupBytes s p with
      | .error e => .error e
      | .ok d => match store array i d with
        | .error e => .error e
        | .ok array => splitArray delim k (s.drop (p + 1)) array (i + 1)

/-- charstr.c:392-405 `charstr_split_into_array`. The array is given by its current elements. -/
def splitIntoArray (s : List UInt8) (delim : UInt8) (array : List (Option (List UInt8))) (maxSplit : Nat) :
    C (Nat × List (Option (List UInt8))) :=
  splitArray delim maxSplit s array 0

/-- charstr.c:411-415: skip whitespace; `none` at the end of the string. -/
def skipWs : List UInt8 → C (Option (List UInt8))
  | [] => .error .ub
  | c :: s => if c = 0 then .ok none else if hasClass c WHITESPACE then skipWs s else .ok (some (c :: s))

/-- charstr.c:417-418: length of the run of non-whitespace characters. -/
def atomLen : List UInt8 → C Nat
  | [] => .error .ub
  | c :: s => if c ≠ 0 && !hasClass c WHITESPACE then match atomLen s with
      | .error e => .error e
      | .ok n => .ok (n + 1)
    else .ok 0

theorem skipWs_length {s r : List UInt8} (h : skipWs s = .ok (some r)) : r.length ≤ s.length ∧ r ≠ [] := by
  induction s with
  | nil => cases h
  | cons c s ih =>
    simp only [skipWs] at h
    split at h
    · simp at h
    · split at h
      · have := ih h
        exact ⟨by have := this.1; simp; omega, this.2⟩
      · simp only [Except.ok.injEq, Option.some.injEq] at h
        subst h; simp

/-- charstr.c:407-422 `charstr_split_atoms`. -/
def splitAtoms (s : List UInt8) : C (List (List UInt8)) :=
  match h : skipWs s with
  | .error e => .error e
  | .ok none => .ok []
  | .ok (some r) => match atomLen (r.drop 1) with
    | .error e => .error e
    | .ok n => match dupBytes r (n + 1) with
      | .error e => .error e
      | .ok d => match splitAtoms (r.drop (n + 1)) with
        | .error e => .error e
        | .ok ds => .ok (d :: ds)
termination_by s.length
decreasing_by
  have := skipWs_length h
  have h1 : r.length ≠ 0 := by simpa using this.2
  simp; omega

/-- libc `strstr`: offset of the first occurrence. -/
def strstr : List UInt8 → List UInt8 → C (Option Nat)
  | [], _ => .error .ub
  | c :: s, delim => match skipPrefix (c :: s) delim with
    | .error e => .error e
    | .ok (some _) => .ok (some 0)
    | .ok none => if c = 0 then .ok none else match strstr s delim with
      | .error e => .error e
      | .ok r => .ok (r.map (· + 1))

/-- charstr.c:428-436: the loop of `charstr_split_str`. -/
def splitStrLoop (delim : List UInt8) (skip : Nat) : Nat → List UInt8 → C (List (List UInt8))
  | 0, s => match dup s with
    | .error e => .error e
    | .ok d => .ok [d]
  | maxSplit + 1, s => match strstr s delim with
    | .error e => .error e
    | .ok none => match dup s with
      | .error e => .error e
      | .ok d => .ok [d]
    | .ok (some p) => match dupBytes s p with
      | .error e => .error e
      | .ok d => match splitStrLoop delim skip maxSplit (s.drop (p + skip)) with
        | .error e => .error e
        | .ok ds => .ok (d :: ds)

/-- charstr.c:424-437 `charstr_split_str`. -/
def splitStr (s delim : List UInt8) (maxSplit : Nat) : C (List (List UInt8)) :=
  match strlen delim with
  | .error e => .error e
  | .ok skip => splitStrLoop delim skip maxSplit s

/-- charstr.c:443-444. -/
def stripStart : List UInt8 → C (List UInt8)
  | [] => .error .ub
  | c :: s => if c ≠ 0 && hasClass c WHITESPACE then stripStart s else .ok (c :: s)

/-- charstr.c:446-447: `end - s`. -/
def stripEnd (s : List UInt8) : Nat → C Nat
  | 0 => .ok 0
  | n + 1 => match rd s n with
    | .error e => .error e
    | .ok c => if hasClass c WHITESPACE then stripEnd s n else .ok (n + 1)

/-- charstr.c:439-449 `charstr_strip`. -/
def strip : Option (List UInt8) → C (Option (List UInt8))
  | none => .ok none
  | some s => match stripStart s with
    | .error e => .error e
    | .ok s => match strlen s with
      | .error e => .error e
      | .ok n => match stripEnd s n with
        | .error e => .error e
        | .ok n => dupsubstr (some s) (some n)

end Verif.Charstr
