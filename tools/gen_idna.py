#!/usr/bin/env python3
"""Write lean/Verif/Data/Idna.lean or lean/Verif/Data/Category.lean from the data files of the repository.

Usage: gen_idna.py idna /repo/idna/IdnaMappingTable.txt > lean/Verif/Data/Idna.lean
       gen_idna.py category /repo/unicode/UnicodeData.txt > lean/Verif/Data/Category.lean
"""
import sys

def tree(rows, split, defs, name, depth=0):
    """rows: list of (lo, hi, value text), sorted."""
    if not rows:
        return ".leaf"
    m = len(rows) // 2
    lo, hi, v = rows[m]
    l = tree(rows[:m], split, defs, name, depth + 1)
    r = tree(rows[m + 1:], split, defs, name, depth + 1)
    t = "(.node %s %d %d %s %s)" % (l, lo, hi, v, r)
    if depth == split:
        n = "%s%d" % (name, len(defs))
        defs.append((n, t))
        return n
    return t

def emit(name, ty, rows, doc, split=5):
    defs = []
    t = tree(sorted(rows), split, defs, name)
    for n, x in defs:
        print("def %s : RTree %s := %s\n" % (n, ty, x))
    print("/-- %s -/\ndef %s : RTree %s := %s\n" % (doc, name, ty, t))

STATUS = {"valid": ".valid", "mapped": ".mapped", "ignored": ".ignored", "deviation": ".deviation", "disallowed": ".disallowed",
          "disallowed_STD3_valid": ".std3Valid", "disallowed_STD3_mapped": ".std3Mapped"}

def idna(path):
    rows = []
    for line in open(path):
        f = [x.strip() for x in line.split("#", 1)[0].split(";")]
        if len(f) < 2:
            continue
        lo, _, hi = f[0].partition("..")
        m = [int(x, 16) for x in f[2].split()] if len(f) > 2 else []
        rows.append((int(lo, 16), int(hi or lo, 16), "(%s, %s)" % (STATUS[f[1]], m)))
    print("import Verif.Model.UniGen\n")
    print("/-! Written by tools/gen_idna.py from /repo/idna/IdnaMappingTable.txt. -/\n")
    print("namespace Verif.Unidata\nopen Verif.UniGen\n")
    print("/-- The statuses in IdnaMappingTable.txt. -/")
    print("inductive Status where\n  | valid | mapped | ignored | deviation | disallowed | std3Valid | std3Mapped\n  deriving DecidableEq, Repr\n")
    emit("idnaTable", "(Status × List Nat)", rows,
         "IdnaMappingTable.txt: first and last code point, status and mapping of each line (none and an empty one are the same here).")
    print("end Verif.Unidata")

def category(path):
    runs, lower, upper = [], [], []
    for line in open(path):
        f = line.rstrip("\n").split(";")
        cp, cat = int(f[0], 16), f[2]
        kind = ".first" if f[1].endswith(", First>") else ".last" if f[1].endswith(", Last>") else ".plain"
        if runs and kind == ".plain" and runs[-1][3] == ".plain" and runs[-1][1] == cp - 1 and runs[-1][2] == cat:
            runs[-1][1] = cp
        else:
            runs.append([cp, cp, cat, kind])
        if f[13]:
            lower.append((cp, cp, str(int(f[13], 16))))
        if f[12]:
            upper.append((cp, cp, str(int(f[12], 16))))
    print("import Verif.Model.UniGen\nimport Verif.Model.Categorize\n")
    print("/-! Written by tools/gen_idna.py from /repo/unicode/UnicodeData.txt. -/\n")
    print("namespace Verif.Unidata\nopen Verif.UniGen Verif.Categorize\n")
    print("/-- The general categories (charstr.h:135-166). -/")
    print("inductive Cat where\n  | Cn | Cc | Cf | Co | Cs | Ll | Lm | Lo | Lt | Lu | Mc | Me | Mn | Nd | Nl | No | Pc | Pd | Pe | Pf | Pi | Po\n"
          "  | Ps | Sc | Sk | Sm | So | Zl | Zp | Zs\n  deriving DecidableEq, Repr\n")
    emit("categoryTable", "(Kind × Cat)", [(a, b, "(%s, .%s)" % (k, c)) for a, b, c, k in runs],
         "Fields 0 to 2 of UnicodeData.txt. An entry stands for the lines of all code points from the first to the last.")
    emit("lowerTable", "Nat", lower, "Field 13 of UnicodeData.txt, where it is not empty.", 3)
    emit("upperTable", "Nat", upper, "Field 12 of UnicodeData.txt, where it is not empty.", 3)
    print("end Verif.Unidata")

{"idna": idna, "category": category}[sys.argv[1]](sys.argv[2])
