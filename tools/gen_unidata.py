#!/usr/bin/env python3
"""Write lean/Verif/Data/Unidata.lean from the data files of the repository.

Usage: gen_unidata.py /repo/unicode > lean/Verif/Data/Unidata.lean
"""
import sys

def tree(rows, depth=0, defs=None, name=None):
    """rows: list of (lo, hi, value text), sorted."""
    if not rows:
        return ".leaf"
    m = len(rows) // 2
    lo, hi, v = rows[m]
    l = tree(rows[:m], depth + 1, defs, name)
    r = tree(rows[m + 1:], depth + 1, defs, name)
    t = "(.node %s %d %d %s %s)" % (l, lo, hi, v, r)
    if depth == 3 and defs is not None:
        n = "%s%d" % (name, len([d for d in defs if d[0].startswith(name)]))
        defs.append((n, t))
        return n
    return t

def main():
    d = sys.argv[1]
    rows = []
    for line in open(d + "/UnicodeData.txt"):
        f = line.split(";")
        ccc = int(f[3])
        dec = [] if f[5].startswith("<") else [int(x, 16) for x in f[5].split()]
        if ccc or dec:
            cp = int(f[0], 16)
            rows.append((cp, cp, "(%d, %s)" % (ccc, dec)))
    excl = []
    for line in open(d + "/CompositionExclusions.txt"):
        line = line.strip()
        if line and not line.startswith("#"):
            excl.append(int(line.split()[0], 16))
    qc = {"NFC_QC": [], "NFD_QC": [], "NFKC_QC": [], "NFKD_QC": []}
    for line in open(d + "/DerivedNormalizationProps.txt"):
        line = line.split("#", 1)[0].strip()
        f = [x.strip() for x in line.split(";")]
        if len(f) != 3 or f[1] not in qc:
            continue
        lo, _, hi = f[0].partition("..")
        lo = int(lo, 16)
        hi = int(hi, 16) if hi else lo
        qc[f[1]].append((lo, hi, {"N": ".no", "M": ".maybe"}[f[2]]))
    print("import Verif.Model.UniGen\n")
    print("/-!\nWritten by tools/gen_unidata.py from /repo/unicode/UnicodeData.txt, CompositionExclusions.txt and")
    print("DerivedNormalizationProps.txt. Search trees; what they contain are the lines of the files.\n-/\n")
    print("namespace Verif.Unidata\nopen Verif.UniGen\n")
    def emit(name, ty, rows, doc):
        defs = []
        t = tree(sorted(rows), 0, defs, name)
        for n, x in defs:
            print("def %s : RTree %s := %s\n" % (n, ty, x))
        print("/-- %s -/\ndef %s : RTree %s := %s\n" % (doc, name, ty, t))
    emit("unicodeData", "(Nat × List Nat)", rows,
         "UnicodeData.txt: code point, canonical combining class and canonical decomposition of the lines that have one of these.")
    for k, n in (("NFC_QC", "nfcQC"), ("NFD_QC", "nfdQC"), ("NFKC_QC", "nfkcQC"), ("NFKD_QC", "nfkdQC")):
        emit(n, "QC", qc[k], "DerivedNormalizationProps.txt: the lines for %s." % k)
    print("/-- CompositionExclusions.txt -/\ndef exclusions : List Nat := %s\n" % excl)
    pairs = []
    for lo, _, v in rows:
        dec = eval(v)[1]
        if len(dec) == 2 and lo not in excl:
            k = dec[0] * 2 ** 21 + dec[1]
            pairs.append((k, k, str(lo)))
    emit("pairTree", "Nat", pairs,
         "For fast lookup: the composite of `s` and `c` under the key `s * 2^21 + c`; shown equal to what the generator makes of the files.")
    print("end Verif.Unidata")

main()
