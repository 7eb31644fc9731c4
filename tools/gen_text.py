#!/usr/bin/env python3
"""Writes lean/Verif/Data/Text/*.lean: the text of the data files as numbers, with the theorems that each part agrees with the tables."""

import os

REPO = "/repo/"
OUT = os.path.join(os.path.dirname(os.path.abspath(__file__)), "../lean/Verif/Data/Text/")
SIZE = 2000


def chunks(lines):
    cur, n = [], 0
    for l in lines:
        if cur and n + len(l) + 1 > SIZE:
            yield cur
            cur, n = [], 0
        cur.append(l)
        n += len(l) + 1
    yield cur


def number(lines):
    text = b"".join(l + b"\n" for l in lines)
    return "%d (nat_lit 0x%s)" % (len(text), text[::-1].hex())


def write(name, source, imp, chunk, ok, allok, parts):
    """parts: the fields of each part before its bytes, and its lines."""
    with open(OUT + name + ".lean", "w") as f:
        f.write("import Verif.Proofs.%s\n\n/-! Written by tools/gen_text.py from /repo/%s. -/\n\n" % (imp, source))
        f.write("set_option maxRecDepth 100000\n\nnamespace Verif.Shipped.%s\nopen Verif.Shipped\n\n" % name)
        for j, (fields, c) in enumerate(parts):
            f.write("def c%d : %s := .mk %s %s\n" % (j, chunk, " ".join(map(str, fields)), number(c)))
            f.write("theorem t%d : c%d.%s = true := by decide +kernel\n" % (j, j, ok))
        f.write("\ndef chunks : List %s := [%s]\n" % (chunk, ", ".join("c%d" % j for j in range(len(parts)))))
        f.write("\ntheorem ok : %s chunks :=\n  " % allok)
        f.write("".join("List.forall_mem_cons.2 ⟨t%d, " % j for j in range(len(parts))))
        f.write("fun _ h => (List.not_mem_nil h).elim" + "⟩" * len(parts))
        f.write("\n\nend Verif.Shipped.%s\n" % name)


def modules(name, count, source, imp, chunk, ok, allok, parts):
    per = -(-len(parts) // count)
    for i in range(count):
        write("%s%d" % (name, i), source, imp, chunk, ok, allok, parts[i * per:(i + 1) * per])


def lines(source):
    return open(REPO + source, "rb").read().split(b"\n")[:-1]


def unicode_data():
    source = "unicode/UnicodeData.txt"
    parts = []
    for c in chunks(lines(source)):
        cps = [int(l.split(b";")[0], 16) for l in c]
        parts.append(((len(c), cps[0], cps[-1] + 1), c))
    modules("Unicode", 16, source, "ShippedCheck", "Chunk", "ok", "AllOk", parts)


def pieces(source, key):
    parts, last = [], 0
    for c in chunks(lines(source)):
        keys = [k for k in map(key, c) if k is not None]
        lo, hi = (keys[0], keys[-1] + 1) if keys else (last, last)
        parts.append(((len(c), len(keys), lo, hi), c))
        last = hi
    return parts


def idna_key(l):
    f = l.split(b"#")[0].split(b";")
    return int(f[0].split(b"..")[0], 16) if len(f) > 1 else None


SECTIONS = {b"NFD_QC": 0, b"NFC_QC": 0x400000, b"NFKD_QC": 0x800000, b"NFKC_QC": 0xC00000}


def props_key(l):
    f = l.split(b"#")[0].split(b";")
    if len(f) < 2 or f[1].strip() not in SECTIONS:
        return None
    return SECTIONS[f[1].strip()] + (0x200000 if f[2].strip() == b"M" else 0) + int(f[0].split(b"..")[0], 16)


class Count:
    def __init__(self):
        self.n = -1

    def __call__(self, l):
        if not l.split(b"#")[0].strip():
            return None
        self.n += 1
        return self.n


unicode_data()
modules("Idna", 8, "idna/IdnaMappingTable.txt", "ShippedScan", "Piece", "okIdna", "AllIdna", pieces("idna/IdnaMappingTable.txt", idna_key))
modules("Props", 8, "unicode/DerivedNormalizationProps.txt", "ShippedScan", "Piece", "okProps", "AllProps", pieces("unicode/DerivedNormalizationProps.txt", props_key))
modules("Exclusions", 1, "unicode/CompositionExclusions.txt", "ShippedScan", "Piece", "okExcl", "AllExcl", pieces("unicode/CompositionExclusions.txt", Count()))
