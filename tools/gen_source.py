#!/usr/bin/env python3
"""Write Verif/Data/Source/*.lean: the text of C source files of /repo, line by line.

usage: gen_source.py REPO LEAN_ROOT
"""
import os
import sys

FILES = [("Float", "float", "src/float.c", [None]), ("Date", "date", "src/date.c", [None]),
         ("Charstr", "charstr", "src/charstr.c", [(8, 324)]),
         ("Utf8", "utf8", "src/charstr.c", [(451, 508), (543, 564)]),
         ("Case", "caseStrings", "src/charstr.c", [(344, 376)]),
         ("Base64", "base64Tables", "src/base64.c", [(8, 36)]),
         ("IntegerH", "integerHeader", "include/integer.h", [(22, 23), (29, 32), (38, 41), (47, 50), (56, 59)]),
         ("Integer", "integerFile", "src/integer.c", [(4, 20)]),
         ("ListH", "listHeader", "include/list.h", [(17, 17), (22, 22)]),
         ("ListImp", "listMembers", "include/list_imp.h", [(1, 9)]),
         ("List", "listSearch", "src/list.c", [(24, 46), (59, 67)]),
         ("ListIndex", "listIndex", "src/list.c", [(48, 57)])]
CHUNK = 40


def literal(line):
    return 'c!"' + line.replace("\\", "\\\\").replace('"', '\\"').replace("\t", "\\t") + '"'


def main(repo, root):
    os.makedirs(os.path.join(root, "Verif/Data/Source"), exist_ok=True)
    for module, name, path, parts in FILES:
        with open(os.path.join(repo, path), encoding="utf-8") as f:
            lines = f.read().split("\n")
        assert lines.pop() == ""
        parts = [part or (1, len(lines)) for part in parts]
        where = path + ":" + ", ".join(f"{first}-{last}" for first, last in parts)
        chunks = [(a, min(a + CHUNK - 1, last)) for first, last in parts for a in range(first, last + 1, CHUNK)]
        out = ["import Verif.Base.Chars", "", f"/-! {where}, line by line. Written by tools/gen_source.py. -/", "",
               "set_option autoImplicit false", "", "namespace Verif.Source", ""]
        for i, (a, b) in enumerate(chunks):
            out.append(f"/-- {path}:{a}-{b}. -/")
            out.append(f"def {name}{i} : List (List Char) := [")
            out.append(",\n".join("  " + literal(l) for l in lines[a - 1:b]) + "]")
            out.append("")
        out.append(f"/-- {where}. -/")
        out.append(f"def {name} : List (List Char) := " + " ++ ".join(f"{name}{i}" for i in range(len(chunks))))
        out += ["", "end Verif.Source", ""]
        with open(os.path.join(root, f"Verif/Data/Source/{module}.lean"), "w", encoding="utf-8") as f:
            f.write("\n".join(out))


if __name__ == "__main__":
    main(*sys.argv[1:])
