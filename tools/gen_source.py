#!/usr/bin/env python3
"""Quote Go files of /repo as Lean lists of characters, line by line.

Nothing is read from the lines here; `Spec/GoRead.lean` reads them.
usage: gen_source.py [/repo] [/verif/lean/Verif]
"""
import glob, os, sys
repo = sys.argv[1] if len(sys.argv) > 1 else "/repo"
out = sys.argv[2] if len(sys.argv) > 2 else "/verif/lean/Verif"
FILES = {
    "graphemes": ["splitfunc", "iterator", "ansi", "ansi8", "reader"],
    "words": ["joiners", "splitfunc", "seek", "iterator", "bleve_compat", "reader"],
    "phrases": ["splitfunc", "seek", "iterator", "reader"],
    "sentences": ["splitfunc", "seek", "iterator", "reader"],
    "internal/iterators": ["iterator"],
    "internal/iterators/filter": ["filter"],
}
NAMES = {"internal/iterators": "Generic", "internal/iterators/filter": "Filter"}

def quote(l):
    assert all(c == "\t" or (c >= " " and c != "\x7f") for c in l)
    return '"' + l.replace("\\", "\\\\").replace('"', '\\"').replace("\t", "\\t") + '"'

for pkg, files in FILES.items():
    here = {os.path.basename(f)[:-3] for f in glob.glob(f"{repo}/{pkg}/*.go") if not f.endswith("_test.go")}
    assert here - {"trie"} == set(files), (pkg, here)
    P = NAMES.get(pkg, pkg.capitalize())
    L = ["import Verif.Model.Chars", "/-!",
         f"GENERATED by tools/gen_source.py from {', '.join(f'{pkg}/{f}.go' for f in files)}. Do not edit.",
         "-/", "set_option maxRecDepth 100000", f"namespace Uax29.{P}.Text"]
    for f in files:
        text = open(f"{repo}/{pkg}/{f}.go").read()
        lines = text.split("\n")
        assert lines[-1] == ""
        lines = lines[:-1]
        L.append(f"/-- {pkg}/{f}.go, every line with its end left out. -/")
        L.append(f"def {f} : List (List Char) :=")
        L.append("  [" + ",\n   ".join("chars " + quote(l) for l in lines) + "]")
    L.append(f"end Uax29.{P}.Text")
    open(f"{out}/Table/{P}Source.lean", "w").write("\n".join(L) + "\n")
