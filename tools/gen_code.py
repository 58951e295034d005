#!/usr/bin/env python3
"""Write lean/Verif/Table/<P>Code.lean: what `Source.read` makes of the quoted files, as printed by tools/emit_code.txt.

The kernel compares it with `Source.read` of the files (`read_eq`). usage: gen_code.py [pkg ...]
"""
import subprocess, sys
FILES = {
    "graphemes": ["splitfunc", "iterator", "ansi", "ansi8", "reader"],
    "words": ["joiners", "splitfunc", "seek", "iterator", "bleve_compat", "reader"],
    "phrases": ["splitfunc", "seek", "iterator", "reader"],
    "sentences": ["splitfunc", "seek", "iterator", "reader"],
    "internal/iterators": ["iterator"],
    "internal/iterators/filter": ["filter"],
}
NAMES = {"internal/iterators": "Generic", "internal/iterators/filter": "Filter"}
def fold(line, n=128):
    out = []
    while len(line) > n:
        k = line.rfind(" (", 0, n) if "(" in line[8:n] else line.rfind(", ", 0, n) + 1
        out.append(line[:k])
        line = "    " + line[k + 1:]
    return out + [line]
for pkg in sys.argv[1:] or FILES:
    P = NAMES.get(pkg, pkg.capitalize())
    trie = pkg not in NAMES
    text = subprocess.run(["lake", "env", "lean", "--run", "../tools/emit_code.txt", pkg], cwd="/verif/lean", check=True,
                          capture_output=True, text=True).stdout
    files = FILES[pkg]
    L = ["import Verif.Spec.GoRead"] + ([f"import Verif.Table.{P}Text"] if trie else ["import Verif.Model.KernelRfl"]) + [f"import Verif.Table.{P}Source", "/-!",
         f"GENERATED by tools/gen_code.py. Do not edit.",
         f"The functions of {f'{pkg}/trie.go, ' if trie else ''}{', '.join(f'{pkg}/{f}.go' for f in files)}, as `Source.read` reads them.", "-/",
         "set_option maxRecDepth 100000", f"namespace Uax29.{P}.Code", "open Source"]
    for l in text.rstrip().split("\n"):
        L += fold(l)
    L.append(f"/-- {f'{pkg}/trie.go without the entries of its tables, then ' if trie else ''}{', '.join(f'{pkg}/{f}.go' for f in files)}. -/")
    L.append("def files : List (List Char) :=")
    L.append("  [" + ("Text.headChars ++ (Text.midChars ++ Text.tailChars), " if trie else "") + ", ".join(f"Text.{f}" for f in files) + "].map textOf")
    L.append("theorem read_eq : read files = some program := by")
    L.append("  kernel_rfl")
    L.append(f"end Uax29.{P}.Code")
    open(f"/verif/lean/Verif/Table/{P}Code.lean", "w").write("\n".join(L) + "\n")
