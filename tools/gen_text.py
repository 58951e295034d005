#!/usr/bin/env python3
"""Quote the lines of /repo/<pkg>/trie.go as Lean strings.

The lines are copied as they are, joined by line breaks they are the file; they are cut at the comments
of every 16th block. Nothing is read from the lines: `<P>.Text.…_eq` in the same file compares them, by
the kernel, with the tables of gen_tables.py. usage: gen_text.py [/repo] [/verif/lean/Verif]
"""
import re, sys
repo = sys.argv[1] if len(sys.argv) > 1 else "/repo"
out = sys.argv[2] if len(sys.argv) > 2 else "/verif/lean/Verif"
STEP = 16

def quote(l):
    assert all(c == "\t" or " " <= c <= "~" for c in l)
    return '"' + l.replace("\\", "\\\\").replace('"', '\\"').replace("\t", "\\t") + '"'

for pkg in ("graphemes", "words", "phrases", "sentences"):
    P = pkg.capitalize()
    lines = open(f"{repo}/{pkg}/trie.go").read().split("\n")
    L = [f"import Verif.Table.{P}Values", f"import Verif.Table.{P}Index", "import Verif.Proofs.GoLayout",
         "/-!",
         f"GENERATED by tools/gen_text.py from {pkg}/trie.go. Do not edit.",
         f"The lines of {pkg}/trie.go, and the comparison of its tables with those of tools/gen_tables.py.",
         "-/",
         "set_option maxRecDepth 100000",
         f"namespace Uax29.{P}.Text",
         "open Gen"]
    parts = []
    def part(name, lo, hi, what):
        L.append(f"/-- {pkg}/trie.go:{lo + 1}-{hi}, {what}. -/")
        L.append(f"def {name} : List String :=")
        L.append("  [" + ",\n   ".join(quote(l) for l in lines[lo:hi]) + "]")
        parts.append(name)
        if name in ("head", "mid", "tail"):
            L.append(f"/-- {pkg}/trie.go:{lo + 1}-{hi}, as characters. -/")
            L.append(f"def {name}Chars : List (List Char) :=")
            L.append("  [" + ",\n   ".join("chars " + quote(l) for l in lines[lo:hi]) + "]")
            L.append(f"theorem {name}_eq : {name} = {name}Chars.map String.ofList := by")
            L.append("  kernel_rfl")
    at = 0
    for kind, k, w, head in (("Values", 6, 4, "head"), ("Index", 8, 2, "mid")):
        n = next(i for i, l in enumerate(lines) if l.startswith(f"var {pkg}{kind} = ["))
        m = next(i for i, l in enumerate(lines) if i > n and l == "}")
        part(head, at, n + 1, f"down to the table `{pkg}{kind}`")
        starts = [i for i in range(n + 1, m) if lines[i].startswith("\t// Block ")]
        assert starts[0] == n + 1
        names = []
        cuts = [starts[i] for i in range(0, len(starts), STEP)] + [m]
        for c in range(len(cuts) - 1):
            name = f"{kind[0].lower()}{c}"
            part(name, cuts[c], cuts[c + 1], f"`{pkg}{kind}` from block {STEP * c:#x} on")
            names.append(name)
            L.append(f"theorem {name}_eq : {name} = (layout {k} {w} {STEP * c} ((Table.{kind}.blocks.drop {STEP * c}).take {STEP})).map String.ofList := by")
            L.append("  kernel_rfl")
        L.append(f"/-- {pkg}/trie.go:{n + 2}-{m}, the table `{pkg}{kind}`. -/")
        L.append(f"def {kind.lower()} : List String := " + " ++ (".join(names) + ")" * (len(names) - 1))
        L.append(f"theorem {kind.lower()}_eq : {kind.lower()} = (layout {k} {w} 0 Table.{kind}.blocks).map String.ofList := by")
        steps = ", ".join(f"layout_step {k} {w} {STEP * c} {STEP} {STEP * (c + 1)} rfl Table.{kind}.blocks" for c in range(len(names)))
        L.append(f"  rw [{kind.lower()}, " + ", ".join(f"{x}_eq" for x in names) + f",")
        L.append(f"    layout_start {k} {w} Table.{kind}.blocks, {steps},")
        L.append(f"    layout_end {k} {w} (n := {STEP * len(names)}) (by decide), List.append_nil]")
        L.append("  simp only [List.map_append]")
        at = m
    part("tail", at, len(lines), "the end")
    L.append(f"end Uax29.{P}.Text")
    L.append(f"/-- {pkg}/trie.go, its lines. -/")
    L.append(f"def Uax29.{P}.text : List String := Text.head ++ (Text.values ++ (Text.mid ++ (Text.index ++ Text.tail)))")
    open(f"{out}/Table/{P}Text.lean", "w").write("\n".join(L) + "\n")
