#!/usr/bin/env python3
"""Transcribe the generated trie tables of /repo/<pkg>/trie.go into Lean.

Only data is transcribed: the sparse composite literals `<pkg>Values` and
`<pkg>Index`, entry by entry, cut into the 64-entry blocks named by the
comments in trie.go.  usage: gen_tables.py [/repo] [/verif/lean/Verif]
"""
import re, sys
repo = sys.argv[1] if len(sys.argv) > 1 else "/repo"
out = sys.argv[2] if len(sys.argv) > 2 else "/verif/lean/Verif"

def table(text, name):
    m = re.search(r"^var %s = \[(\d+)\]property\{\n(.*?)^\}" % name, text, re.S | re.M)
    n = int(m.group(1))
    vals = [0] * n
    body = re.sub(r"//[^\n]*", "", m.group(2))
    seen = 0
    for e in body.replace("\n", " ").split(","):
        e = e.strip()
        if not e:
            continue
        k, v = e.split(":")
        vals[int(k, 16)] = int(v, 16)
        seen += 1
    assert seen == len(re.findall(r"0x[0-9a-f]+:", body))
    lo = text[:m.start()].count("\n") + 1
    hi = text[:m.end()].count("\n") + 1
    assert n % 64 == 0
    return vals, lo, hi

for pkg in ("graphemes", "words", "phrases", "sentences"):
    text = open(f"{repo}/{pkg}/trie.go").read()
    P = pkg.capitalize()
    for kind in ("Values", "Index"):
        vals, lo, hi = table(text, pkg + kind)
        blocks = [vals[i:i + 64] for i in range(0, len(vals), 64)]
        L = []
        L.append("/-!")
        L.append(f"GENERATED by tools/gen_tables.py from {pkg}/trie.go:{lo}-{hi}. Do not edit.")
        L.append(f"`{pkg}{kind}` ({len(vals)} entries) as its {len(blocks)} blocks of 64 entries.")
        L.append("Entry `o` of the Go array is entry `o % 64` of block `o / 64`.")
        L.append("-/")
        L.append("set_option maxRecDepth 4000")
        L.append(f"namespace Uax29.{P}.Table.{kind}")
        for i, b in enumerate(blocks):
            L.append(f"/-- {pkg}/trie.go, {pkg}{kind}, block {i:#x}, offset {64*i:#x}. -/")
            L.append(f"def b{i} : List Nat := [" + ",".join(map(str, b)) + "]")
        L.append(f"/-- {pkg}/trie.go:{lo}-{hi}, `{pkg}{kind}`, all blocks in order. -/")
        L.append("def blocks : List (List Nat) := [" + ",".join(f"b{i}" for i in range(len(blocks))) + "]")
        L.append(f"end Uax29.{P}.Table.{kind}")
        open(f"{out}/Table/{P}{kind}.lean", "w").write("\n".join(L) + "\n")
