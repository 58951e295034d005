#!/usr/bin/env python3
"""Compute the CRC-64 of every block of the tables of /repo/<pkg>/trie.go.

The numbers are checked by Lean (Verif/Proofs/Shipped*.lean), not trusted.
usage: gen_hashes.py [/repo] [/verif/lean/Verif]
"""
import re, struct, sys
repo = sys.argv[1] if len(sys.argv) > 1 else "/repo"
out = sys.argv[2] if len(sys.argv) > 2 else "/verif/lean/Verif"
POLY, M = 0xD800000000000000, (1 << 64) - 1
tab = []
for i in range(256):
    c = i
    for _ in range(8):
        c = (c >> 1) ^ POLY if c & 1 else c >> 1
    tab.append(c)

def crc(words):
    c = M
    for w in words:
        for b in struct.pack(">Q", w):
            c = tab[(c & 255) ^ b] ^ (c >> 8)
    return c ^ M

def table(text, name):
    m = re.search(r"^var %s = \[(\d+)\]property\{\n(.*?)^\}" % name, text, re.S | re.M)
    vals = [0] * int(m.group(1))
    for k, v in re.findall(r"(0x[0-9a-f]+):\s*(0x[0-9a-f]+)", re.sub(r"//[^\n]*", "", m.group(2))):
        vals[int(k, 16)] = int(v, 16)
    return [vals[i:i + 64] for i in range(0, len(vals), 64)]

for pkg in ("graphemes", "words", "phrases", "sentences"):
    text = open(f"{repo}/{pkg}/trie.go").read()
    V, I = table(text, pkg + "Values"), table(text, pkg + "Index")
    vh = [0] + [crc(b) for b in V[3:]]
    level = [0] * (len(I) - 2)
    def mark(i, d):
        if i and d:
            level[i] = d
            for e in I[i + 2]:
                mark(e, d - 1)
    for q, e in enumerate(I[3]):
        mark(e, 0 if q < 32 else 1 if q < 48 else 2)
    ih = [0] * len(level)
    for d in (1, 2):
        for i, l in enumerate(level):
            if l == d:
                ih[i] = crc([(vh if d == 1 else ih)[e] for e in I[i + 2]])
    ih[1] = 1
    P = pkg.capitalize()
    def lst(name, doc, l):
        return f"/-- {doc} -/\ndef {name} : List Nat :=\n  [" + ",\n   ".join(
            ", ".join(map(str, l[k:k + 4])) for k in range(0, len(l), 4)) + "]\n"
    open(f"{out}/Table/{P}Hashes.lean", "w").write(
        f"/-!\nGENERATED by tools/gen_hashes.py from {pkg}/trie.go. Do not edit.\n"
        f"The hashes of the blocks of the tables, checked in Verif/Proofs/Shipped{P}.lean.\n-/\n"
        f"set_option maxRecDepth 4000\nnamespace Uax29.{P}.Hashes\n"
        + lst("vh", f"The hashes of the blocks of `{pkg}Values` from block 2 on.", vh)
        + lst("ih", f"The hashes of the blocks of `{pkg}Index` from block 2 on. The block of the root, "
              "number 1 in this list, has 1 in place of a hash.", ih)
        + lst("lv", f"How many levels there are below the blocks of `{pkg}Index` from block 2 on.", level)
        + f"end Uax29.{P}.Hashes\n")
