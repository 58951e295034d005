#!/usr/bin/env python3
"""Print the lists of lean/Verif/Proofs/TwoTables.lean: which block of the table of package phrases goes
with which block of the table of package words. The lists are checked by the proofs there."""
import re


def index(pkg):
    src = open(f"/repo/{pkg}/trie.go").read()
    m = re.search(r"var " + pkg + r"Index = \[(\d+)\]\w+\s*\{(.*?)\n\}", src, re.S)
    table = [0] * int(m.group(1))
    for k, v in re.findall(r"(0x[0-9a-f]+):\s*([^,]+),", re.sub(r"//[^\n]*", "", m.group(2))):
        table[int(k, 16)] = int(v, 0)
    return table


words, phrases = index("words"), index("phrases")
values, blocks, last, first = {}, {}, set(), set()


def third(a, b):
    blocks[a] = b
    last.add(a)
    for k in range(64):
        values[words[a * 64 + 0x80 + k]] = phrases[b * 64 + 0x80 + k]


for c in range(0xC2, 0xE0):
    values[words[c]] = phrases[c]
for c in range(0xE0, 0xF0):
    third(words[c], phrases[c])
for c in range(0xF0, 0xF8):
    a, b = words[c], phrases[c]
    blocks[a] = b
    first.add(a)
    for k in range(64):
        third(words[a * 64 + 0x80 + k], phrases[b * 64 + 0x80 + k])

print("valueBlocks", [values[i] for i in range(max(values) + 1)])
print("indexBlocks", [blocks.get(i, 0) for i in range(max(blocks) + 1)])
print("lastIndexBlocks", sorted(last))
print("firstIndexBlocks", sorted(first))
