"""Writes MANIFEST.json: the theorems named Cxx_... or C1xx_... in lean/Verif/Props, by property.

A property is `partial` if one of its theorems ends in `_partial`. Notes are in NOTES below.
"""
import json
import os
import re

ROOT = os.path.dirname(os.path.dirname(os.path.abspath(__file__)))
NOTES = json.load(open(os.path.join(ROOT, "tools", "notes.json")))

claims = {}
for d, _, fs in sorted(os.walk(os.path.join(ROOT, "lean", "Verif", "Props"))):
    for f in sorted(fs):
        stack = []
        for line in open(os.path.join(d, f)):
            m = re.match(r"namespace (\S+)", line)
            if m:
                stack.append(m.group(1))
            m = re.match(r"end (\S+)", line)
            if m and stack and m.group(1) == stack[-1]:
                stack.pop()
            m = re.match(r"theorem ((C\d+)_\w+)", line)
            if m:
                claims.setdefault(m.group(2), []).append(".".join(stack + [m.group(1)]))

out = []
for line in open(os.path.join(ROOT, "properties.jsonl")):
    p = json.loads(line)["id"]
    if p in claims:
        partial = any(t.endswith("_partial") for t in claims[p])
        out.append({"property": p, "status": "partial" if partial else "proved",
                    "theorems": claims[p], "note": NOTES.get(p, "")})
with open(os.path.join(ROOT, "MANIFEST.json"), "w") as f:
    f.write('{"claims": [\n' + ",\n".join(json.dumps(c, ensure_ascii=False) for c in out) + "\n]}\n")
