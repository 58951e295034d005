#!/usr/bin/env python3
"""Print the break properties of Unicode 15.0, as Perl knows them, as Lean range tables.

The data is that of Perl's Unicode::UCD. Perl 5.36/5.38 have Unicode 15.0; /repo has
Unicode 17.0. `changed` lists the code points that the tables of /repo treat differently.
Also prints the tables of /repo as runs, which Lean checks (Verif/Proofs/Runs*.lean).
usage: gen_ucd.py [/repo] [/verif/lean/Verif]
"""
import re, subprocess, sys
repo = sys.argv[1] if len(sys.argv) > 1 else "/repo"
out = sys.argv[2] if len(sys.argv) > 2 else "/verif/lean/Verif"

PERL = r"""
use Unicode::UCD qw(prop_invmap);
die "version" unless Unicode::UCD::UnicodeVersion() eq "15.0.0";
for my $p (qw(WB GCB SB ExtPict sc gc lb InSC)) {
  my ($l, $m) = prop_invmap($p);
  for my $i (0 .. $#$l) {
    printf "%s %d %d %s\n", $p, $l->[$i], ($i < $#$l ? $l->[$i+1] - 1 : 0x10FFFF), $m->[$i];
  }
}
"""
ucd = {}
for line in subprocess.run(["perl", "-e", PERL], capture_output=True, text=True, check=True).stdout.splitlines():
    p, lo, hi, v = line.split(None, 3)
    ucd.setdefault(p, []).extend([v.replace("_", "")] * (int(hi) - int(lo) + 1))
CHARS = [c for c in range(0x110000) if not 0xD800 <= c < 0xE000]

def where(p, *vs):
    return {c for c in CHARS if ucd[p][c] in vs}

def table(text, name):
    m = re.search(r"^var %s = \[(\d+)\]property\{\n(.*?)^\}" % name, text, re.S | re.M)
    vals = [0] * int(m.group(1))
    for k, v in re.findall(r"(0x[0-9a-f]+):\s*(0x[0-9a-f]+)", re.sub(r"//[^\n]*", "", m.group(2))):
        vals[int(k, 16)] = int(v, 16)
    return vals

def shipped(pkg):
    text = open(f"{repo}/{pkg}/trie.go").read()
    V, I = table(text, pkg + "Values"), table(text, pkg + "Index")
    names = re.findall(r"^\t_(\w+)", text.split("const (")[1].split(")")[0], re.M)
    def val(c):
        s = chr(c).encode("utf-8", "surrogatepass")
        if len(s) == 1:
            return V[c]
        i = I[s[0]]
        for b in s[1:-1]:
            i = I[i * 64 + b]
        return V[i * 64 + s[-1]]
    vals = [val(c) for c in range(0x110000)]
    return vals, {n: {c for c in CHARS if vals[c] >> i & 1} for i, n in enumerate(names)}

def ranges(s):
    r = []
    for c in sorted(s):
        if r and r[-1][1] == c - 1:
            r[-1][1] = c
        else:
            r.append([c, c])
    return r

def lean_ranges(s):
    items = [f"({lo:#x}, {hi:#x})" for lo, hi in ranges(s)]
    lines, cur = [], ""
    for i, it in enumerate(items):
        it += "," if i < len(items) - 1 else ""
        if len(cur) + len(it) > 100:
            lines.append(cur)
            cur = ""
        cur += (" " if cur else "") + it
    lines.append(cur)
    return "[" + "\n    ".join(lines) + "]"

extpict = where("ExtPict", "Y")
gcb = {n: where("GCB", n) for n in ("CR", "LF", "Control", "Extend", "ZWJ", "RegionalIndicator", "Prepend",
                                    "SpacingMark", "L", "V", "T", "LV", "LVT")}
gcb["ExtendedPictographic"] = extpict
# Indic_Conjunct_Break came with Unicode 15.1; its definition, with the scripts that Unicode 17.0 has, on the older data.
scripts = where("sc", "Balinese", "Bengali", "Chakma", "Devanagari", "DivesAkuru", "Gujarati", "Javanese", "Kawi",
                "Kharoshthi", "Khmer", "Malayalam", "MeeteiMayek", "Myanmar", "Oriya", "Soyombo", "Sundanese",
                "TaiTham", "Telugu", "ZanabazarSquare")
gcb["InCBConsonant"] = where("InSC", "Consonant") & scripts
gcb["InCBLinker"] = where("InSC", "Virama", "InvisibleStacker") & scripts
gcb["InCBExtend"] = (gcb["Extend"] | gcb["ZWJ"]) - gcb["InCBLinker"] - {0x200C}
wb = {n: where("WB", n) for n in ("CR", "LF", "Newline", "Extend", "ZWJ", "Format", "RegionalIndicator", "Katakana",
                                  "HebrewLetter", "SingleQuote", "DoubleQuote", "MidNumLet", "MidLetter", "MidNum",
                                  "Numeric", "ExtendNumLet")}
wb["ALetter"] = where("WB", "ALetter", "ExtPictLE")          # Perl keeps pictographic letters apart
wb["WSegSpace"] = where("gc", "Zs") - where("lb", "GL", "Glue")   # UAX #29, table 3; Perl has its own value
wb["ExtendedPictographic"] = extpict
sb = {n: where("SB", n) for n in ("CR", "LF", "Sep", "Extend", "Format", "Sp", "Lower", "Upper", "OLetter", "Numeric",
                                  "ATerm", "SContinue", "STerm", "Close")}

def spec(pkg, typ, fn, doc, data):
    vals, ship = shipped(pkg)
    L = [f"import Verif.Spec.{typ[1]}", "/-!", "GENERATED by tools/gen_ucd.py. Do not edit.", doc, "-/",
         "set_option maxRecDepth 4000", "namespace Uax29.Spec.Ucd"]
    for n, s in data.items():
        L.append(f"/-- Unicode 15.0: {n}. -/")
        L.append(f"def {fn}{n} : List (Nat × Nat) :=\n   {lean_ranges(s)}")
        d = s ^ ship[n]
        if d:
            L.append(f"/-- What the table of package {pkg} treats differently: {n}. -/")
            L.append(f"def {fn}{n}Changed : List (Nat × Nat) :=\n   {lean_ranges(d)}")
    L.append(f"/-- The ranges of a property value in Unicode 15.0. -/\ndef {fn} : {typ[0]} → List (Nat × Nat)")
    L += [f"  | .{n} => {fn}{n}" for n in data]
    rest = len(data) < {"GB": 17, "WB": 19, "SB": 15}[typ[0]]
    if rest:
        L.append("  | _ => []")
    L.append(f"/-- The code points that package {pkg} treats differently. -/\ndef {fn}Changed : {typ[0]} → List (Nat × Nat)")
    ch = [n for n in data if data[n] ^ ship[n]]
    L += [f"  | .{n} => {fn}{n}Changed" for n in ch]
    L.append("  | _ => []")
    L.append("end Uax29.Spec.Ucd")
    open(f"{out}/Spec/Ucd/{pkg.capitalize()}.lean", "w").write("\n".join(L) + "\n")
    runs = []
    for v in vals:
        if runs and runs[-1][1] == v:
            runs[-1][0] += 1
        else:
            runs.append([1, v])
    items = [f"({k}, {v})" for k, v in runs]
    P = pkg.capitalize()
    open(f"{out}/Table/{P}Runs.lean", "w").write(
        f"/-!\nGENERATED by tools/gen_ucd.py from {pkg}/trie.go. Do not edit.\n"
        f"The table as runs (length, entry) over all code points, checked in Verif/Proofs/Runs{P}.lean.\n-/\n"
        f"set_option maxRecDepth 8000\nnamespace Uax29.{P}\n/-- The runs of the table. -/\n"
        "def runs : List (Nat × Nat) :=\n  [" + ",\n   ".join(", ".join(items[i:i + 8]) for i in range(0, len(items), 8))
        + f"]\nend Uax29.{P}\n")
    print(pkg, len(runs), {n: len(ranges(data[n] ^ ship[n])) for n in ch})

spec("graphemes", ("GB", "GraphemeRules"), "gcb", "Grapheme_Cluster_Break and Extended_Pictographic in Unicode 15.0.", gcb)
spec("words", ("WB", "WordRules"), "wb", "Word_Break and Extended_Pictographic in Unicode 15.0.", wb)
vals, ship = shipped("words")
bleve = wb["Katakana"] | where("sc", "Han", "Hiragana")
assert ship["BleveIdeographic"] == bleve
open(f"{out}/Spec/Ucd/Scripts.lean", "w").write(
    "/-!\nGENERATED by tools/gen_ucd.py. Do not edit.\nTwo scripts in Unicode 15.0.\n-/\nnamespace Uax29.Spec.Ucd\n"
    "/-- Unicode 15.0: Script=Han. -/\ndef han : List (Nat × Nat) :=\n   " + lean_ranges(where("sc", "Han"))
    + "\n/-- Unicode 15.0: Script=Hiragana. -/\ndef hiragana : List (Nat × Nat) :=\n   "
    + lean_ranges(where("sc", "Hiragana")) + "\nend Uax29.Spec.Ucd\n")
spec("sentences", ("SB", "SentenceRules"), "sb", "Sentence_Break in Unicode 15.0.", sb)
