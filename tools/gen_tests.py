#!/usr/bin/env python3
"""Transcribe the test tables in /repo/*/*_test.go to Lean, for evaluation in the model.

usage: gen_tests.py [/repo] [/verif/lean/Verif/Tests]
"""
import re, sys
repo = sys.argv[1] if len(sys.argv) > 1 else "/repo"
out = sys.argv[2] if len(sys.argv) > 2 else "/verif/lean/Verif/Tests"

TOK = re.compile(r'''\s+|//[^\n]*|"(?:[^"\\]|\\.)*"|`[^`]*`|'(?:[^'\\]|\\.)+'|[A-Za-z_]\w*|0x[0-9a-fA-F]+|\d+|.''', re.S)

def tokens(text):
    return [t for t in TOK.findall(text) if not t.isspace() and not t.startswith("//")]

def unquote(t):
    """The bytes of a Go string literal."""
    if t[0] == "`":
        return t[1:-1].encode()
    res, i, s = b"", 1, t[:-1]
    simple = {"n": 10, "r": 13, "t": 9, "\\": 92, '"': 34, "'": 39, "a": 7, "b": 8, "f": 12, "v": 11}
    while i < len(s):
        if s[i] != "\\":
            res += s[i].encode(); i += 1
        elif s[i + 1] == "x":
            res += bytes([int(s[i + 2:i + 4], 16)]); i += 4
        elif s[i + 1] in "uU":
            n = 4 if s[i + 1] == "u" else 8
            res += chr(int(s[i + 2:i + 2 + n], 16)).encode(); i += 2 + n
        elif s[i + 1] in "01234567":
            res += bytes([int(s[i + 1:i + 4], 8)]); i += 4
        else:
            res += bytes([simple[s[i + 1]]]); i += 2
    return res

class Parser:
    """Composite literals: lists, keyed structs, strings, numbers, names, `a | b`, `[]byte("x")`, `-1`."""
    def __init__(self, toks, pos):
        self.t, self.i = toks, pos
    def peek(self):
        return self.t[self.i]
    def next(self):
        self.i += 1
        return self.t[self.i - 1]
    def expect(self, x):
        y = self.next()
        assert x == y, (x, y, self.t[self.i - 5:self.i + 5])
    def body(self):
        self.expect("{")
        items, keyed = [], {}
        while self.peek() != "}":
            v = self.value()
            if self.peek() == ":":
                self.next()
                keyed[v] = self.value()
            else:
                items.append(v)
            if self.peek() == ",":
                self.next()
        self.next()
        return keyed or items
    def value(self):
        v = self.single()
        if self.peek() in ("|", "+"):
            vs = [v]
            while self.peek() in ("|", "+"):
                op = self.next()
                vs.append(self.single())
            return tuple(vs) if op == "|" else b"".join(vs)
        return v
    def single(self):
        t = self.peek()
        if t == "{":
            return self.body()
        if t == "[":
            while self.peek() in ("[", "]") or self.peek().isdigit():
                self.next()
            return self.single()
        if t[0] in '"`':
            return unquote(self.next())
        if t == "-":
            self.next()
            return -int(self.next(), 0)
        if t[0].isdigit():
            return int(self.next(), 0)
        self.next()
        while self.peek() == ".":
            self.next()
            t = self.next()
        if self.peek() == "(":
            self.next()
            v = self.value()
            self.expect(")")
            return v
        if self.peek() == "{":
            return self.body()
        return t

def tables(path):
    """All `tests := []T{...}` and `var xTests = ...{...}` of a file, with the name of the function."""
    text = open(f"{repo}/{path}").read()
    toks = tokens(text)
    res, fn = [], ""
    for i, t in enumerate(toks):
        if t == "func" and toks[i + 1].startswith("Test"):
            fn = toks[i + 1]
        if t == "tests" and toks[i + 1:i + 3] == [":", "="] or t == "var" and toks[i + 2:i + 4] == ["=", "["]:
            j = i + 3
            while toks[j] in ("[", "]") or toks[j].isdigit():
                j += 1
            if toks[j] == "struct":
                while toks[j] != "}":
                    j += 1
            j += 1
            if toks[j] != "{":
                continue
            res.append((fn if t == "tests" else toks[i + 1], Parser(toks, j).body()))
    return res

def nats(b):
    return "[" + ", ".join(map(str, b)) + "]"

def wrap(items):
    return "[" + ",\n   ".join(items) + "]"

def write(name, imports, body):
    open(f"{out}/{name}.lean", "w").write(
        "".join(f"import {m}\n" for m in imports)
        + "/-!\nGENERATED by tools/gen_tests.py from the tests in /repo. Do not edit.\n-/\n"
        + "set_option maxRecDepth 20000\nnamespace Uax29.Tests\n\n" + body + "\nend Uax29.Tests\n")

def tokenTable(name, doc, cases, check):
    """cases: lists of expected tokens, whose concatenation is the input"""
    return (f"/-- {doc}: the expected tokens. -/\ndef {name} : List (List (List Nat)) :=\n  "
            + wrap("[" + ", ".join(nats(t) for t in c) + "]" for c in cases) + "\n\n"
            + f"theorem {name}_pass : ({name}.all {check}) = true := by decide +kernel\n\n")

def firstTable(name, doc, cases, check):
    """cases: rest of the input, and the expected first token"""
    return (f"/-- {doc}: the input and its first token. -/\ndef {name} : List (List Nat × List Nat) :=\n  "
            + wrap(f"({nats(a)}, {nats(b)})" for a, b in cases) + "\n\n"
            + f"theorem {name}_pass : ({name}.all {check}) = true := by decide +kernel\n\n")

count = 0
for pkg in ("graphemes", "words", "phrases", "sentences"):
    P = pkg.capitalize()
    if pkg != "phrases":
        (_, t), = tables(f"{pkg}/unicode_test.go")
        for c in t:
            assert bytes(c["input"]) == b"".join(map(bytes, c["expected"]))
        count += len(t)
        write(P + "Unicode", ["Verif.Tests.Check"],
              tokenTable(f"{pkg}Unicode", f"{pkg}/unicode_test.go", [c["expected"] for c in t], f"(tokensAre .{pkg})"))
    body = ""
    for fn, t in tables(f"{pkg}/string_test.go"):
        n = pkg + fn
        doc = f"{fn} in {pkg}/string_test.go"
        key = "expected" if "expected" in t[0] else "expect"
        count += len(t)
        if isinstance(t[0][key], list):
            for c in t:
                assert c["input"] == b"".join(c[key]), c
            body += tokenTable(n, doc, [c[key] for c in t], f"(tokensAre .{pkg})")
        else:
            body += firstTable(n, doc, [(c["input"], c[key]) for c in t], f"(firstIs .{pkg})")
    if pkg == "graphemes":
        ts = dict(tables("graphemes/ansi_test.go"))
        for fn, o in (("TestAnsiEscapeSequences7BitOnlyAsGraphemes", "⟨true, false⟩"),
                      ("TestAnsiEscapeSequences8BitOnlyAsGraphemes", "⟨false, true⟩"),
                      ("TestAnsiEscapeSequencesBothEnabledAsGraphemes", "⟨true, true⟩")):
            t = ts[fn]
            count += len(t)
            for c in t:
                assert c["input"] == b"".join(c["expected"]), c
            body += tokenTable(pkg + fn, f"{fn} in graphemes/ansi_test.go", [c["expected"] for c in t],
                               f"(ansiTokensAre {o})")
        print({k: len(v) for k, v in ts.items()})
    else:
        (fn, t), = tables(f"{pkg}/seek_test.go")
        count += len(t)
        def mask(p):
            return " ||| ".join(f"{P}.{x}" for x in (p if isinstance(p, tuple) else (p,)))
        body += (f"/-- {fn} in {pkg}/seek_test.go: properties, data, atEOF and the expected result. -/\n"
                 f"def {pkg}{fn} : List (Nat × List Nat × Bool × Int × Bool) :=\n  "
                 + wrap(f"({mask(c['properties'])}, {nats(c['data'])}, {c['atEOF']}, "
                        f"{-1 if c['expectAdvance'] == 'notfound' else c['expectAdvance']}, {c['expectMore']})" for c in t) + "\n\n"
                 f"theorem {pkg}{fn}_pass : ({pkg}{fn}.all (subsequentIs {P}.trie {P}._Ignore)) = true := by decide +kernel\n\n")
    if pkg == "words":
        text = open(f"{repo}/words/joiners_test.go").read()
        inp = unquote(re.search(r'joinersInput = \[\]byte\((".*?")\)', text).group(1))
        (fn, t), = tables("words/joiners_test.go")
        count += len(t)
        body += (f"/-- joinersInput in words/joiners_test.go. -/\ndef joinersInput : List Nat :=\n  {nats(inp)}\n\n"
                 "/-- joinersTests in words/joiners_test.go: a word, is it found without, is it found with joiners. -/\n"
                 "def joinersTests : List (List Nat × Bool × Bool) :=\n  "
                 + wrap(f"({nats(c[0])}, {c[1]}, {c[2]})" for c in t) + "\n\n"
                 "theorem joinersTests_pass : (joinersTests.all (joinersFind joinersInput)) = true := by decide +kernel\n\n")
        (fn, t), = tables("words/bleve_compat_test.go")
        count += len(t)
        assert all(c["input"] == b"".join(c["output"]) for c in t)
        body += tokenTable("words" + fn, f"{fn} in words/bleve_compat_test.go", [c["output"] for c in t], "(tokensAre .words)")
        kinds = [(o, k) for c in t for o, k in zip(c["output"], c["outputTypes"])]
        body += (f"/-- The kinds of the tokens in {fn}: BleveNumeric, BleveIdeographic. -/\n"
                 "def bleveKinds : List (List Nat × Bool × Bool) :=\n  "
                 + wrap(f"({nats(o)}, {str(k == 'number').lower()}, {str(k == 'ideo').lower()})" for o, k in kinds) + "\n\n"
                 "theorem bleveKinds_pass : (bleveKinds.all bleveKind) = true := by decide +kernel\n\n")
    write(P, ["Verif.Tests.Check"], body)
print(count, "tests")
