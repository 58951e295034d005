import Verif.Model.Chars
/-!
GENERATED by tools/gen_source.py from sentences/splitfunc.go, sentences/seek.go, sentences/iterator.go, sentences/reader.go. Do not edit.
-/
set_option maxRecDepth 100000
namespace Uax29.Sentences.Text
/-- sentences/splitfunc.go, every line with its end left out. -/
def splitfunc : List (List Char) :=
  [chars "package sentences",
   chars "",
   chars "import (",
   chars "\t\"bufio\"",
   chars ")",
   chars "",
   chars "// is determines if lookup intersects propert(ies)",
   chars "func (lookup property) is(properties property) bool {",
   chars "\treturn (lookup & properties) != 0",
   chars "}",
   chars "",
   chars "const (",
   chars "\t_SATerm  = _STerm | _ATerm",
   chars "\t_ParaSep = _Sep | _CR | _LF",
   chars "\t_Ignore  = _Extend | _Format",
   chars ")",
   chars "",
   chars "// SplitFunc is a bufio.SplitFunc implementation of sentence segmentation, for use with bufio.Scanner.",
   chars "//",
   chars "// See https://unicode.org/reports/tr29/#Sentence_Boundaries.",
   chars "var SplitFunc bufio.SplitFunc = splitFunc[[]byte]",
   chars "",
   chars "// SplitFunc is a bufio.SplitFunc implementation of word segmentation, for use with bufio.Scanner.",
   chars "func splitFunc[T ~string | ~[]byte](data T, atEOF bool) (advance int, token T, err error) {",
   chars "\tvar empty T",
   chars "\tif len(data) == 0 {",
   chars "\t\treturn 0, empty, nil",
   chars "\t}",
   chars "",
   chars "\t// These vars are stateful across loop iterations",
   chars "\tvar pos int",
   chars "\tvar lastExIgnore property     // \"last excluding ignored categories\"",
   chars "\tvar lastLastExIgnore property // \"last one before that\"",
   chars "\tvar lastExIgnoreSp property",
   chars "\tvar lastExIgnoreClose property",
   chars "\tvar lastExIgnoreSpClose property",
   chars "\tvar lastExIgnoreParaSepSpClose property",
   chars "",
   chars "\t// Rules are usually of the form Cat1 × Cat2; \"current\" refers to the first property",
   chars "\t// to the right of the ×, from which we look back or forward",
   chars "",
   chars "\tcurrent, w := lookup(data[pos:])",
   chars "\tif w == 0 {",
   chars "\t\tif !atEOF {",
   chars "\t\t\t// Rune extends past current data, request more",
   chars "\t\t\treturn 0, empty, nil",
   chars "\t\t}",
   chars "\t\tpos = len(data)",
   chars "\t\treturn pos, data[:pos], nil",
   chars "\t}",
   chars "",
   chars "\t// https://unicode.org/reports/tr29/#SB1",
   chars "\t// Start of text always advances",
   chars "\tpos += w",
   chars "",
   chars "main:",
   chars "\tfor {",
   chars "\t\teot := pos == len(data) // \"end of text\"",
   chars "",
   chars "\t\tif eot {",
   chars "\t\t\tif !atEOF {",
   chars "\t\t\t\t// Token extends past current data, request more",
   chars "\t\t\t\treturn 0, empty, nil",
   chars "\t\t\t}",
   chars "",
   chars "\t\t\t// https://unicode.org/reports/tr29/#SB2",
   chars "\t\t\tbreak",
   chars "\t\t}",
   chars "",
   chars "\t\t// Remember previous properties to avoid lookups/lookbacks",
   chars "\t\tlast := current",
   chars "",
   chars "\t\tif !last.is(_Ignore) {",
   chars "\t\t\tlastLastExIgnore = lastExIgnore",
   chars "\t\t\tlastExIgnore = last",
   chars "\t\t}",
   chars "",
   chars "\t\tif !lastExIgnore.is(_Sp) {",
   chars "\t\t\tlastExIgnoreSp = lastExIgnore",
   chars "\t\t}",
   chars "",
   chars "\t\tif !lastExIgnore.is(_Close) {",
   chars "\t\t\tlastExIgnoreClose = lastExIgnore",
   chars "\t\t}",
   chars "",
   chars "\t\tif !lastExIgnoreSp.is(_Close) {",
   chars "\t\t\tlastExIgnoreSpClose = lastExIgnoreSp",
   chars "\t\t}",
   chars "",
   chars "\t\tif !lastExIgnoreSpClose.is(_ParaSep) {",
   chars "\t\t\tlastExIgnoreParaSepSpClose = lastExIgnoreSpClose",
   chars "\t\t}",
   chars "",
   chars "\t\tcurrent, w = lookup(data[pos:])",
   chars "\t\tif w == 0 {",
   chars "\t\t\tif atEOF {",
   chars "\t\t\t\t// Just return the bytes, we can't do anything with them",
   chars "\t\t\t\tpos = len(data)",
   chars "\t\t\t\tbreak",
   chars "\t\t\t}",
   chars "\t\t\t// Rune extends past current data, request more",
   chars "\t\t\treturn 0, empty, nil",
   chars "\t\t}",
   chars "",
   chars "\t\t// Optimization: no rule can possibly apply",
   chars "\t\tif current|last == 0 { // i.e. both are zero",
   chars "\t\t\tpos += w",
   chars "\t\t\tcontinue",
   chars "\t\t}",
   chars "",
   chars "\t\t// https://unicode.org/reports/tr29/#SB3",
   chars "\t\tif current.is(_LF) && last.is(_CR) {",
   chars "\t\t\tpos += w",
   chars "\t\t\tcontinue",
   chars "\t\t}",
   chars "",
   chars "\t\t// https://unicode.org/reports/tr29/#SB4",
   chars "\t\tif last.is(_ParaSep) {",
   chars "\t\t\tbreak",
   chars "\t\t}",
   chars "",
   chars "\t\t// https://unicode.org/reports/tr29/#SB5",
   chars "\t\tif current.is(_Extend | _Format) {",
   chars "\t\t\tpos += w",
   chars "\t\t\tcontinue",
   chars "\t\t}",
   chars "",
   chars "\t\t// SB5 applies to subsequent rules; there is an implied \"ignoring Extend & Format\"",
   chars "\t\t// https://unicode.org/reports/tr29/#Sentence_Boundary_Rules",
   chars "\t\t// The previous/subsequent methods are shorthand for \"seek a property but skip over Extend & Format on the way\"",
   chars "",
   chars "\t\t// https://unicode.org/reports/tr29/#SB6",
   chars "\t\tif current.is(_Numeric) && lastExIgnore.is(_ATerm) {",
   chars "\t\t\tpos += w",
   chars "\t\t\tcontinue",
   chars "\t\t}",
   chars "",
   chars "\t\t// https://unicode.org/reports/tr29/#SB7",
   chars "\t\tif current.is(_Upper) && lastExIgnore.is(_ATerm) && lastLastExIgnore.is(_Upper|_Lower) {",
   chars "\t\t\tpos += w",
   chars "\t\t\tcontinue",
   chars "\t\t}",
   chars "",
   chars "\t\t// https://unicode.org/reports/tr29/#SB8",
   chars "\t\tif lastExIgnoreSpClose.is(_ATerm) {",
   chars "\t\t\tp := pos",
   chars "",
   chars "\t\t\t// ( ¬(OLetter | Upper | Lower | ParaSep | SATerm) )*",
   chars "\t\t\t// Zero or more of not-the-above properties",
   chars "\t\t\tfor p < len(data) {",
   chars "\t\t\t\tlookup, w := lookup(data[p:])",
   chars "\t\t\t\tif w == 0 {",
   chars "\t\t\t\t\tif atEOF {",
   chars "\t\t\t\t\t\t// Just return the bytes, we can't do anything with them",
   chars "\t\t\t\t\t\tpos = len(data)",
   chars "\t\t\t\t\t\tbreak main",
   chars "\t\t\t\t\t}",
   chars "\t\t\t\t\t// Rune extends past current data, request more",
   chars "\t\t\t\t\treturn 0, empty, nil",
   chars "\t\t\t\t}",
   chars "",
   chars "\t\t\t\tif lookup.is(_OLetter | _Upper | _Lower | _ParaSep | _SATerm) {",
   chars "\t\t\t\t\tbreak",
   chars "\t\t\t\t}",
   chars "",
   chars "\t\t\t\tp += w",
   chars "\t\t\t}",
   chars "",
   chars "\t\t\tadvance, more := subsequent(_Lower, data[p:], atEOF)",
   chars "",
   chars "\t\t\tif more {",
   chars "\t\t\t\t// Rune or token extends past current data, request more",
   chars "\t\t\t\treturn 0, empty, nil",
   chars "\t\t\t}",
   chars "",
   chars "\t\t\tif advance != notfound {",
   chars "\t\t\t\tpos = p + advance",
   chars "\t\t\t\tcontinue",
   chars "\t\t\t}",
   chars "\t\t}",
   chars "",
   chars "\t\t// https://unicode.org/reports/tr29/#SB8a",
   chars "\t\tif current.is(_SContinue|_SATerm) && lastExIgnoreSpClose.is(_SATerm) {",
   chars "\t\t\tpos += w",
   chars "\t\t\tcontinue",
   chars "\t\t}",
   chars "",
   chars "\t\t// https://unicode.org/reports/tr29/#SB9",
   chars "\t\tif current.is(_Close|_Sp|_ParaSep) && lastExIgnoreClose.is(_SATerm) {",
   chars "\t\t\tpos += w",
   chars "\t\t\tcontinue",
   chars "\t\t}",
   chars "",
   chars "\t\t// https://unicode.org/reports/tr29/#SB10",
   chars "\t\tif current.is(_Sp|_ParaSep) && lastExIgnoreSpClose.is(_SATerm) {",
   chars "\t\t\tpos += w",
   chars "\t\t\tcontinue",
   chars "\t\t}",
   chars "",
   chars "\t\t// https://unicode.org/reports/tr29/#SB11",
   chars "\t\tif lastExIgnore.is(_SATerm) ||",
   chars "\t\t\t(lastExIgnore.is(_Close) && lastExIgnoreClose.is(_SATerm)) ||",
   chars "\t\t\t(lastExIgnore.is(_Sp) && lastExIgnoreSpClose.is(_SATerm)) ||",
   chars "\t\t\t(lastExIgnore.is(_ParaSep) && lastExIgnoreParaSepSpClose.is(_SATerm)) {",
   chars "\t\t\tbreak",
   chars "\t\t}",
   chars "",
   chars "\t\t// https://unicode.org/reports/tr29/#SB998",
   chars "\t\tpos += w",
   chars "\t}",
   chars "",
   chars "\t// Return token",
   chars "\treturn pos, data[:pos], nil",
   chars "}"]
/-- sentences/seek.go, every line with its end left out. -/
def seek : List (List Char) :=
  [chars "package sentences",
   chars "",
   chars "const notfound = -1",
   chars "",
   chars "// subsequent looks ahead in the buffer until it hits a rune in properties,",
   chars "// ignoring runes with the _Ignore property per SB5",
   chars "func subsequent[T ~string | ~[]byte](properties property, data T, atEOF bool) (advance int, more bool) {",
   chars "\ti := 0",
   chars "\tfor i < len(data) {",
   chars "\t\tlookup, w := lookup(data[i:])",
   chars "\t\tif w == 0 {",
   chars "\t\t\tif atEOF {",
   chars "\t\t\t\t// Nothing more to evaluate",
   chars "\t\t\t\treturn notfound, false",
   chars "\t\t\t}",
   chars "\t\t\t// More to evaluate - return notfound to indicate no match found yet",
   chars "\t\t\treturn notfound, true",
   chars "\t\t}",
   chars "",
   chars "\t\tif lookup.is(_Ignore) {",
   chars "\t\t\ti += w",
   chars "\t\t\tcontinue",
   chars "\t\t}",
   chars "",
   chars "\t\tif lookup.is(properties) {",
   chars "\t\t\t// Found it",
   chars "\t\t\treturn i, false",
   chars "\t\t}",
   chars "",
   chars "\t\t// If we see a non-ignored character that doesn't match,",
   chars "\t\t// the property is definitely not \"immediately subsequent\"",
   chars "\t\treturn notfound, false",
   chars "\t}",
   chars "",
   chars "\t// If we reach here, we've only seen ignored characters or incomplete runes",
   chars "\tif atEOF {",
   chars "\t\t// Nothing more to evaluate",
   chars "\t\treturn notfound, false",
   chars "\t}",
   chars "",
   chars "\t// Need more - return notfound to indicate no match found yet",
   chars "\treturn notfound, true",
   chars "}"]
/-- sentences/iterator.go, every line with its end left out. -/
def iterator : List (List Char) :=
  [chars "package sentences",
   chars "",
   chars "// FromString returns an iterator for the sentences in the input string.",
   chars "// Iterate while Next() is true, and access the sentence via Value().",
   chars "func FromString(s string) *Iterator[string] {",
   chars "\treturn &Iterator[string]{",
   chars "\t\tsplit: splitFuncString,",
   chars "\t\tdata:  s,",
   chars "\t}",
   chars "}",
   chars "",
   chars "// FromBytes returns an iterator for the sentences in the input bytes.",
   chars "// Iterate while Next() is true, and access the sentence via Value().",
   chars "func FromBytes(b []byte) *Iterator[[]byte] {",
   chars "\treturn &Iterator[[]byte]{",
   chars "\t\tsplit: splitFuncBytes,",
   chars "\t\tdata:  b,",
   chars "\t}",
   chars "}",
   chars "",
   chars "// Iterator is a generic iterator for sentences in strings or byte slices.",
   chars "type Iterator[T ~string | ~[]byte] struct {",
   chars "\tsplit func(T, bool) (int, T, error)",
   chars "\tdata  T",
   chars "\tpos   int",
   chars "\tstart int",
   chars "}",
   chars "",
   chars "var (",
   chars "\tsplitFuncString = splitFunc[string]",
   chars "\tsplitFuncBytes  = splitFunc[[]byte]",
   chars ")",
   chars "",
   chars "// isASCIIAlphanumericOrSpace returns true if b is in [a-zA-Z0-9 ]",
   chars "func isASCIIAlphanumericOrSpace(b byte) bool {",
   chars "\treturn (b >= 'a' && b <= 'z') || (b >= 'A' && b <= 'Z') || (b >= '0' && b <= '9') || b == ' '",
   chars "}",
   chars "",
   chars "// Next advances the iterator to the next sentence.",
   chars "// Returns false when there are no more sentences.",
   chars "func (iter *Iterator[T]) Next() bool {",
   chars "\tif iter.pos >= len(iter.data) {",
   chars "\t\treturn false",
   chars "\t}",
   chars "\titer.start = iter.pos",
   chars "",
   chars "\t// ASCII hot path: skip contiguous ASCII alphanumerics and spaces",
   chars "\t// These characters never trigger sentence breaks by themselves",
   chars "\tfor iter.pos < len(iter.data) && isASCIIAlphanumericOrSpace(iter.data[iter.pos]) {",
   chars "\t\titer.pos++",
   chars "\t}",
   chars "",
   chars "\t// If we consumed all remaining data, we're done",
   chars "\tif iter.pos >= len(iter.data) {",
   chars "\t\treturn true",
   chars "\t}",
   chars "",
   chars "\t// If we skipped any ASCII, back up one so splitfunc has \"last\" context",
   chars "\tif iter.pos > iter.start {",
   chars "\t\titer.pos--",
   chars "\t}",
   chars "",
   chars "\t// Defer to splitfunc for the rest",
   chars "\tremaining := iter.data[iter.pos:]",
   chars "\tadvance, _, err := iter.split(remaining, true)",
   chars "\tif err != nil {",
   chars "\t\tpanic(err)",
   chars "\t}",
   chars "\tif advance <= 0 {",
   chars "\t\tpanic(\"splitFunc returned a zero or negative advance\")",
   chars "\t}",
   chars "\titer.pos += advance",
   chars "\tif iter.pos > len(iter.data) {",
   chars "\t\tpanic(\"splitFunc advanced beyond end of data\")",
   chars "\t}",
   chars "\treturn true",
   chars "}",
   chars "",
   chars "// Value returns the current sentence.",
   chars "func (iter *Iterator[T]) Value() T {",
   chars "\treturn iter.data[iter.start:iter.pos]",
   chars "}",
   chars "",
   chars "// Start returns the byte position of the current sentence in the original data.",
   chars "func (iter *Iterator[T]) Start() int {",
   chars "\treturn iter.start",
   chars "}",
   chars "",
   chars "// End returns the byte position after the current sentence in the original data.",
   chars "func (iter *Iterator[T]) End() int {",
   chars "\treturn iter.pos",
   chars "}",
   chars "",
   chars "// Reset resets the iterator to the beginning of the data.",
   chars "func (iter *Iterator[T]) Reset() {",
   chars "\titer.start = 0",
   chars "\titer.pos = 0",
   chars "}",
   chars "",
   chars "// SetText sets the data for the iterator to operate on, and resets all state.",
   chars "func (iter *Iterator[T]) SetText(data T) {",
   chars "\titer.data = data",
   chars "\titer.start = 0",
   chars "\titer.pos = 0",
   chars "}",
   chars "",
   chars "// First returns the first sentence without advancing the iterator.",
   chars "func (iter *Iterator[T]) First() T {",
   chars "\tif len(iter.data) == 0 {",
   chars "\t\treturn iter.data",
   chars "\t}",
   chars "",
   chars "\t// Use a copy to leverage Next()'s ASCII optimization",
   chars "\tcp := *iter",
   chars "\tcp.pos = 0",
   chars "\tcp.start = 0",
   chars "\tcp.Next()",
   chars "\treturn cp.Value()",
   chars "}"]
/-- sentences/reader.go, every line with its end left out. -/
def reader : List (List Char) :=
  [chars "// Package sentences implements Unicode sentence boundaries: https://unicode.org/reports/tr29/#Sentence_Boundaries",
   chars "package sentences",
   chars "",
   chars "import (",
   chars "\t\"bufio\"",
   chars "\t\"io\"",
   chars ")",
   chars "",
   chars "type Scanner struct {",
   chars "\t*bufio.Scanner",
   chars "}",
   chars "",
   chars "// FromReader returns a Scanner, to split sentences per",
   chars "// https://unicode.org/reports/tr29/#Sentence_Boundaries.",
   chars "//",
   chars "// It embeds a [bufio.Scanner], so you can use its methods.",
   chars "//",
   chars "// Iterate through sentences by calling Scan() until false, then check Err().",
   chars "func FromReader(r io.Reader) *Scanner {",
   chars "\tsc := bufio.NewScanner(r)",
   chars "\tsc.Split(SplitFunc)",
   chars "\treturn &Scanner{",
   chars "\t\tScanner: sc,",
   chars "\t}",
   chars "}"]
end Uax29.Sentences.Text
