import Verif.Model.Chars
/-!
GENERATED by tools/gen_source.py from phrases/splitfunc.go, phrases/seek.go, phrases/iterator.go, phrases/reader.go. Do not edit.
-/
set_option maxRecDepth 100000
namespace Uax29.Phrases.Text
/-- phrases/splitfunc.go, every line with its end left out. -/
def splitfunc : List (List Char) :=
  [chars "package phrases",
   chars "",
   chars "import (",
   chars "\t\"bufio\"",
   chars ")",
   chars "",
   chars "// is determines if lookup intersects propert(ies)",
   chars "func (lookup property) is(properties property) bool {",
   chars "\treturn (lookup & properties) != 0",
   chars "}",
   chars "",
   chars "const (",
   chars "\t_AHLetter   = _ALetter | _HebrewLetter | _ExtendedPictographic // _ExtendedPictographic is added for phrases (vs words)",
   chars "\t_MidNumLetQ = _MidNumLet | _SingleQuote",
   chars "\t_Ignore     = _Extend | _Format | _ZWJ",
   chars ")",
   chars "",
   chars "// SplitFunc is a bufio.SplitFunc implementation of phrase segmentation, for use with bufio.Scanner.",
   chars "var SplitFunc bufio.SplitFunc = splitFunc[[]byte]",
   chars "",
   chars "// splitFunc is a bufio.SplitFunc implementation of phrase segmentation, for use with bufio.Scanner.",
   chars "func splitFunc[T ~string | ~[]byte](data T, atEOF bool) (advance int, token T, err error) {",
   chars "\tvar empty T",
   chars "\tif len(data) == 0 {",
   chars "\t\treturn 0, empty, nil",
   chars "\t}",
   chars "",
   chars "\t// These vars are stateful across loop iterations",
   chars "\tvar pos int",
   chars "\tvar lastExIgnore property     // \"last excluding ignored categories\"",
   chars "\tvar lastLastExIgnore property // \"the last one before that\"",
   chars "\tvar regionalIndicatorCount int",
   chars "",
   chars "\t// Rules are usually of the form Cat1 × Cat2; \"current\" refers to the first property",
   chars "\t// to the right of the ×, from which we look back or forward",
   chars "",
   chars "\tcurrent, w := lookup(data[pos:])",
   chars "\tif w == 0 {",
   chars "\t\tif !atEOF {",
   chars "\t\t\t// Rune extends past current data, request more",
   chars "\t\t\treturn 0, empty, nil",
   chars "\t\t}",
   chars "\t\tpos = len(data)",
   chars "\t\treturn pos, data[:pos], nil",
   chars "\t}",
   chars "",
   chars "\t// https://unicode.org/reports/tr29/#WB1",
   chars "\t// Start of text always advances",
   chars "\tpos += w",
   chars "",
   chars "\tfor {",
   chars "\t\teot := pos == len(data) // \"end of text\"",
   chars "",
   chars "\t\tif eot {",
   chars "\t\t\tif !atEOF {",
   chars "\t\t\t\t// Token extends past current data, request more",
   chars "\t\t\t\treturn 0, empty, nil",
   chars "\t\t\t}",
   chars "",
   chars "\t\t\t// https://unicode.org/reports/tr29/#WB2",
   chars "\t\t\tbreak",
   chars "\t\t}",
   chars "",
   chars "\t\t// Remember previous properties to avoid lookups/lookbacks",
   chars "\t\tlast := current",
   chars "\t\tif !last.is(_Ignore) {",
   chars "\t\t\tlastLastExIgnore = lastExIgnore",
   chars "\t\t\tlastExIgnore = last",
   chars "\t\t}",
   chars "",
   chars "\t\tcurrent, w = lookup(data[pos:])",
   chars "\t\tif w == 0 {",
   chars "\t\t\tif atEOF {",
   chars "\t\t\t\t// Just return the bytes, we can't do anything with them",
   chars "\t\t\t\tpos = len(data)",
   chars "\t\t\t\tbreak",
   chars "\t\t\t}",
   chars "\t\t\t// Rune extends past current data, request more",
   chars "\t\t\treturn 0, empty, nil",
   chars "\t\t}",
   chars "",
   chars "\t\t// Optimization: no rule can possibly apply",
   chars "\t\tif current|last == 0 { // i.e. both are zero",
   chars "\t\t\tbreak",
   chars "\t\t}",
   chars "",
   chars "\t\t// https://unicode.org/reports/tr29/#WB3",
   chars "\t\tif current.is(_LF) && last.is(_CR) {",
   chars "\t\t\tpos += w",
   chars "\t\t\tcontinue",
   chars "\t\t}",
   chars "",
   chars "\t\t// https://unicode.org/reports/tr29/#WB3a",
   chars "\t\t// https://unicode.org/reports/tr29/#WB3b",
   chars "\t\tif (last | current).is(_Newline | _CR | _LF) {",
   chars "\t\t\tbreak",
   chars "\t\t}",
   chars "",
   chars "\t\t// https://unicode.org/reports/tr29/#WB3c",
   chars "\t\tif current.is(_ExtendedPictographic) && last.is(_ZWJ) {",
   chars "\t\t\tpos += w",
   chars "\t\t\tcontinue",
   chars "\t\t}",
   chars "",
   chars "\t\t// https://unicode.org/reports/tr29/#WB3d",
   chars "\t\tif (current & last).is(_WSegSpace) {",
   chars "\t\t\tpos += w",
   chars "\t\t\tcontinue",
   chars "\t\t}",
   chars "",
   chars "\t\t// https://unicode.org/reports/tr29/#WB4",
   chars "\t\tif current.is(_Extend | _Format | _ZWJ) {",
   chars "\t\t\tpos += w",
   chars "\t\t\tcontinue",
   chars "\t\t}",
   chars "",
   chars "\t\t// WB4 applies to subsequent rules; there is an implied \"ignoring Extend & Format & ZWJ\"",
   chars "\t\t// https://unicode.org/reports/tr29/#Grapheme_Cluster_and_Format_Rules",
   chars "\t\t// The previous/subsequent methods are shorthand for \"seek a property but skip over Extend|Format|ZWJ on the way\"",
   chars "",
   chars "\t\t// https://unicode.org/reports/tr29/#WB5",
   chars "\t\tif current.is(_AHLetter) && lastExIgnore.is(_AHLetter) {",
   chars "\t\t\tpos += w",
   chars "\t\t\tcontinue",
   chars "\t\t}",
   chars "",
   chars "\t\t// https://unicode.org/reports/tr29/#WB6",
   chars "\t\tif current.is(_MidLetter|_MidNumLetQ) && lastExIgnore.is(_AHLetter) {",
   chars "\t\t\tadvance, more := subsequent(_AHLetter, data[pos+w:], atEOF)",
   chars "",
   chars "\t\t\tif more {",
   chars "\t\t\t\t// Token extends past current data, request more",
   chars "\t\t\t\treturn 0, empty, nil",
   chars "\t\t\t}",
   chars "",
   chars "\t\t\tif advance != notfound {",
   chars "\t\t\t\tpos += w + advance",
   chars "\t\t\t\tcontinue",
   chars "\t\t\t}",
   chars "\t\t}",
   chars "",
   chars "\t\t// https://unicode.org/reports/tr29/#WB7",
   chars "\t\tif current.is(_AHLetter) && lastExIgnore.is(_MidLetter|_MidNumLetQ) && lastLastExIgnore.is(_AHLetter) {",
   chars "\t\t\tpos += w",
   chars "\t\t\tcontinue",
   chars "\t\t}",
   chars "",
   chars "\t\t// https://unicode.org/reports/tr29/#WB7a",
   chars "\t\tif current.is(_SingleQuote) && lastExIgnore.is(_HebrewLetter) {",
   chars "\t\t\tpos += w",
   chars "\t\t\tcontinue",
   chars "\t\t}",
   chars "",
   chars "\t\t// https://unicode.org/reports/tr29/#WB7b",
   chars "\t\tif current.is(_DoubleQuote) && lastExIgnore.is(_HebrewLetter) {",
   chars "\t\t\tadvance, more := subsequent(_HebrewLetter, data[pos+w:], atEOF)",
   chars "",
   chars "\t\t\tif more {",
   chars "\t\t\t\t// Token extends past current data, request more",
   chars "\t\t\t\treturn 0, empty, nil",
   chars "\t\t\t}",
   chars "",
   chars "\t\t\tif advance != notfound {",
   chars "\t\t\t\tpos += w + advance",
   chars "\t\t\t\tcontinue",
   chars "\t\t\t}",
   chars "\t\t}",
   chars "",
   chars "\t\t// https://unicode.org/reports/tr29/#WB7c",
   chars "\t\tif current.is(_HebrewLetter) && lastExIgnore.is(_DoubleQuote) && lastLastExIgnore.is(_HebrewLetter) {",
   chars "\t\t\tpos += w",
   chars "\t\t\tcontinue",
   chars "\t\t}",
   chars "",
   chars "\t\t// https://unicode.org/reports/tr29/#WB8",
   chars "\t\t// https://unicode.org/reports/tr29/#WB9",
   chars "\t\t// https://unicode.org/reports/tr29/#WB10",
   chars "\t\t// _WSegSpace is added for phrases: treat spaces adjacent to words as non-breaking.",
   chars "\t\tif current.is(_Numeric|_AHLetter|_WSegSpace) && lastExIgnore.is(_Numeric|_AHLetter|_WSegSpace) {",
   chars "\t\t\tpos += w",
   chars "\t\t\tcontinue",
   chars "\t\t}",
   chars "",
   chars "\t\t// https://unicode.org/reports/tr29/#WB11",
   chars "\t\tif current.is(_Numeric) && lastExIgnore.is(_MidNum|_MidNumLetQ) && lastLastExIgnore.is(_Numeric) {",
   chars "\t\t\tpos += w",
   chars "\t\t\tcontinue",
   chars "\t\t}",
   chars "",
   chars "\t\t// https://unicode.org/reports/tr29/#WB12",
   chars "\t\tif current.is(_MidNum|_MidNumLetQ) && lastExIgnore.is(_Numeric) {",
   chars "\t\t\tadvance, more := subsequent(_Numeric, data[pos+w:], atEOF)",
   chars "",
   chars "\t\t\tif more {",
   chars "\t\t\t\t// Token extends past current data, request more",
   chars "\t\t\t\treturn 0, empty, nil",
   chars "\t\t\t}",
   chars "",
   chars "\t\t\tif advance != notfound {",
   chars "\t\t\t\tpos += w + advance",
   chars "\t\t\t\tcontinue",
   chars "\t\t\t}",
   chars "\t\t}",
   chars "",
   chars "\t\t// https://unicode.org/reports/tr29/#WB13",
   chars "\t\tif current.is(_Katakana) && lastExIgnore.is(_Katakana) {",
   chars "\t\t\tpos += w",
   chars "\t\t\tcontinue",
   chars "\t\t}",
   chars "",
   chars "\t\t// https://unicode.org/reports/tr29/#WB13a",
   chars "\t\tif current.is(_ExtendNumLet) && lastExIgnore.is(_AHLetter|_Numeric|_Katakana|_ExtendNumLet) {",
   chars "\t\t\tpos += w",
   chars "\t\t\tcontinue",
   chars "\t\t}",
   chars "",
   chars "\t\t// https://unicode.org/reports/tr29/#WB13b",
   chars "\t\tif current.is(_AHLetter|_Numeric|_Katakana) && lastExIgnore.is(_ExtendNumLet) {",
   chars "\t\t\tpos += w",
   chars "\t\t\tcontinue",
   chars "\t\t}",
   chars "",
   chars "\t\t// https://unicode.org/reports/tr29/#WB15 and",
   chars "\t\t// https://unicode.org/reports/tr29/#WB16",
   chars "\t\tif current.is(_RegionalIndicator) && lastExIgnore.is(_RegionalIndicator) {",
   chars "\t\t\tregionalIndicatorCount++",
   chars "",
   chars "\t\t\todd := regionalIndicatorCount%2 == 1",
   chars "\t\t\tif odd {",
   chars "\t\t\t\tpos += w",
   chars "\t\t\t\tcontinue",
   chars "\t\t\t}",
   chars "\t\t}",
   chars "",
   chars "\t\t// https://unicode.org/reports/tr29/#WB999",
   chars "\t\t// If we fall through all the above rules, it's a phrase break",
   chars "\t\tbreak",
   chars "\t}",
   chars "",
   chars "\treturn pos, data[:pos], nil",
   chars "}"]
/-- phrases/seek.go, every line with its end left out. -/
def seek : List (List Char) :=
  [chars "package phrases",
   chars "",
   chars "const notfound = -1",
   chars "",
   chars "// subsequent looks ahead in the buffer until it hits a rune in properties,",
   chars "// ignoring runes with the _Ignore property per WB4",
   chars "func subsequent[T ~string | ~[]byte](properties property, data T, atEOF bool) (advance int, more bool) {",
   chars "\ti := 0",
   chars "\tfor i < len(data) {",
   chars "\t\tlookup, w := lookup(data[i:])",
   chars "\t\tif w == 0 {",
   chars "\t\t\tif atEOF {",
   chars "\t\t\t\t// Nothing more to evaluate",
   chars "\t\t\t\treturn notfound, false",
   chars "\t\t\t}",
   chars "\t\t\t// More to evaluate - return notfound to indicate no match found yet",
   chars "\t\t\treturn notfound, true",
   chars "\t\t}",
   chars "",
   chars "\t\tif lookup.is(_Ignore) {",
   chars "\t\t\ti += w",
   chars "\t\t\tcontinue",
   chars "\t\t}",
   chars "",
   chars "\t\tif lookup.is(properties) {",
   chars "\t\t\t// Found it",
   chars "\t\t\treturn i, false",
   chars "\t\t}",
   chars "",
   chars "\t\t// If we see a non-ignored character that doesn't match,",
   chars "\t\t// the property is definitely not \"immediately subsequent\"",
   chars "\t\treturn notfound, false",
   chars "\t}",
   chars "",
   chars "\t// If we reach here, we've only seen ignored characters or incomplete runes",
   chars "\tif atEOF {",
   chars "\t\t// Nothing more to evaluate",
   chars "\t\treturn notfound, false",
   chars "\t}",
   chars "",
   chars "\t// Need more - return notfound to indicate no match found yet",
   chars "\treturn notfound, true",
   chars "}"]
/-- phrases/iterator.go, every line with its end left out. -/
def iterator : List (List Char) :=
  [chars "package phrases",
   chars "",
   chars "// FromString returns an iterator for the phrases in the input string.",
   chars "// Iterate while Next() is true, and access the phrase via Value().",
   chars "func FromString(s string) *Iterator[string] {",
   chars "\treturn &Iterator[string]{",
   chars "\t\tsplit: splitFuncString,",
   chars "\t\tdata:  s,",
   chars "\t}",
   chars "}",
   chars "",
   chars "// FromBytes returns an iterator for the phrases in the input bytes.",
   chars "// Iterate while Next() is true, and access the phrase via Value().",
   chars "func FromBytes(b []byte) *Iterator[[]byte] {",
   chars "\treturn &Iterator[[]byte]{",
   chars "\t\tsplit: splitFuncBytes,",
   chars "\t\tdata:  b,",
   chars "\t}",
   chars "}",
   chars "",
   chars "// Iterator is a generic iterator for phrases in strings or byte slices.",
   chars "type Iterator[T ~string | ~[]byte] struct {",
   chars "\tsplit func(T, bool) (int, T, error)",
   chars "\tdata  T",
   chars "\tpos   int",
   chars "\tstart int",
   chars "}",
   chars "",
   chars "var (",
   chars "\tsplitFuncString = splitFunc[string]",
   chars "\tsplitFuncBytes  = splitFunc[[]byte]",
   chars ")",
   chars "",
   chars "// isASCIIAlphanumericOrSpace returns true if b is in [a-zA-Z0-9 ]",
   chars "func isASCIIAlphanumericOrSpace(b byte) bool {",
   chars "\treturn (b >= 'a' && b <= 'z') || (b >= 'A' && b <= 'Z') || (b >= '0' && b <= '9') || b == ' '",
   chars "}",
   chars "",
   chars "// Next advances the iterator to the next phrase.",
   chars "// Returns false when there are no more phrases.",
   chars "func (iter *Iterator[T]) Next() bool {",
   chars "\tif iter.pos >= len(iter.data) {",
   chars "\t\treturn false",
   chars "\t}",
   chars "\titer.start = iter.pos",
   chars "",
   chars "\t// ASCII hot path: skip contiguous ASCII alphanumerics and spaces",
   chars "\t// These characters are guaranteed to stay together in a phrase (per WB8-10)",
   chars "\tfor iter.pos < len(iter.data) && isASCIIAlphanumericOrSpace(iter.data[iter.pos]) {",
   chars "\t\titer.pos++",
   chars "\t}",
   chars "",
   chars "\t// If we consumed all remaining data, we're done",
   chars "\tif iter.pos >= len(iter.data) {",
   chars "\t\treturn true",
   chars "\t}",
   chars "",
   chars "\t// If we skipped any ASCII, back up one so splitfunc has \"last\" context",
   chars "\tif iter.pos > iter.start {",
   chars "\t\titer.pos--",
   chars "\t}",
   chars "",
   chars "\t// Defer to splitfunc for the rest",
   chars "\tremaining := iter.data[iter.pos:]",
   chars "\tadvance, _, err := iter.split(remaining, true)",
   chars "\tif err != nil {",
   chars "\t\tpanic(err)",
   chars "\t}",
   chars "\tif advance <= 0 {",
   chars "\t\tpanic(\"splitFunc returned a zero or negative advance\")",
   chars "\t}",
   chars "\titer.pos += advance",
   chars "\tif iter.pos > len(iter.data) {",
   chars "\t\tpanic(\"splitFunc advanced beyond end of data\")",
   chars "\t}",
   chars "\treturn true",
   chars "}",
   chars "",
   chars "// Value returns the current phrase.",
   chars "func (iter *Iterator[T]) Value() T {",
   chars "\treturn iter.data[iter.start:iter.pos]",
   chars "}",
   chars "",
   chars "// Start returns the byte position of the current phrase in the original data.",
   chars "func (iter *Iterator[T]) Start() int {",
   chars "\treturn iter.start",
   chars "}",
   chars "",
   chars "// End returns the byte position after the current phrase in the original data.",
   chars "func (iter *Iterator[T]) End() int {",
   chars "\treturn iter.pos",
   chars "}",
   chars "",
   chars "// Reset resets the iterator to the beginning of the data.",
   chars "func (iter *Iterator[T]) Reset() {",
   chars "\titer.start = 0",
   chars "\titer.pos = 0",
   chars "}",
   chars "",
   chars "// SetText sets the data for the iterator to operate on, and resets all state.",
   chars "func (iter *Iterator[T]) SetText(data T) {",
   chars "\titer.data = data",
   chars "\titer.start = 0",
   chars "\titer.pos = 0",
   chars "}",
   chars "",
   chars "// First returns the first phrase without advancing the iterator.",
   chars "func (iter *Iterator[T]) First() T {",
   chars "\tif len(iter.data) == 0 {",
   chars "\t\treturn iter.data",
   chars "\t}",
   chars "",
   chars "\t// Use a copy to leverage Next()'s ASCII optimization",
   chars "\tcp := *iter",
   chars "\tcp.pos = 0",
   chars "\tcp.start = 0",
   chars "\tcp.Next()",
   chars "\treturn cp.Value()",
   chars "}"]
/-- phrases/reader.go, every line with its end left out. -/
def reader : List (List Char) :=
  [chars "// Package phrases implements Unicode phrase boundaries: https://unicode.org/reports/tr29/#phrase_Boundaries",
   chars "package phrases",
   chars "",
   chars "import (",
   chars "\t\"bufio\"",
   chars "\t\"io\"",
   chars ")",
   chars "",
   chars "type Scanner struct {",
   chars "\t*bufio.Scanner",
   chars "}",
   chars "",
   chars "// FromReader returns a Scanner, to split phrases. \"Phrase\" is defined as",
   chars "// a series of words separated only by spaces.",
   chars "//",
   chars "// It embeds a [bufio.Scanner], so you can use its methods.",
   chars "//",
   chars "// Iterate through phrases by calling Scan() until false, then check Err().",
   chars "func FromReader(r io.Reader) *Scanner {",
   chars "\tsc := bufio.NewScanner(r)",
   chars "\tsc.Split(SplitFunc)",
   chars "\treturn &Scanner{",
   chars "\t\tScanner: sc,",
   chars "\t}",
   chars "}"]
end Uax29.Phrases.Text
