import Verif.Model.Chars
/-!
GENERATED by tools/gen_source.py from graphemes/splitfunc.go, graphemes/iterator.go, graphemes/ansi.go, graphemes/ansi8.go, graphemes/reader.go. Do not edit.
-/
set_option maxRecDepth 100000
namespace Uax29.Graphemes.Text
/-- graphemes/splitfunc.go, every line with its end left out. -/
def splitfunc : List (List Char) :=
  [chars "package graphemes",
   chars "",
   chars "import (",
   chars "\t\"bufio\"",
   chars ")",
   chars "",
   chars "// is determines if lookup intersects propert(ies)",
   chars "func (lookup property) is(properties property) bool {",
   chars "\treturn (lookup & properties) != 0",
   chars "}",
   chars "",
   chars "const _Ignore = _Extend",
   chars "",
   chars "// incbState tracks state for GB9c rule (Indic conjunct clusters)",
   chars "// Pattern: Consonant (Extend|Linker)* Linker (Extend|Linker)* × Consonant",
   chars "type incbState int",
   chars "",
   chars "const (",
   chars "\tincbNone      incbState = iota // initial/reset",
   chars "\tincbConsonant                  // seen Consonant, awaiting Linker",
   chars "\tincbLinker                     // seen Consonant and Linker (conjunct ready)",
   chars ")",
   chars "",
   chars "// SplitFunc is a bufio.SplitFunc implementation of Unicode grapheme cluster segmentation, for use with bufio.Scanner.",
   chars "//",
   chars "// See https://unicode.org/reports/tr29/#Grapheme_Cluster_Boundaries.",
   chars "var SplitFunc bufio.SplitFunc = splitFunc[[]byte]",
   chars "",
   chars "func splitFunc[T ~string | ~[]byte](data T, atEOF bool) (advance int, token T, err error) {",
   chars "\tvar empty T",
   chars "\tif len(data) == 0 {",
   chars "\t\treturn 0, empty, nil",
   chars "\t}",
   chars "",
   chars "\t// These vars are stateful across loop iterations",
   chars "\tvar pos int",
   chars "\tvar lastExIgnore property = 0     // \"last excluding ignored categories\"",
   chars "\tvar lastLastExIgnore property = 0 // \"last one before that\"",
   chars "\tvar regionalIndicatorCount int",
   chars "",
   chars "\t// GB9c state: tracking Indic conjunct clusters",
   chars "\tvar incb incbState",
   chars "",
   chars "\t// Rules are usually of the form Cat1 × Cat2; \"current\" refers to the first property",
   chars "\t// to the right of the ×, from which we look back or forward",
   chars "",
   chars "\tcurrent, w := lookup(data[pos:])",
   chars "\tif w == 0 {",
   chars "\t\tif !atEOF {",
   chars "\t\t\t// Rune extends past current data, request more",
   chars "\t\t\treturn 0, empty, nil",
   chars "\t\t}",
   chars "\t\tpos = len(data)",
   chars "\t\treturn pos, data[:pos], nil",
   chars "\t}",
   chars "",
   chars "\t// https://unicode.org/reports/tr29/#GB1",
   chars "\t// Start of text always advances",
   chars "\tpos += w",
   chars "",
   chars "\tfor {",
   chars "\t\teot := pos == len(data) // \"end of text\"",
   chars "",
   chars "\t\tif eot {",
   chars "\t\t\tif !atEOF {",
   chars "\t\t\t\t// Token extends past current data, request more",
   chars "\t\t\t\treturn 0, empty, nil",
   chars "\t\t\t}",
   chars "",
   chars "\t\t\t// https://unicode.org/reports/tr29/#GB2",
   chars "\t\t\tbreak",
   chars "\t\t}",
   chars "",
   chars "\t\t/*",
   chars "\t\t\tWe've switched the evaluation order of GB1↓ and GB2↑. It's ok:",
   chars "\t\t\tbecause we've checked for len(data) at the top of this function,",
   chars "\t\t\tsot and eot are mutually exclusive, order doesn't matter.",
   chars "\t\t*/",
   chars "",
   chars "\t\t// Rules are usually of the form Cat1 × Cat2; \"current\" refers to the first property",
   chars "\t\t// to the right of the ×, from which we look back or forward",
   chars "",
   chars "\t\t// Remember previous properties to avoid lookups/lookbacks",
   chars "\t\tlast := current",
   chars "\t\tif !last.is(_Ignore) {",
   chars "\t\t\tlastLastExIgnore = lastExIgnore",
   chars "\t\t\tlastExIgnore = last",
   chars "\t\t}",
   chars "",
   chars "\t\t// Update GB9c state based on what we just advanced past",
   chars "\t\tif last.is(_InCBConsonant | _InCBLinker | _InCBExtend) {",
   chars "\t\t\tswitch {",
   chars "\t\t\tcase last.is(_InCBConsonant):",
   chars "\t\t\t\tif incb != incbLinker {",
   chars "\t\t\t\t\tincb = incbConsonant",
   chars "\t\t\t\t}",
   chars "\t\t\tcase last.is(_InCBLinker):",
   chars "\t\t\t\tif incb >= incbConsonant {",
   chars "\t\t\t\t\tincb = incbLinker",
   chars "\t\t\t\t}",
   chars "\t\t\t\t// case last.is(_InCBExtend): stay in current state",
   chars "\t\t\t}",
   chars "\t\t} else {",
   chars "\t\t\tincb = incbNone",
   chars "\t\t}",
   chars "",
   chars "\t\tcurrent, w = lookup(data[pos:])",
   chars "\t\tif w == 0 {",
   chars "\t\t\tif atEOF {",
   chars "\t\t\t\t// Just return the bytes, we can't do anything with them",
   chars "\t\t\t\tpos = len(data)",
   chars "\t\t\t\tbreak",
   chars "\t\t\t}",
   chars "\t\t\t// Rune extends past current data, request more",
   chars "\t\t\treturn 0, empty, nil",
   chars "\t\t}",
   chars "",
   chars "\t\t// Optimization: no rule can possibly apply",
   chars "\t\tif current|last == 0 { // i.e. both are zero",
   chars "\t\t\tbreak",
   chars "\t\t}",
   chars "",
   chars "\t\t// https://unicode.org/reports/tr29/#GB3",
   chars "\t\tif current.is(_LF) && last.is(_CR) {",
   chars "\t\t\tpos += w",
   chars "\t\t\tcontinue",
   chars "\t\t}",
   chars "",
   chars "\t\t// https://unicode.org/reports/tr29/#GB4",
   chars "\t\t// https://unicode.org/reports/tr29/#GB5",
   chars "\t\tif (current | last).is(_Control | _CR | _LF) {",
   chars "\t\t\tbreak",
   chars "\t\t}",
   chars "",
   chars "\t\t// https://unicode.org/reports/tr29/#GB6",
   chars "\t\tif current.is(_L|_V|_LV|_LVT) && last.is(_L) {",
   chars "\t\t\tpos += w",
   chars "\t\t\tcontinue",
   chars "\t\t}",
   chars "",
   chars "\t\t// https://unicode.org/reports/tr29/#GB7",
   chars "\t\tif current.is(_V|_T) && last.is(_LV|_V) {",
   chars "\t\t\tpos += w",
   chars "\t\t\tcontinue",
   chars "\t\t}",
   chars "",
   chars "\t\t// https://unicode.org/reports/tr29/#GB8",
   chars "\t\tif current.is(_T) && last.is(_LVT|_T) {",
   chars "\t\t\tpos += w",
   chars "\t\t\tcontinue",
   chars "\t\t}",
   chars "",
   chars "\t\t// https://unicode.org/reports/tr29/#GB9",
   chars "\t\tif current.is(_Extend | _ZWJ) {",
   chars "\t\t\tpos += w",
   chars "\t\t\tcontinue",
   chars "\t\t}",
   chars "",
   chars "\t\t// https://unicode.org/reports/tr29/#GB9a",
   chars "\t\tif current.is(_SpacingMark) {",
   chars "\t\t\tpos += w",
   chars "\t\t\tcontinue",
   chars "\t\t}",
   chars "",
   chars "\t\t// https://unicode.org/reports/tr29/#GB9b",
   chars "\t\tif last.is(_Prepend) {",
   chars "\t\t\tpos += w",
   chars "\t\t\tcontinue",
   chars "\t\t}",
   chars "",
   chars "\t\t// https://unicode.org/reports/tr29/#GB9c",
   chars "\t\t// Do not break within certain combinations with Indic_Conjunct_Break (InCB)=Linker.",
   chars "\t\tif incb == incbLinker && current.is(_InCBConsonant) {",
   chars "\t\t\t// After matching the pattern, reset state to start tracking a new pattern",
   chars "\t\t\t// The current Consonant becomes the start of the new pattern",
   chars "\t\t\tincb = incbConsonant",
   chars "\t\t\tpos += w",
   chars "\t\t\tcontinue",
   chars "\t\t}",
   chars "",
   chars "\t\t// https://unicode.org/reports/tr29/#GB11",
   chars "\t\tif current.is(_ExtendedPictographic) && last.is(_ZWJ) && lastLastExIgnore.is(_ExtendedPictographic) {",
   chars "\t\t\tpos += w",
   chars "\t\t\tcontinue",
   chars "\t\t}",
   chars "",
   chars "\t\t// https://unicode.org/reports/tr29/#GB12",
   chars "\t\t// https://unicode.org/reports/tr29/#GB13",
   chars "\t\tif (current & last).is(_RegionalIndicator) {",
   chars "\t\t\tregionalIndicatorCount++",
   chars "",
   chars "\t\t\todd := regionalIndicatorCount%2 == 1",
   chars "\t\t\tif odd {",
   chars "\t\t\t\tpos += w",
   chars "\t\t\t\tcontinue",
   chars "\t\t\t}",
   chars "\t\t}",
   chars "",
   chars "\t\t// If we fall through all the above rules, it's a grapheme cluster break",
   chars "\t\tbreak",
   chars "\t}",
   chars "",
   chars "\t// Return token",
   chars "\treturn pos, data[:pos], nil",
   chars "}"]
/-- graphemes/iterator.go, every line with its end left out. -/
def iterator : List (List Char) :=
  [chars "package graphemes",
   chars "",
   chars "import \"unicode/utf8\"",
   chars "",
   chars "// FromString returns an iterator for the grapheme clusters in the input string.",
   chars "// Iterate while Next() is true, and access the grapheme via Value().",
   chars "func FromString(s string) *Iterator[string] {",
   chars "\treturn &Iterator[string]{",
   chars "\t\tsplit: splitFuncString,",
   chars "\t\tdata:  s,",
   chars "\t}",
   chars "}",
   chars "",
   chars "// FromBytes returns an iterator for the grapheme clusters in the input bytes.",
   chars "// Iterate while Next() is true, and access the grapheme via Value().",
   chars "func FromBytes(b []byte) *Iterator[[]byte] {",
   chars "\treturn &Iterator[[]byte]{",
   chars "\t\tsplit: splitFuncBytes,",
   chars "\t\tdata:  b,",
   chars "\t}",
   chars "}",
   chars "",
   chars "// Iterator is a generic iterator for grapheme clusters in strings or byte slices,",
   chars "// with an ASCII hot path optimization.",
   chars "type Iterator[T ~string | ~[]byte] struct {",
   chars "\tsplit func(T, bool) (int, T, error)",
   chars "\tdata  T",
   chars "\tpos   int",
   chars "\tstart int",
   chars "\t// AnsiEscapeSequences treats 7-bit ANSI escape sequences (ECMA-48) as",
   chars "\t// single grapheme clusters when true. The default is false.",
   chars "\t//",
   chars "\t// 8-bit controls are not enabled by this option. See [AnsiEscapeSequences8Bit].",
   chars "\tAnsiEscapeSequences bool",
   chars "\t// AnsiEscapeSequences8Bit treats 8-bit C1 ANSI escape sequences (ECMA-48) as single",
   chars "\t// grapheme clusters when true. The default is false.",
   chars "\t//",
   chars "\t// 8-bit control bytes are not UTF-8 encoded, i.e. not valid UTF-8. If you",
   chars "\t// choose this option, you are choosing to interpret non-UTF-8 data, caveat",
   chars "\t// emptor.",
   chars "\tAnsiEscapeSequences8Bit bool",
   chars "}",
   chars "",
   chars "var (",
   chars "\tsplitFuncString = splitFunc[string]",
   chars "\tsplitFuncBytes  = splitFunc[[]byte]",
   chars ")",
   chars "",
   chars "const (",
   chars "\tesc = 0x1B",
   chars "\tcr  = 0x0D",
   chars "\tbel = 0x07",
   chars "\tcan = 0x18",
   chars "\tsub = 0x1A",
   chars "\tst  = 0x9C",
   chars ")",
   chars "",
   chars "// Next advances the iterator to the next grapheme cluster.",
   chars "// Returns false when there are no more grapheme clusters.",
   chars "func (iter *Iterator[T]) Next() bool {",
   chars "\tif iter.pos >= len(iter.data) {",
   chars "\t\treturn false",
   chars "\t}",
   chars "\titer.start = iter.pos",
   chars "",
   chars "\tb := iter.data[iter.pos]",
   chars "\tif iter.AnsiEscapeSequences && b == esc {",
   chars "\t\tif a := ansiEscapeLength(iter.data[iter.pos:]); a > 0 {",
   chars "\t\t\titer.pos += a",
   chars "\t\t\treturn true",
   chars "\t\t}",
   chars "\t}",
   chars "\tif iter.AnsiEscapeSequences8Bit && b >= 0x80 && b <= 0x9F {",
   chars "\t\tif a := ansiEscapeLength8Bit(iter.data[iter.pos:]); a > 0 {",
   chars "\t\t\titer.pos += a",
   chars "\t\t\treturn true",
   chars "\t\t}",
   chars "\t}",
   chars "",
   chars "\t// ASCII hot path: any ASCII is one grapheme when next byte is ASCII or end.",
   chars "\tif b < utf8.RuneSelf && b != cr {",
   chars "\t\tif iter.pos+1 >= len(iter.data) || iter.data[iter.pos+1] < utf8.RuneSelf {",
   chars "\t\t\titer.pos++",
   chars "\t\t\treturn true",
   chars "\t\t}",
   chars "\t}",
   chars "",
   chars "\t// Fall back to UAX29 grapheme parsing",
   chars "\tremaining := iter.data[iter.pos:]",
   chars "\tadvance, _, err := iter.split(remaining, true)",
   chars "\tif err != nil {",
   chars "\t\tpanic(err)",
   chars "\t}",
   chars "\tif advance <= 0 {",
   chars "\t\tpanic(\"splitFunc returned a zero or negative advance\")",
   chars "\t}",
   chars "\titer.pos += advance",
   chars "\tif iter.pos > len(iter.data) {",
   chars "\t\tpanic(\"splitFunc advanced beyond end of data\")",
   chars "\t}",
   chars "\treturn true",
   chars "}",
   chars "",
   chars "// Value returns the current grapheme cluster.",
   chars "func (iter *Iterator[T]) Value() T {",
   chars "\treturn iter.data[iter.start:iter.pos]",
   chars "}",
   chars "",
   chars "// Start returns the byte position of the current grapheme in the original data.",
   chars "func (iter *Iterator[T]) Start() int {",
   chars "\treturn iter.start",
   chars "}",
   chars "",
   chars "// End returns the byte position after the current grapheme in the original data.",
   chars "func (iter *Iterator[T]) End() int {",
   chars "\treturn iter.pos",
   chars "}",
   chars "",
   chars "// Reset resets the iterator to the beginning of the data.",
   chars "func (iter *Iterator[T]) Reset() {",
   chars "\titer.start = 0",
   chars "\titer.pos = 0",
   chars "}",
   chars "",
   chars "// SetText sets the data for the iterator to operate on, and resets all state.",
   chars "func (iter *Iterator[T]) SetText(data T) {",
   chars "\titer.data = data",
   chars "\titer.start = 0",
   chars "\titer.pos = 0",
   chars "}",
   chars "",
   chars "// First returns the first grapheme cluster without advancing the iterator.",
   chars "func (iter *Iterator[T]) First() T {",
   chars "\tif len(iter.data) == 0 {",
   chars "\t\treturn iter.data",
   chars "\t}",
   chars "",
   chars "\t// Use a copy to leverage Next()'s ASCII optimization",
   chars "\tcp := *iter",
   chars "\tcp.pos = 0",
   chars "\tcp.start = 0",
   chars "\tcp.Next()",
   chars "\treturn cp.Value()",
   chars "}"]
/-- graphemes/ansi.go, every line with its end left out. -/
def ansi : List (List Char) :=
  [chars "package graphemes",
   chars "",
   chars "// ansiEscapeLength returns the byte length of a valid 7-bit ANSI escape",
   chars "// sequence at the start of data, or 0 if none.",
   chars "//",
   chars "// Recognized forms (ECMA-48 / ISO 6429):",
   chars "//   - CSI: ESC [ then parameter bytes (0x30-0x3F), intermediate (0x20-0x2F), final (0x40-0x7E)",
   chars "//   - OSC: ESC ] then payload until BEL (0x07), 7-bit ST (ESC \\), CAN (0x18), or SUB (0x1A)",
   chars "//   - DCS, SOS, PM, APC: ESC P/X/^/_ then payload until 7-bit ST (ESC \\), CAN, or SUB",
   chars "//   - Two-byte: ESC + Fe/Fs (0x40-0x7E excluding above), or Fp (0x30-0x3F), or nF (0x20-0x2F then final)",
   chars "func ansiEscapeLength[T ~string | ~[]byte](data T) int {",
   chars "\tn := len(data)",
   chars "\tif n < 2 || data[0] != esc {",
   chars "\t\treturn 0",
   chars "\t}",
   chars "",
   chars "\tb1 := data[1]",
   chars "\tswitch b1 {",
   chars "\tcase '[': // CSI",
   chars "\t\tbody := csiBodyLength(data[2:])",
   chars "\t\tif body == 0 {",
   chars "\t\t\treturn 0",
   chars "\t\t}",
   chars "\t\treturn 2 + body",
   chars "\tcase ']': // OSC - allows BEL or 7-bit ST terminator",
   chars "\t\tbody := oscLength(data[2:])",
   chars "\t\tif body < 0 {",
   chars "\t\t\treturn 0",
   chars "\t\t}",
   chars "\t\treturn 2 + body",
   chars "\tcase 'P', 'X', '^', '_': // DCS, SOS, PM, APC",
   chars "\t\tbody := stSequenceLength(data[2:])",
   chars "\t\tif body < 0 {",
   chars "\t\t\treturn 0",
   chars "\t\t}",
   chars "\t\treturn 2 + body",
   chars "\t}",
   chars "",
   chars "\tif b1 >= 0x40 && b1 <= 0x7E {",
   chars "\t\t// Fe/Fs two-byte; [ ] P X ^ _ handled above",
   chars "\t\treturn 2",
   chars "\t}",
   chars "\tif b1 >= 0x30 && b1 <= 0x3F {",
   chars "\t\t// Fp (private) two-byte",
   chars "\t\treturn 2",
   chars "\t}",
   chars "\tif b1 >= 0x20 && b1 <= 0x2F {",
   chars "\t\t// nF: intermediates then one final (0x30-0x7E)",
   chars "\t\ti := 2",
   chars "\t\tfor i < n && data[i] >= 0x20 && data[i] <= 0x2F {",
   chars "\t\t\ti++",
   chars "\t\t}",
   chars "\t\tif i < n && data[i] >= 0x30 && data[i] <= 0x7E {",
   chars "\t\t\treturn i + 1",
   chars "\t\t}",
   chars "\t\treturn 0",
   chars "\t}",
   chars "",
   chars "\treturn 0",
   chars "}",
   chars "",
   chars "// csiBodyLength returns the length of the CSI body (param/intermediate/final bytes).",
   chars "// data is the slice after \"ESC [\".",
   chars "// Per ECMA-48, the CSI body has the form:",
   chars "//",
   chars "//\tparameters (0x30–0x3F)*, intermediates (0x20–0x2F)*, final (0x40–0x7E)",
   chars "//",
   chars "// Once an intermediate byte is seen, subsequent parameter bytes are invalid.",
   chars "func csiBodyLength[T ~string | ~[]byte](data T) int {",
   chars "\tseenIntermediate := false",
   chars "\tfor i := 0; i < len(data); i++ {",
   chars "\t\tb := data[i]",
   chars "\t\tif b >= 0x30 && b <= 0x3F {",
   chars "\t\t\tif seenIntermediate {",
   chars "\t\t\t\treturn 0",
   chars "\t\t\t}",
   chars "\t\t\tcontinue",
   chars "\t\t}",
   chars "\t\tif b >= 0x20 && b <= 0x2F {",
   chars "\t\t\tseenIntermediate = true",
   chars "\t\t\tcontinue",
   chars "\t\t}",
   chars "\t\tif b >= 0x40 && b <= 0x7E {",
   chars "\t\t\treturn i + 1",
   chars "\t\t}",
   chars "\t\treturn 0",
   chars "\t}",
   chars "\treturn 0",
   chars "}",
   chars "",
   chars "// oscLength returns the length of the OSC body.",
   chars "// data is the slice after \"ESC ]\".",
   chars "//",
   chars "// Returns:",
   chars "//   - n >= 0: consumed body length (includes BEL/ST terminator when present)",
   chars "//   - -1: not terminated in the provided data",
   chars "//",
   chars "// OSC accepts BEL (0x07) or 7-bit ST (ESC \\) as terminators by widespread convention.",
   chars "// Per ECMA-48, CAN (0x18) and SUB (0x1A) cancel the control string; in that",
   chars "// case they are not part of the OSC sequence length.",
   chars "func oscLength[T ~string | ~[]byte](data T) int {",
   chars "\tfor i := 0; i < len(data); i++ {",
   chars "\t\tb := data[i]",
   chars "\t\tif b == bel {",
   chars "\t\t\treturn i + 1",
   chars "\t\t}",
   chars "\t\tif b == can || b == sub {",
   chars "\t\t\treturn i",
   chars "\t\t}",
   chars "\t\tif b == esc && i+1 < len(data) && data[i+1] == '\\\\' {",
   chars "\t\t\treturn i + 2",
   chars "\t\t}",
   chars "\t}",
   chars "\treturn -1",
   chars "}",
   chars "",
   chars "// stSequenceLength returns the length of a control-string body.",
   chars "// data is the slice after \"ESC x\".",
   chars "//",
   chars "// Returns:",
   chars "//   - n >= 0: consumed body length (includes ST terminator when present)",
   chars "//   - -1: not terminated in the provided data",
   chars "//",
   chars "// Used for DCS, SOS, PM, and APC, which per ECMA-48 terminate with ST.",
   chars "// ST here is the 7-bit form (ESC \\).",
   chars "// CAN (0x18) and SUB (0x1A) cancel the control string; in that case they are",
   chars "// not part of the sequence length.",
   chars "func stSequenceLength[T ~string | ~[]byte](data T) int {",
   chars "\tfor i := 0; i < len(data); i++ {",
   chars "\t\tif data[i] == can || data[i] == sub {",
   chars "\t\t\treturn i",
   chars "\t\t}",
   chars "\t\tif data[i] == esc && i+1 < len(data) && data[i+1] == '\\\\' {",
   chars "\t\t\treturn i + 2",
   chars "\t\t}",
   chars "\t}",
   chars "\treturn -1",
   chars "}"]
/-- graphemes/ansi8.go, every line with its end left out. -/
def ansi8 : List (List Char) :=
  [chars "package graphemes",
   chars "",
   chars "// ansiEscapeLength8Bit returns the byte length of a valid 8-bit C1 ANSI",
   chars "// sequence at the start of data, or 0 if none.",
   chars "//",
   chars "// Recognized forms (ECMA-48 / ISO 6429):",
   chars "//   - C1 CSI (0x9B) body as parameter/intermediate/final bytes",
   chars "//   - C1 OSC (0x9D) body terminated by BEL, C1 ST, CAN, or SUB",
   chars "//   - C1 DCS/SOS/PM/APC (0x90/0x98/0x9E/0x9F) body terminated by C1 ST, CAN, or SUB",
   chars "//   - Standalone C1 controls (0x80..0x9F not listed above): single byte",
   chars "func ansiEscapeLength8Bit[T ~string | ~[]byte](data T) int {",
   chars "\tif len(data) == 0 {",
   chars "\t\treturn 0",
   chars "\t}",
   chars "",
   chars "\tswitch data[0] {",
   chars "\tcase 0x9B: // C1 CSI",
   chars "\t\tbody := csiBodyLength(data[1:])",
   chars "\t\tif body == 0 {",
   chars "\t\t\treturn 0",
   chars "\t\t}",
   chars "\t\treturn 1 + body",
   chars "\tcase 0x9D: // C1 OSC",
   chars "\t\tbody := oscLengthC1(data[1:])",
   chars "\t\tif body < 0 {",
   chars "\t\t\treturn 0",
   chars "\t\t}",
   chars "\t\treturn 1 + body",
   chars "\tcase 0x90, 0x98, 0x9E, 0x9F: // C1 DCS, SOS, PM, APC",
   chars "\t\tbody := stSequenceLengthC1(data[1:])",
   chars "\t\tif body < 0 {",
   chars "\t\t\treturn 0",
   chars "\t\t}",
   chars "\t\treturn 1 + body",
   chars "\tdefault:",
   chars "\t\tif data[0] >= 0x80 && data[0] <= 0x9F {",
   chars "\t\t\treturn 1",
   chars "\t\t}",
   chars "\t}",
   chars "",
   chars "\treturn 0",
   chars "}",
   chars "",
   chars "// oscLengthC1 returns the length of a C1 OSC body.",
   chars "// data is the slice after the C1 OSC initiator (0x9D).",
   chars "//",
   chars "// Returns:",
   chars "//   - n >= 0: consumed body length (includes BEL/ST terminator when present)",
   chars "//   - -1: not terminated in the provided data",
   chars "//",
   chars "// Terminators: BEL (0x07) or C1 ST (0x9C).",
   chars "// CAN (0x18) and SUB (0x1A) cancel the control string.",
   chars "func oscLengthC1[T ~string | ~[]byte](data T) int {",
   chars "\tfor i := 0; i < len(data); i++ {",
   chars "\t\tb := data[i]",
   chars "\t\tif b == bel || b == st {",
   chars "\t\t\treturn i + 1",
   chars "\t\t}",
   chars "\t\tif b == can || b == sub {",
   chars "\t\t\treturn i",
   chars "\t\t}",
   chars "\t}",
   chars "\treturn -1",
   chars "}",
   chars "",
   chars "// stSequenceLengthC1 parses DCS/SOS/PM/APC bodies that terminate with C1 ST",
   chars "// (0x9C), or are canceled by CAN/SUB.",
   chars "func stSequenceLengthC1[T ~string | ~[]byte](data T) int {",
   chars "\tfor i := 0; i < len(data); i++ {",
   chars "\t\tb := data[i]",
   chars "\t\tif b == can || b == sub {",
   chars "\t\t\treturn i",
   chars "\t\t}",
   chars "\t\tif b == st {",
   chars "\t\t\treturn i + 1",
   chars "\t\t}",
   chars "\t}",
   chars "\treturn -1",
   chars "}"]
/-- graphemes/reader.go, every line with its end left out. -/
def reader : List (List Char) :=
  [chars "// Package graphemes implements Unicode grapheme cluster boundaries: https://unicode.org/reports/tr29/#Grapheme_Cluster_Boundaries",
   chars "package graphemes",
   chars "",
   chars "import (",
   chars "\t\"bufio\"",
   chars "\t\"io\"",
   chars ")",
   chars "",
   chars "type Scanner struct {",
   chars "\t*bufio.Scanner",
   chars "}",
   chars "",
   chars "// FromReader returns a Scanner, to split graphemes per",
   chars "// https://unicode.org/reports/tr29/#Grapheme_Cluster_Boundaries.",
   chars "//",
   chars "// It embeds a [bufio.Scanner], so you can use its methods.",
   chars "//",
   chars "// Iterate through graphemes by calling Scan() until false, then check Err().",
   chars "func FromReader(r io.Reader) *Scanner {",
   chars "\tsc := bufio.NewScanner(r)",
   chars "\tsc.Split(SplitFunc)",
   chars "\treturn &Scanner{",
   chars "\t\tScanner: sc,",
   chars "\t}",
   chars "}"]
end Uax29.Graphemes.Text
