import Verif.Model.Chars
/-!
GENERATED by tools/gen_source.py from internal/iterators/filter/filter.go. Do not edit.
-/
set_option maxRecDepth 100000
namespace Uax29.Filter.Text
/-- internal/iterators/filter/filter.go, every line with its end left out. -/
def filter : List (List Char) :=
  [chars "package filter",
   chars "",
   chars "import (",
   chars "\t\"unicode\"",
   chars "\t\"unicode/utf8\"",
   chars ")",
   chars "",
   chars "type Func func([]byte) bool",
   chars "",
   chars "// AlphaNumeric is a filter which returns only tokens",
   chars "// that contain a Letter or Number, as defined by Unicode.",
   chars "var AlphaNumeric Func = func(token []byte) bool {",
   chars "\tpos := 0",
   chars "\tfor pos < len(token) {",
   chars "\t\tr, w := utf8.DecodeRune(token[pos:])",
   chars "\t\tif unicode.IsLetter(r) || unicode.IsNumber(r) {",
   chars "\t\t\t// we use these methods instead of unicode.In for",
   chars "\t\t\t// performance; these methods have ASCII fast paths",
   chars "\t\t\treturn true",
   chars "\t\t}",
   chars "\t\tpos += w",
   chars "\t}",
   chars "",
   chars "\treturn false",
   chars "}"]
end Uax29.Filter.Text
