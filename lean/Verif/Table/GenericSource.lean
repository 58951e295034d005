import Verif.Model.Chars
/-!
GENERATED by tools/gen_source.py from internal/iterators/iterator.go. Do not edit.
-/
set_option maxRecDepth 100000
namespace Uax29.Generic.Text
/-- internal/iterators/iterator.go, every line with its end left out. -/
def iterator : List (List Char) :=
  [chars "package iterators",
   chars "",
   chars "type SplitFunc[T ~string | ~[]byte] func(T, bool) (int, T, error)",
   chars "",
   chars "// Iterator is a generic iterator for words that are either []byte or string.",
   chars "// Iterate while Next() is true, and access the word via Value().",
   chars "type Iterator[T ~string | ~[]byte] struct {",
   chars "\tsplit SplitFunc[T]",
   chars "\tdata  T",
   chars "\tstart int",
   chars "\tpos   int",
   chars "}",
   chars "",
   chars "// New creates a new Iterator for the given data and SplitFunc.",
   chars "func New[T ~string | ~[]byte](split SplitFunc[T], data T) *Iterator[T] {",
   chars "\treturn &Iterator[T]{",
   chars "\t\tsplit: split,",
   chars "\t\tdata:  data,",
   chars "\t}",
   chars "}",
   chars "",
   chars "// SetText sets the text for the iterator to operate on, and resets all state.",
   chars "func (iter *Iterator[T]) SetText(data T) {",
   chars "\titer.data = data",
   chars "\titer.start = 0",
   chars "\titer.pos = 0",
   chars "}",
   chars "",
   chars "// Split sets the SplitFunc for the Iterator.",
   chars "func (iter *Iterator[T]) Split(split SplitFunc[T]) {",
   chars "\titer.split = split",
   chars "}",
   chars "",
   chars "// Next advances the iterator to the next token. It returns false when there",
   chars "// are no remaining tokens or an error occurred.",
   chars "func (iter *Iterator[T]) Next() bool {",
   chars "\tif iter.pos == len(iter.data) {",
   chars "\t\treturn false",
   chars "\t}",
   chars "\tif iter.pos > len(iter.data) {",
   chars "\t\tpanic(\"SplitFunc advanced beyond the end of the data\")",
   chars "\t}",
   chars "",
   chars "\titer.start = iter.pos",
   chars "\td := iter.data[iter.pos:]",
   chars "",
   chars "\tif len(d) == 1 {",
   chars "\t\t// No need to split, just return the single byte",
   chars "\t\titer.pos++",
   chars "\t\treturn true",
   chars "\t}",
   chars "",
   chars "\tadvance, _, err := iter.split(d, true)",
   chars "\tif err != nil {",
   chars "\t\tpanic(err)",
   chars "\t}",
   chars "\tif advance <= 0 {",
   chars "\t\tpanic(\"SplitFunc returned a zero or negative advance\")",
   chars "\t}",
   chars "",
   chars "\titer.pos += advance",
   chars "\tif iter.pos > len(iter.data) {",
   chars "\t\tpanic(\"SplitFunc advanced beyond the end of the data\")",
   chars "\t}",
   chars "",
   chars "\treturn true",
   chars "}",
   chars "",
   chars "// Value returns the current token.",
   chars "func (iter *Iterator[T]) Value() T {",
   chars "\treturn iter.data[iter.start:iter.pos]",
   chars "}",
   chars "",
   chars "// Start returns the byte position of the current token in the original data.",
   chars "func (iter *Iterator[T]) Start() int {",
   chars "\treturn iter.start",
   chars "}",
   chars "",
   chars "// End returns the byte position after the current token in the original data.",
   chars "func (iter *Iterator[T]) End() int {",
   chars "\treturn iter.pos",
   chars "}",
   chars "",
   chars "// Reset resets the iterator to the beginning of the data.",
   chars "func (iter *Iterator[T]) Reset() {",
   chars "\titer.start = 0",
   chars "\titer.pos = 0",
   chars "}",
   chars "",
   chars "func (iter *Iterator[T]) First() T {",
   chars "\tif len(iter.data) == 0 {",
   chars "\t\treturn iter.data",
   chars "\t}",
   chars "\tadvance, _, err := iter.split(iter.data, true)",
   chars "\tif err != nil {",
   chars "\t\tpanic(err)",
   chars "\t}",
   chars "\tif advance <= 0 {",
   chars "\t\tpanic(\"SplitFunc returned a zero or negative advance\")",
   chars "\t}",
   chars "\tif advance > len(iter.data) {",
   chars "\t\tpanic(\"SplitFunc advanced beyond the end of the data\")",
   chars "\t}",
   chars "\treturn iter.data[:advance]",
   chars "}"]
end Uax29.Generic.Text
