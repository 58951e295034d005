import Verif.Model.GenPrint
/-!
# Printing the tests in the generator

`writeTests` of internal/gen/main.go down to the text that is given to `format.Source`. The verb `%#v` of package `fmt` (not
in /repo) is modelled for the three types that are printed: `[]byte`, `[][]byte` and `string`. `unicode.IsPrint` is a
parameter. The slices of a test are nil if they are empty, because they are built by `append` of bytes that are there.
-/
namespace Uax29.Gen

/-- The elements of a slice in `%#v`: between commas and blanks. -/
def commas : List (List Char) → List Char
  | [] => []
  | [a] => a
  | a :: as => a ++ ',' :: ' ' :: commas as

/-- `%#v` of a slice with the given type and elements. -/
def sharpSlice (type : List Char) (elements : List (List Char)) : List Char :=
  if elements = [] then type ++ chars "(nil)" else type ++ '{' :: commas elements ++ ['}']

/-- `%#v` of a byte: `0x` and hexadecimal digits. -/
def sharpByte (b : UInt8) : List Char := sharpHex 1 b.toNat

/-- `%#v` of a `[]byte`: this type alone is called `[]byte`. -/
def sharpBytes (b : Bytes) : List Char := sharpSlice (chars "[]byte") (b.map sharpByte)

/-- `%#v` of a `[][]byte`: within other types it is `[]uint8`. -/
def sharpBytesList (l : List Bytes) : List Char :=
  sharpSlice (chars "[][]uint8") (l.map fun b => sharpSlice (chars "[]uint8") (b.map sharpByte))

/-- `appendEscapedRune` of package `strconv` with the quote `"`, not limited to ASCII. The rune is a character. -/
def escapedRune (isPrint : Char → Bool) (c : Char) : List Char :=
  if c = '"' ∨ c = '\\' then ['\\', c]
  else if isPrint c then [c]
  else if c = '\x07' then chars "\\a"
  else if c = '\x08' then chars "\\b"
  else if c = '\x0c' then chars "\\f"
  else if c = '\n' then chars "\\n"
  else if c = '\r' then chars "\\r"
  else if c = '\t' then chars "\\t"
  else if c = '\x0b' then chars "\\v"
  else if c < ' ' ∨ c = '\x7f' then chars "\\x" ++ fmtDigits 16 2 c.toNat
  else if c.toNat < 0x10000 then chars "\\u" ++ fmtDigits 16 4 c.toNat
  else chars "\\U" ++ fmtDigits 16 8 c.toNat

/-- `strconv.Quote`, which is `%#v` of a string. -/
def quote (isPrint : Char → Bool) (s : List Char) : List Char := '"' :: s.flatMap (escapedRune isPrint) ++ ['"']

/-- `TestURL()` — internal/gen/main.go:64, 83-88. -/
def Name.testURL (p : Name) : List Char :=
  chars "https://www.unicode.org/Public/17.0.0/ucd/auxiliary/" ++
  (match p with
    | .grapheme => chars "Grapheme"
    | .word => chars "Word"
    | .phrase => chars "Phrase"
    | .sentence => chars "Sentence") ++
  chars "BreakTest.txt"

/-- The start of the file — internal/gen/main.go:349-363. -/
def testsHead (p : Name) (n : Nat) : List Char :=
  chars "package " ++ p.packageName ++ chars "_test\n" ++
  chars "\n" ++
  chars "\t// generated by github.com/clipperhouse/uax29/v2\n" ++
  chars "\t// from " ++ p.testURL ++ chars "\n" ++
  chars "\n" ++
  chars "type unicodeTest struct {\n" ++
  chars "\tinput    []byte\n" ++
  chars "\texpected [][]byte\n" ++
  chars "\tcomment  string\n" ++
  chars "}\n" ++
  chars "\n" ++
  chars "var unicodeTests = [" ++ decimal n ++ chars "]unicodeTest {\n"

/-- A test — internal/gen/main.go:366-371. -/
def testText (isPrint : Char → Bool) (t : UnicodeTest) : List Char :=
  chars "{\n" ++
  chars "\tinput: " ++ sharpBytes t.input ++ chars ",\n" ++
  chars "\texpected: " ++ sharpBytesList t.expected ++ chars ",\n" ++
  chars "\tcomment: " ++ quote isPrint t.comment ++ chars ",\n" ++
  chars "},\n"

/-- `writeTests(tests)`, the text before it is formatted — internal/gen/main.go:346-378. -/
def writeTests (isPrint : Char → Bool) (p : Name) (tests : List UnicodeTest) : List Char :=
  let byts := testsHead p tests.length ++ tests.flatMap (testText isPrint) ++ chars "}\n\n"
  let byts := replaceAll (chars "[]uint8{0x") (chars "{0x") byts
  replaceAll (chars "[]uint8{") (chars "[]byte{") byts

end Uax29.Gen
