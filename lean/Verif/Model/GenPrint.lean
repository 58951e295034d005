import Verif.Model.GenParse
import Verif.Model.Chars
/-!
# Printing the tables in the generator

internal/gen/triegen/print.go and `writeTrie` of internal/gen/main.go. The text is a list of characters. As in
`Model/TrieGen.lean` there is one trie and no further `Compacter`, so that in the templates `$multi` is
false, `.Compactions` has one element, `.ASCIIBlock` is the name of the values and `.StarterBlock` the
name of the index. Writing to a buffer does not fail.

`format.Source` at the end of `writeTrie` is not modelled, nor is the creation of the file: `writeTrie` is
the text before it is formatted.
-/
namespace Uax29.Gen

/-- A digit of `fmt` with `%d` or `%x`. -/
def digitChar (d : Nat) : Char := Char.ofNat (if d < 10 then 48 + d else 87 + d)

/-- The digits of `n`, at least `w` of them, in front of `acc`; `fuel` bounds their number. -/
def digitsLoop (base : Nat) : Nat → Nat → Nat → List Char → List Char
  | 0, _, _, acc => acc
  | fuel + 1, w, n, acc =>
    match n, w with
    | 0, 0 => acc
    | n, w => digitsLoop base fuel (w - 1) (n / base) (digitChar (n % base) :: acc)

/-- The digits of a number that `fmt` prints, at least `w`; `w` is 1 if no width is given. -/
def fmtDigits (base w n : Nat) : List Char := digitsLoop base (n + w) w n []

/-- `%d` for a number that is not negative. -/
def decimal (n : Nat) : List Char := fmtDigits 10 1 n

/-- `%#x` is `sharpHex 1`, `%#02x` is `sharpHex 2`, `%#04x` is `sharpHex 4`: the width does not count the prefix
`0x`. -/
def sharpHex (w n : Nat) : List Char := '0' :: 'x' :: fmtDigits 16 w n

/-- The loop of `printValues` — print.go:60-71. -/
def valuesLoop (boff : Nat) : Nat → Bool → List Nat → List Char
  | _, _, [] => []
  | i, newline, v :: values =>
    let newline := if i % 6 = 0 then true else newline
    if v ≠ 0 then
      (if newline then ['\n'] else []) ++ ('\t' :: sharpHex 2 (boff + i) ++ ':' :: sharpHex 4 v ++ [',', ' '])
        ++ valuesLoop boff (i + 1) false values
    else valuesLoop boff (i + 1) newline values

/-- `"\t// Block %#x, offset %#x"` — print.go:58, 78. -/
def blockComment (n boff : Nat) : List Char :=
  chars "\t// Block " ++ sharpHex 1 n ++ chars ", offset " ++ sharpHex 1 boff

/-- `printValues(n, values)` — print.go:55-73. -/
def printValues (n : Nat) (values : List Nat) : List Char :=
  let boff := n * blockSize
  blockComment n boff ++ valuesLoop boff 0 false values

/-- The loop of `printIndex` — print.go:80-94. The entries are those of `Builder.indexBlocks`: 0 for a child
that is nil. -/
def indexLoop (boff : Nat) : Nat → Bool → List Nat → List Char
  | _, _, [] => []
  | i, newline, v :: entries =>
    let newline := if i % 8 = 0 then true else newline
    if v ≠ 0 then
      (if newline then ['\n'] else []) ++ ('\t' :: sharpHex 2 (boff + i) ++ ':' :: sharpHex 2 v ++ [',', ' '])
        ++ indexLoop boff (i + 1) false entries
    else indexLoop boff (i + 1) newline entries

/-- `printIndex(b, nr, n)` — print.go:75-96. -/
def printIndex (nr : Nat) (entries : List Nat) : List Char :=
  let boff := nr * blockSize
  blockComment nr boff ++ indexLoop boff 0 false entries

/-- `maxValue(n, max)` — triegen.go:362-376. -/
def maxValue : Node → Nat → Nat
  | .nil, max => max
  | .mk hasChildren children values, max =>
    (values.getD []).foldl (fun max v => if max < v then v else max)
      ((List.range (if hasChildren then blockSize else 0)).foldl (fun max i => maxValue (children i) max) max)

/-- The size in `getIntType(v)`; the type is `property` in all cases — triegen.go:378-388. -/
def intSize (v : Nat) : Nat :=
  if v < 2 ^ 8 then 1 else if v < 2 ^ 16 then 2 else if v < 2 ^ 32 then 4 else 8

/-- `imax` — triegen.go:352-358. The blocks are numbered as they are added: the last value block has the handle
`len(b.ValueBlocks) - 1 - blockOffset`, which is 0 for the zero block, and `Cutoff` is one more; the index of the
last index block is `len(b.IndexBlocks) - 1 - blockOffset`. -/
def imax (T : Trie) : Nat := max (T.values.length - blockOffset) (T.index.length - 1 - blockOffset)

/-- `psize` — print.go:104-106: `"%d bytes (%.2f KiB)"` of `n` and `float64(n)/1024`. The quotient is exact for
`n < 2^53`; it is rounded to the nearest hundredth, and to the even one if there are two. -/
def psize (n : Nat) : List Char :=
  let q := n * 100 / 1024
  let r := n * 100 % 1024
  let q := if 512 < r ∨ (r = 512 ∧ q % 2 = 1) then q + 1 else q
  decimal n ++ chars " bytes (" ++ decimal (q / 100) ++ '.' :: fmtDigits 10 2 (q % 100) ++ chars " KiB)"

/-- `strings.Title` of a name in lower case letters. -/
def title : List Char → List Char
  | [] => []
  | c :: cs => c.toUpper :: cs

/-- `lookupGen.Execute(w, b)` — print.go:39-41, 159-228. -/
def lookupText (name : List Char) : List Char :=
  chars "\n// lookup returns the trie value for the first UTF-8 encoding in s and\n" ++
  chars "// the width in bytes of this encoding. The size will be 0 if s does not\n" ++
  chars "// hold enough bytes to complete the encoding. len(s) must be greater than 0.\n" ++
  chars "func (t *" ++ name ++ chars "Trie) lookup(s []byte) (v property, sz int) {\n" ++
  chars "\tc0 := s[0]\n" ++
  chars "\tswitch {\n" ++
  chars "\tcase c0 < 0x80: // is ASCII\n" ++
  chars "\t\treturn " ++ name ++ chars "Values[c0], 1\n" ++
  chars "\tcase c0 < 0xC2:\n" ++
  chars "\t\treturn 0, 1  // Illegal UTF-8: not a starter, not ASCII.\n" ++
  chars "\tcase c0 < 0xE0: // 2-byte UTF-8\n" ++
  chars "\t\tif len(s) < 2 {\n" ++
  chars "\t\t\treturn 0, 0\n" ++
  chars "\t\t}\n" ++
  chars "\t\ti := " ++ name ++ chars "Index[c0]\n" ++
  chars "\t\tc1 := s[1]\n" ++
  chars "\t\tif c1 < 0x80 || 0xC0 <= c1 {\n" ++
  chars "\t\t\treturn 0, 1 // Illegal UTF-8: not a continuation byte.\n" ++
  chars "\t\t}\n" ++
  chars "\t\treturn t.lookupValue(uint32(i), c1), 2\n" ++
  chars "\tcase c0 < 0xF0: // 3-byte UTF-8\n" ++
  chars "\t\tif len(s) < 3 {\n" ++
  chars "\t\t\treturn 0, 0\n" ++
  chars "\t\t}\n" ++
  chars "\t\ti := " ++ name ++ chars "Index[c0]\n" ++
  chars "\t\tc1 := s[1]\n" ++
  chars "\t\tif c1 < 0x80 || 0xC0 <= c1 {\n" ++
  chars "\t\t\treturn 0, 1 // Illegal UTF-8: not a continuation byte.\n" ++
  chars "\t\t}\n" ++
  chars "\t\to := uint32(i)<<6 + uint32(c1)\n" ++
  chars "\t\ti = " ++ name ++ chars "Index[o]\n" ++
  chars "\t\tc2 := s[2]\n" ++
  chars "\t\tif c2 < 0x80 || 0xC0 <= c2 {\n" ++
  chars "\t\t\treturn 0, 2 // Illegal UTF-8: not a continuation byte.\n" ++
  chars "\t\t}\n" ++
  chars "\t\treturn t.lookupValue(uint32(i), c2), 3\n" ++
  chars "\tcase c0 < 0xF8: // 4-byte UTF-8\n" ++
  chars "\t\tif len(s) < 4 {\n" ++
  chars "\t\t\treturn 0, 0\n" ++
  chars "\t\t}\n" ++
  chars "\t\ti := " ++ name ++ chars "Index[c0]\n" ++
  chars "\t\tc1 := s[1]\n" ++
  chars "\t\tif c1 < 0x80 || 0xC0 <= c1 {\n" ++
  chars "\t\t\treturn 0, 1 // Illegal UTF-8: not a continuation byte.\n" ++
  chars "\t\t}\n" ++
  chars "\t\to := uint32(i)<<6 + uint32(c1)\n" ++
  chars "\t\ti = " ++ name ++ chars "Index[o]\n" ++
  chars "\t\tc2 := s[2]\n" ++
  chars "\t\tif c2 < 0x80 || 0xC0 <= c2 {\n" ++
  chars "\t\t\treturn 0, 2 // Illegal UTF-8: not a continuation byte.\n" ++
  chars "\t\t}\n" ++
  chars "\t\to = uint32(i)<<6 + uint32(c2)\n" ++
  chars "\t\ti = " ++ name ++ chars "Index[o]\n" ++
  chars "\t\tc3 := s[3]\n" ++
  chars "\t\tif c3 < 0x80 || 0xC0 <= c3 {\n" ++
  chars "\t\t\treturn 0, 3 // Illegal UTF-8: not a continuation byte.\n" ++
  chars "\t\t}\n" ++
  chars "\t\treturn t.lookupValue(uint32(i), c3), 4\n" ++
  chars "\t}\n" ++
  chars "\t// Illegal rune\n" ++
  chars "\treturn 0, 1\n" ++
  chars "}\n"

/-- The comment in front of the trie — print.go:115-116. -/
def trieComment (name : List Char) (size checksum : Nat) : List Char :=
  chars "// " ++ name ++ chars "Trie. Total size: " ++ psize size ++ chars ". Checksum: " ++ fmtDigits 16 8 checksum ++
  chars "."

/-- The template of the trie down to the tables, after its comment — print.go:117-144. -/
def trieText (name : List Char) : List Char :=
  chars "type " ++ name ++ chars "Trie struct { }\n" ++
  chars "\n" ++
  chars "// func new" ++ title name ++ chars "Trie(i int) *" ++ name ++ chars "Trie { \n" ++
  chars "// \treturn &" ++ name ++ chars "Trie{}\n" ++
  chars "// }\n" ++
  chars "\n" ++
  chars "// lookupValue determines the type of block n and looks up the value for b.\n" ++
  chars "func (t *" ++ name ++ chars "Trie) lookupValue(n uint32, b byte) property {\n" ++
  chars "\tswitch { \n" ++
  chars "\t\tdefault:\n" ++
  chars "\t\t\treturn property(" ++ name ++ chars "Values[n<<6+uint32(b)])\n" ++
  chars "\t}\n" ++
  chars "}\n"

/-- The blocks of a table, each followed by a line break: `{{range $i, $v := .ValueBlocks}}…{{end}}` —
print.go:149-150, 155-156. -/
def blocksText (print : Nat → List Nat → List Char) : Nat → List (List Nat) → List Char
  | _, [] => []
  | i, b :: bs => print i b ++ '\n' :: blocksText print (i + 1) bs

/-- The comment in front of a table with its sizes — print.go:146, 152. -/
def countLine (name kind : List Char) (n size : Nat) : List Char :=
  chars "// " ++ name ++ kind ++ chars ": " ++ decimal n ++ chars " blocks, " ++ decimal (n * blockSize) ++
  chars " entries, " ++ decimal (n * blockSize * size) ++ chars " bytes"

/-- The declaration of a table down to the brace — print.go:148, 154. -/
def varLine (name kind : List Char) (n : Nat) : List Char :=
  chars "var " ++ name ++ kind ++ chars " = [" ++ decimal (n * blockSize) ++ chars "]property {"

/-- A table — print.go:146-151, 152-157. -/
def tableText (name kind note : List Char) (size : Nat) (print : Nat → List Nat → List Char) (blocks : List (List Nat)) :
    List Char :=
  countLine name kind blocks.length size ++ '\n' ::
    (note ++ '\n' ::
      (varLine name kind blocks.length ++ '\n' ::
        (blocksText print 0 blocks ++ chars "}")))

/-- The two tables — print.go:145-157. -/
def tablesText (name : List Char) (T : Trie) (valueSize indexSize : Nat) : List Char :=
  tableText name (chars "Values") (chars "// The third block is the zero block.") valueSize printValues T.values
    ++ '\n' :: '\n' ::
  (tableText name (chars "Index") (chars "// Block 0 is the zero block.") indexSize printIndex T.index ++ '\n' :: [])

/-- `Gen(w, name, []*Trie{t})`, the text that is printed — triegen.go:168-202, 298-360, print.go:15-53. -/
def genText (crc : List Nat → Nat) (name : List Char) (root : Node) : List Char :=
  let r := gen crc root
  let valueSize := intSize (maxValue root 0)
  let indexSize := intSize (imax r.1)
  let size := r.1.index.length * blockSize * indexSize + r.1.values.length * blockSize * valueSize
  lookupText name ++ '\n' ::
    (trieComment name size r.2 ++ '\n' ::
      (trieText name ++ '\n' :: tablesText name r.1 valueSize indexSize))

/-- `bytes.ReplaceAll(s, old, new)` for `old` that is not empty; `skip` is the number of characters that belong to
the last occurrence. -/
def replaceLoop (old new : List Char) : Nat → List Char → List Char
  | _, [] => []
  | skip + 1, _ :: s => replaceLoop old new skip s
  | 0, c :: s =>
    if old.isPrefixOf (c :: s) then new ++ replaceLoop old new (old.length - 1) s
    else c :: replaceLoop old new 0 s

/-- `bytes.ReplaceAll(s, old, new)` for `old` that is not empty. -/
def replaceAll (old new s : List Char) : List Char := replaceLoop old new 0 s

/-- `PackageName()` — internal/gen/main.go:91-93. -/
def Name.packageName : Name → List Char
  | .grapheme => chars "graphemes"
  | .word => chars "words"
  | .phrase => chars "phrases"
  | .sentence => chars "sentences"

/-- `URL()` for the four packages — internal/gen/main.go:25, 64, 71-81. -/
def Name.url (p : Name) : List Char :=
  chars "https://www.unicode.org/Public/17.0.0/ucd/auxiliary/" ++
  (match p with
    | .grapheme => chars "Grapheme"
    | .word => chars "Word"
    | .phrase => chars "Word"
    | .sentence => chars "Sentence") ++
  chars "BreakProperty.txt"

/-- `inttype` — internal/gen/main.go:414-425. -/
def intType (properties : Nat) : List Char :=
  if properties < 8 then chars "uint8"
  else if properties < 16 then chars "uint16"
  else if properties < 32 then chars "uint32"
  else chars "uint64"

/-- The constants — internal/gen/main.go:429-438. `strings.ReplaceAll(property, "_", "")` drops the underscores. -/
def constText (properties : List (List Char)) : List Char :=
  let line (i : Nat) (property : List Char) : List Char :=
    '_' :: property.filter (· ≠ '_') ++ if i = 0 then chars " property = 1 << iota\n" else chars "\n"
  chars "const (\n" ++ (properties.zipIdx.map fun e => line e.2 e.1).flatten ++ chars ")\n"

/-- The start of the file — internal/gen/main.go:403-427. -/
def headText (p : Name) (properties : Nat) : List Char :=
  chars "package " ++ p.packageName ++ chars "\n" ++
  chars "\n// generated by github.com/clipperhouse/uax29/v2\n// from " ++ p.url ++ chars "\n" ++
  chars "\n" ++
  chars "type property " ++ intType properties ++ chars "\n\n"

/-- The replacements that make the lookup generic — internal/gen/main.go:445-462. -/
def makeGeneric (name s : List Char) : List Char :=
  let typename := name ++ chars "Trie"
  let typeDefSig := chars "type " ++ typename ++ chars " struct"
  let s := replaceAll typeDefSig (chars "// " ++ typeDefSig) s
  let s := replaceAll (chars "(t *" ++ typename ++ chars ") lookup(s []byte)") (chars "lookup[T ~string | ~[]byte](s T)") s
  let s := replaceAll (chars "(t *" ++ typename ++ chars ") lookupValue") (chars "lookupValue") s
  replaceAll (chars "t.lookupValue(") (chars "lookupValue(") s

/-- `writeTrie(prop, trie, iotasByProperty)`, the text before it is formatted — internal/gen/main.go:400-462. The keys of
`iotasByProperty` are those of `runesByProperty`. -/
def writeTrie (crc : List Nat → Nat) (p : Name) (root : Node) (runesByProperty : List (String × List Nat)) : List Char :=
  let properties := (properties runesByProperty).map String.toList
  makeGeneric p.packageName (headText p properties.length ++ (constText properties ++ genText crc p.packageName root))

end Uax29.Gen
