import Verif.Table.WordsValues
import Verif.Table.WordsIndex
import Verif.Proofs.GoLayout
/-!
GENERATED by tools/gen_text.py from words/trie.go. Do not edit.
The lines of words/trie.go, and the comparison of its tables with those of tools/gen_tables.py.
-/
set_option maxRecDepth 100000
namespace Uax29.Words.Text
open Gen
/-- words/trie.go:1-111, down to the table `wordsValues`. -/
def head : List String :=
  ["package words",
   "",
   "// generated by github.com/clipperhouse/uax29/v2",
   "// from https://www.unicode.org/Public/17.0.0/ucd/auxiliary/WordBreakProperty.txt",
   "",
   "type property uint32",
   "",
   "const (",
   "\t_ALetter property = 1 << iota",
   "\t_BleveIdeographic",
   "\t_CR",
   "\t_DoubleQuote",
   "\t_Extend",
   "\t_ExtendNumLet",
   "\t_ExtendedPictographic",
   "\t_Format",
   "\t_HebrewLetter",
   "\t_Katakana",
   "\t_LF",
   "\t_MidLetter",
   "\t_MidNum",
   "\t_MidNumLet",
   "\t_Newline",
   "\t_Numeric",
   "\t_RegionalIndicator",
   "\t_SingleQuote",
   "\t_WSegSpace",
   "\t_ZWJ",
   ")",
   "",
   "// lookup returns the trie value for the first UTF-8 encoding in s and",
   "// the width in bytes of this encoding. The size will be 0 if s does not",
   "// hold enough bytes to complete the encoding. len(s) must be greater than 0.",
   "func lookup[T ~string | ~[]byte](s T) (v property, sz int) {",
   "\tc0 := s[0]",
   "\tswitch {",
   "\tcase c0 < 0x80: // is ASCII",
   "\t\treturn wordsValues[c0], 1",
   "\tcase c0 < 0xC2:",
   "\t\treturn 0, 1 // Illegal UTF-8: not a starter, not ASCII.",
   "\tcase c0 < 0xE0: // 2-byte UTF-8",
   "\t\tif len(s) < 2 {",
   "\t\t\treturn 0, 0",
   "\t\t}",
   "\t\ti := wordsIndex[c0]",
   "\t\tc1 := s[1]",
   "\t\tif c1 < 0x80 || 0xC0 <= c1 {",
   "\t\t\treturn 0, 1 // Illegal UTF-8: not a continuation byte.",
   "\t\t}",
   "\t\treturn lookupValue(uint32(i), c1), 2",
   "\tcase c0 < 0xF0: // 3-byte UTF-8",
   "\t\tif len(s) < 3 {",
   "\t\t\treturn 0, 0",
   "\t\t}",
   "\t\ti := wordsIndex[c0]",
   "\t\tc1 := s[1]",
   "\t\tif c1 < 0x80 || 0xC0 <= c1 {",
   "\t\t\treturn 0, 1 // Illegal UTF-8: not a continuation byte.",
   "\t\t}",
   "\t\to := uint32(i)<<6 + uint32(c1)",
   "\t\ti = wordsIndex[o]",
   "\t\tc2 := s[2]",
   "\t\tif c2 < 0x80 || 0xC0 <= c2 {",
   "\t\t\treturn 0, 2 // Illegal UTF-8: not a continuation byte.",
   "\t\t}",
   "\t\treturn lookupValue(uint32(i), c2), 3",
   "\tcase c0 < 0xF8: // 4-byte UTF-8",
   "\t\tif len(s) < 4 {",
   "\t\t\treturn 0, 0",
   "\t\t}",
   "\t\ti := wordsIndex[c0]",
   "\t\tc1 := s[1]",
   "\t\tif c1 < 0x80 || 0xC0 <= c1 {",
   "\t\t\treturn 0, 1 // Illegal UTF-8: not a continuation byte.",
   "\t\t}",
   "\t\to := uint32(i)<<6 + uint32(c1)",
   "\t\ti = wordsIndex[o]",
   "\t\tc2 := s[2]",
   "\t\tif c2 < 0x80 || 0xC0 <= c2 {",
   "\t\t\treturn 0, 2 // Illegal UTF-8: not a continuation byte.",
   "\t\t}",
   "\t\to = uint32(i)<<6 + uint32(c2)",
   "\t\ti = wordsIndex[o]",
   "\t\tc3 := s[3]",
   "\t\tif c3 < 0x80 || 0xC0 <= c3 {",
   "\t\t\treturn 0, 3 // Illegal UTF-8: not a continuation byte.",
   "\t\t}",
   "\t\treturn lookupValue(uint32(i), c3), 4",
   "\t}",
   "\t// Illegal rune",
   "\treturn 0, 1",
   "}",
   "",
   "// wordsTrie. Total size: 100608 bytes (98.25 KiB). Checksum: 15f1c04c89caf743.",
   "// type wordsTrie struct { }",
   "",
   "// func newWordsTrie(i int) *wordsTrie {",
   "// \treturn &wordsTrie{}",
   "// }",
   "",
   "// lookupValue determines the type of block n and looks up the value for b.",
   "func lookupValue(n uint32, b byte) property {",
   "\tswitch {",
   "\tdefault:",
   "\t\treturn property(wordsValues[n<<6+uint32(b)])",
   "\t}",
   "}",
   "",
   "// wordsValues: 375 blocks, 24000 entries, 96000 bytes",
   "// The third block is the zero block.",
   "var wordsValues = [24000]property{"]
/-- words/trie.go:1-111, as characters. -/
def headChars : List (List Char) :=
  [chars "package words",
   chars "",
   chars "// generated by github.com/clipperhouse/uax29/v2",
   chars "// from https://www.unicode.org/Public/17.0.0/ucd/auxiliary/WordBreakProperty.txt",
   chars "",
   chars "type property uint32",
   chars "",
   chars "const (",
   chars "\t_ALetter property = 1 << iota",
   chars "\t_BleveIdeographic",
   chars "\t_CR",
   chars "\t_DoubleQuote",
   chars "\t_Extend",
   chars "\t_ExtendNumLet",
   chars "\t_ExtendedPictographic",
   chars "\t_Format",
   chars "\t_HebrewLetter",
   chars "\t_Katakana",
   chars "\t_LF",
   chars "\t_MidLetter",
   chars "\t_MidNum",
   chars "\t_MidNumLet",
   chars "\t_Newline",
   chars "\t_Numeric",
   chars "\t_RegionalIndicator",
   chars "\t_SingleQuote",
   chars "\t_WSegSpace",
   chars "\t_ZWJ",
   chars ")",
   chars "",
   chars "// lookup returns the trie value for the first UTF-8 encoding in s and",
   chars "// the width in bytes of this encoding. The size will be 0 if s does not",
   chars "// hold enough bytes to complete the encoding. len(s) must be greater than 0.",
   chars "func lookup[T ~string | ~[]byte](s T) (v property, sz int) {",
   chars "\tc0 := s[0]",
   chars "\tswitch {",
   chars "\tcase c0 < 0x80: // is ASCII",
   chars "\t\treturn wordsValues[c0], 1",
   chars "\tcase c0 < 0xC2:",
   chars "\t\treturn 0, 1 // Illegal UTF-8: not a starter, not ASCII.",
   chars "\tcase c0 < 0xE0: // 2-byte UTF-8",
   chars "\t\tif len(s) < 2 {",
   chars "\t\t\treturn 0, 0",
   chars "\t\t}",
   chars "\t\ti := wordsIndex[c0]",
   chars "\t\tc1 := s[1]",
   chars "\t\tif c1 < 0x80 || 0xC0 <= c1 {",
   chars "\t\t\treturn 0, 1 // Illegal UTF-8: not a continuation byte.",
   chars "\t\t}",
   chars "\t\treturn lookupValue(uint32(i), c1), 2",
   chars "\tcase c0 < 0xF0: // 3-byte UTF-8",
   chars "\t\tif len(s) < 3 {",
   chars "\t\t\treturn 0, 0",
   chars "\t\t}",
   chars "\t\ti := wordsIndex[c0]",
   chars "\t\tc1 := s[1]",
   chars "\t\tif c1 < 0x80 || 0xC0 <= c1 {",
   chars "\t\t\treturn 0, 1 // Illegal UTF-8: not a continuation byte.",
   chars "\t\t}",
   chars "\t\to := uint32(i)<<6 + uint32(c1)",
   chars "\t\ti = wordsIndex[o]",
   chars "\t\tc2 := s[2]",
   chars "\t\tif c2 < 0x80 || 0xC0 <= c2 {",
   chars "\t\t\treturn 0, 2 // Illegal UTF-8: not a continuation byte.",
   chars "\t\t}",
   chars "\t\treturn lookupValue(uint32(i), c2), 3",
   chars "\tcase c0 < 0xF8: // 4-byte UTF-8",
   chars "\t\tif len(s) < 4 {",
   chars "\t\t\treturn 0, 0",
   chars "\t\t}",
   chars "\t\ti := wordsIndex[c0]",
   chars "\t\tc1 := s[1]",
   chars "\t\tif c1 < 0x80 || 0xC0 <= c1 {",
   chars "\t\t\treturn 0, 1 // Illegal UTF-8: not a continuation byte.",
   chars "\t\t}",
   chars "\t\to := uint32(i)<<6 + uint32(c1)",
   chars "\t\ti = wordsIndex[o]",
   chars "\t\tc2 := s[2]",
   chars "\t\tif c2 < 0x80 || 0xC0 <= c2 {",
   chars "\t\t\treturn 0, 2 // Illegal UTF-8: not a continuation byte.",
   chars "\t\t}",
   chars "\t\to = uint32(i)<<6 + uint32(c2)",
   chars "\t\ti = wordsIndex[o]",
   chars "\t\tc3 := s[3]",
   chars "\t\tif c3 < 0x80 || 0xC0 <= c3 {",
   chars "\t\t\treturn 0, 3 // Illegal UTF-8: not a continuation byte.",
   chars "\t\t}",
   chars "\t\treturn lookupValue(uint32(i), c3), 4",
   chars "\t}",
   chars "\t// Illegal rune",
   chars "\treturn 0, 1",
   chars "}",
   chars "",
   chars "// wordsTrie. Total size: 100608 bytes (98.25 KiB). Checksum: 15f1c04c89caf743.",
   chars "// type wordsTrie struct { }",
   chars "",
   chars "// func newWordsTrie(i int) *wordsTrie {",
   chars "// \treturn &wordsTrie{}",
   chars "// }",
   chars "",
   chars "// lookupValue determines the type of block n and looks up the value for b.",
   chars "func lookupValue(n uint32, b byte) property {",
   chars "\tswitch {",
   chars "\tdefault:",
   chars "\t\treturn property(wordsValues[n<<6+uint32(b)])",
   chars "\t}",
   chars "}",
   chars "",
   chars "// wordsValues: 375 blocks, 24000 entries, 96000 bytes",
   chars "// The third block is the zero block.",
   chars "var wordsValues = [24000]property{"]
theorem head_eq : head = headChars.map String.ofList := by
  kernel_rfl
/-- words/trie.go:112-277, `wordsValues` from block 0x0 on. -/
def v0 : List String :=
  ["\t// Block 0x0, offset 0x0",
   "\t0x0a: 0x0400, 0x0b: 0x4000,",
   "\t0x0c: 0x4000, 0x0d: 0x0004,",
   "\t0x20: 0x40000, 0x22: 0x0008,",
   "\t0x27: 0x20000,",
   "\t0x2c: 0x1000, 0x2e: 0x2000,",
   "\t0x30: 0x8000, 0x31: 0x8000, 0x32: 0x8000, 0x33: 0x8000, 0x34: 0x8000, 0x35: 0x8000,",
   "\t0x36: 0x8000, 0x37: 0x8000, 0x38: 0x8000, 0x39: 0x8000, 0x3a: 0x0800, 0x3b: 0x1000,",
   "\t// Block 0x1, offset 0x40",
   "\t0x41: 0x0001, 0x42: 0x0001, 0x43: 0x0001, 0x44: 0x0001, 0x45: 0x0001,",
   "\t0x46: 0x0001, 0x47: 0x0001, 0x48: 0x0001, 0x49: 0x0001, 0x4a: 0x0001, 0x4b: 0x0001,",
   "\t0x4c: 0x0001, 0x4d: 0x0001, 0x4e: 0x0001, 0x4f: 0x0001, 0x50: 0x0001, 0x51: 0x0001,",
   "\t0x52: 0x0001, 0x53: 0x0001, 0x54: 0x0001, 0x55: 0x0001, 0x56: 0x0001, 0x57: 0x0001,",
   "\t0x58: 0x0001, 0x59: 0x0001, 0x5a: 0x0001,",
   "\t0x5f: 0x0020, 0x61: 0x0001, 0x62: 0x0001, 0x63: 0x0001,",
   "\t0x64: 0x0001, 0x65: 0x0001, 0x66: 0x0001, 0x67: 0x0001, 0x68: 0x0001, 0x69: 0x0001,",
   "\t0x6a: 0x0001, 0x6b: 0x0001, 0x6c: 0x0001, 0x6d: 0x0001, 0x6e: 0x0001, 0x6f: 0x0001,",
   "\t0x70: 0x0001, 0x71: 0x0001, 0x72: 0x0001, 0x73: 0x0001, 0x74: 0x0001, 0x75: 0x0001,",
   "\t0x76: 0x0001, 0x77: 0x0001, 0x78: 0x0001, 0x79: 0x0001, 0x7a: 0x0001,",
   "\t// Block 0x2, offset 0x80",
   "\t// Block 0x3, offset 0xc0",
   "\t0xc5: 0x4000,",
   "\t0xe9: 0x0040,",
   "\t0xea: 0x0001, 0xed: 0x0080, 0xee: 0x0040,",
   "\t0xf5: 0x0001,",
   "\t0xf7: 0x0800, 0xf8: 0x0001, 0xfa: 0x0001,",
   "\t// Block 0x4, offset 0x100",
   "\t0x100: 0x0001, 0x101: 0x0001, 0x102: 0x0001, 0x103: 0x0001, 0x104: 0x0001, 0x105: 0x0001,",
   "\t0x106: 0x0001, 0x107: 0x0001, 0x108: 0x0001, 0x109: 0x0001, 0x10a: 0x0001, 0x10b: 0x0001,",
   "\t0x10c: 0x0001, 0x10d: 0x0001, 0x10e: 0x0001, 0x10f: 0x0001, 0x110: 0x0001, 0x111: 0x0001,",
   "\t0x112: 0x0001, 0x113: 0x0001, 0x114: 0x0001, 0x115: 0x0001, 0x116: 0x0001,",
   "\t0x118: 0x0001, 0x119: 0x0001, 0x11a: 0x0001, 0x11b: 0x0001, 0x11c: 0x0001, 0x11d: 0x0001,",
   "\t0x11e: 0x0001, 0x11f: 0x0001, 0x120: 0x0001, 0x121: 0x0001, 0x122: 0x0001, 0x123: 0x0001,",
   "\t0x124: 0x0001, 0x125: 0x0001, 0x126: 0x0001, 0x127: 0x0001, 0x128: 0x0001, 0x129: 0x0001,",
   "\t0x12a: 0x0001, 0x12b: 0x0001, 0x12c: 0x0001, 0x12d: 0x0001, 0x12e: 0x0001, 0x12f: 0x0001,",
   "\t0x130: 0x0001, 0x131: 0x0001, 0x132: 0x0001, 0x133: 0x0001, 0x134: 0x0001, 0x135: 0x0001,",
   "\t0x136: 0x0001, 0x138: 0x0001, 0x139: 0x0001, 0x13a: 0x0001, 0x13b: 0x0001,",
   "\t0x13c: 0x0001, 0x13d: 0x0001, 0x13e: 0x0001, 0x13f: 0x0001,",
   "\t// Block 0x5, offset 0x140",
   "\t0x140: 0x0001, 0x141: 0x0001, 0x142: 0x0001, 0x143: 0x0001, 0x144: 0x0001, 0x145: 0x0001,",
   "\t0x146: 0x0001, 0x147: 0x0001, 0x148: 0x0001, 0x149: 0x0001, 0x14a: 0x0001, 0x14b: 0x0001,",
   "\t0x14c: 0x0001, 0x14d: 0x0001, 0x14e: 0x0001, 0x14f: 0x0001, 0x150: 0x0001, 0x151: 0x0001,",
   "\t0x152: 0x0001, 0x153: 0x0001, 0x154: 0x0001, 0x155: 0x0001, 0x156: 0x0001, 0x157: 0x0001,",
   "\t0x158: 0x0001, 0x159: 0x0001, 0x15a: 0x0001, 0x15b: 0x0001, 0x15c: 0x0001, 0x15d: 0x0001,",
   "\t0x15e: 0x0001, 0x15f: 0x0001, 0x160: 0x0001, 0x161: 0x0001, 0x162: 0x0001, 0x163: 0x0001,",
   "\t0x164: 0x0001, 0x165: 0x0001, 0x166: 0x0001, 0x167: 0x0001, 0x168: 0x0001, 0x169: 0x0001,",
   "\t0x16a: 0x0001, 0x16b: 0x0001, 0x16c: 0x0001, 0x16d: 0x0001, 0x16e: 0x0001, 0x16f: 0x0001,",
   "\t0x170: 0x0001, 0x171: 0x0001, 0x172: 0x0001, 0x173: 0x0001, 0x174: 0x0001, 0x175: 0x0001,",
   "\t0x176: 0x0001, 0x177: 0x0001, 0x178: 0x0001, 0x179: 0x0001, 0x17a: 0x0001, 0x17b: 0x0001,",
   "\t0x17c: 0x0001, 0x17d: 0x0001, 0x17e: 0x0001, 0x17f: 0x0001,",
   "\t// Block 0x6, offset 0x180",
   "\t0x180: 0x0001, 0x181: 0x0001, 0x182: 0x0001, 0x183: 0x0001, 0x184: 0x0001, 0x185: 0x0001,",
   "\t0x186: 0x0001, 0x187: 0x0001, 0x188: 0x0001, 0x189: 0x0001, 0x18a: 0x0001, 0x18b: 0x0001,",
   "\t0x18c: 0x0001, 0x18d: 0x0001, 0x18e: 0x0001, 0x18f: 0x0001, 0x190: 0x0001, 0x191: 0x0001,",
   "\t0x192: 0x0001, 0x193: 0x0001, 0x194: 0x0001, 0x195: 0x0001, 0x196: 0x0001, 0x197: 0x0001,",
   "\t0x19e: 0x0001, 0x19f: 0x0001, 0x1a0: 0x0001, 0x1a1: 0x0001, 0x1a2: 0x0001, 0x1a3: 0x0001,",
   "\t0x1a4: 0x0001, 0x1a5: 0x0001, 0x1a6: 0x0001, 0x1a7: 0x0001, 0x1a8: 0x0001, 0x1a9: 0x0001,",
   "\t0x1aa: 0x0001, 0x1ab: 0x0001, 0x1ac: 0x0001, 0x1ad: 0x0001, 0x1ae: 0x0001, 0x1af: 0x0001,",
   "\t0x1b0: 0x0001, 0x1b1: 0x0001, 0x1b2: 0x0001, 0x1b3: 0x0001, 0x1b4: 0x0001, 0x1b5: 0x0001,",
   "\t0x1b6: 0x0001, 0x1b7: 0x0001, 0x1b8: 0x0001, 0x1b9: 0x0001, 0x1ba: 0x0001, 0x1bb: 0x0001,",
   "\t0x1bc: 0x0001, 0x1bd: 0x0001, 0x1be: 0x0001, 0x1bf: 0x0001,",
   "\t// Block 0x7, offset 0x1c0",
   "\t0x1c0: 0x0010, 0x1c1: 0x0010, 0x1c2: 0x0010, 0x1c3: 0x0010, 0x1c4: 0x0010, 0x1c5: 0x0010,",
   "\t0x1c6: 0x0010, 0x1c7: 0x0010, 0x1c8: 0x0010, 0x1c9: 0x0010, 0x1ca: 0x0010, 0x1cb: 0x0010,",
   "\t0x1cc: 0x0010, 0x1cd: 0x0010, 0x1ce: 0x0010, 0x1cf: 0x0010, 0x1d0: 0x0010, 0x1d1: 0x0010,",
   "\t0x1d2: 0x0010, 0x1d3: 0x0010, 0x1d4: 0x0010, 0x1d5: 0x0010, 0x1d6: 0x0010, 0x1d7: 0x0010,",
   "\t0x1d8: 0x0010, 0x1d9: 0x0010, 0x1da: 0x0010, 0x1db: 0x0010, 0x1dc: 0x0010, 0x1dd: 0x0010,",
   "\t0x1de: 0x0010, 0x1df: 0x0010, 0x1e0: 0x0010, 0x1e1: 0x0010, 0x1e2: 0x0010, 0x1e3: 0x0010,",
   "\t0x1e4: 0x0010, 0x1e5: 0x0010, 0x1e6: 0x0010, 0x1e7: 0x0010, 0x1e8: 0x0010, 0x1e9: 0x0010,",
   "\t0x1ea: 0x0010, 0x1eb: 0x0010, 0x1ec: 0x0010, 0x1ed: 0x0010, 0x1ee: 0x0010, 0x1ef: 0x0010,",
   "\t0x1f0: 0x0010, 0x1f1: 0x0010, 0x1f2: 0x0010, 0x1f3: 0x0010, 0x1f4: 0x0010, 0x1f5: 0x0010,",
   "\t0x1f6: 0x0010, 0x1f7: 0x0010, 0x1f8: 0x0010, 0x1f9: 0x0010, 0x1fa: 0x0010, 0x1fb: 0x0010,",
   "\t0x1fc: 0x0010, 0x1fd: 0x0010, 0x1fe: 0x0010, 0x1ff: 0x0010,",
   "\t// Block 0x8, offset 0x200",
   "\t0x200: 0x0010, 0x201: 0x0010, 0x202: 0x0010, 0x203: 0x0010, 0x204: 0x0010, 0x205: 0x0010,",
   "\t0x206: 0x0010, 0x207: 0x0010, 0x208: 0x0010, 0x209: 0x0010, 0x20a: 0x0010, 0x20b: 0x0010,",
   "\t0x20c: 0x0010, 0x20d: 0x0010, 0x20e: 0x0010, 0x20f: 0x0010, 0x210: 0x0010, 0x211: 0x0010,",
   "\t0x212: 0x0010, 0x213: 0x0010, 0x214: 0x0010, 0x215: 0x0010, 0x216: 0x0010, 0x217: 0x0010,",
   "\t0x218: 0x0010, 0x219: 0x0010, 0x21a: 0x0010, 0x21b: 0x0010, 0x21c: 0x0010, 0x21d: 0x0010,",
   "\t0x21e: 0x0010, 0x21f: 0x0010, 0x220: 0x0010, 0x221: 0x0010, 0x222: 0x0010, 0x223: 0x0010,",
   "\t0x224: 0x0010, 0x225: 0x0010, 0x226: 0x0010, 0x227: 0x0010, 0x228: 0x0010, 0x229: 0x0010,",
   "\t0x22a: 0x0010, 0x22b: 0x0010, 0x22c: 0x0010, 0x22d: 0x0010, 0x22e: 0x0010, 0x22f: 0x0010,",
   "\t0x230: 0x0001, 0x231: 0x0001, 0x232: 0x0001, 0x233: 0x0001, 0x234: 0x0001,",
   "\t0x236: 0x0001, 0x237: 0x0001, 0x23a: 0x0001, 0x23b: 0x0001,",
   "\t0x23c: 0x0001, 0x23d: 0x0001, 0x23e: 0x1000, 0x23f: 0x0001,",
   "\t// Block 0x9, offset 0x240",
   "\t0x246: 0x0001, 0x247: 0x0800, 0x248: 0x0001, 0x249: 0x0001, 0x24a: 0x0001,",
   "\t0x24c: 0x0001, 0x24e: 0x0001, 0x24f: 0x0001, 0x250: 0x0001, 0x251: 0x0001,",
   "\t0x252: 0x0001, 0x253: 0x0001, 0x254: 0x0001, 0x255: 0x0001, 0x256: 0x0001, 0x257: 0x0001,",
   "\t0x258: 0x0001, 0x259: 0x0001, 0x25a: 0x0001, 0x25b: 0x0001, 0x25c: 0x0001, 0x25d: 0x0001,",
   "\t0x25e: 0x0001, 0x25f: 0x0001, 0x260: 0x0001, 0x261: 0x0001, 0x263: 0x0001,",
   "\t0x264: 0x0001, 0x265: 0x0001, 0x266: 0x0001, 0x267: 0x0001, 0x268: 0x0001, 0x269: 0x0001,",
   "\t0x26a: 0x0001, 0x26b: 0x0001, 0x26c: 0x0001, 0x26d: 0x0001, 0x26e: 0x0001, 0x26f: 0x0001,",
   "\t0x270: 0x0001, 0x271: 0x0001, 0x272: 0x0001, 0x273: 0x0001, 0x274: 0x0001, 0x275: 0x0001,",
   "\t0x276: 0x0001, 0x277: 0x0001, 0x278: 0x0001, 0x279: 0x0001, 0x27a: 0x0001, 0x27b: 0x0001,",
   "\t0x27c: 0x0001, 0x27d: 0x0001, 0x27e: 0x0001, 0x27f: 0x0001,",
   "\t// Block 0xa, offset 0x280",
   "\t0x280: 0x0001, 0x281: 0x0001, 0x282: 0x0001, 0x283: 0x0001, 0x284: 0x0001, 0x285: 0x0001,",
   "\t0x286: 0x0001, 0x287: 0x0001, 0x288: 0x0001, 0x289: 0x0001, 0x28a: 0x0001, 0x28b: 0x0001,",
   "\t0x28c: 0x0001, 0x28d: 0x0001, 0x28e: 0x0001, 0x28f: 0x0001, 0x290: 0x0001, 0x291: 0x0001,",
   "\t0x292: 0x0001, 0x293: 0x0001, 0x294: 0x0001, 0x295: 0x0001, 0x296: 0x0001, 0x297: 0x0001,",
   "\t0x298: 0x0001, 0x299: 0x0001, 0x29a: 0x0001, 0x29b: 0x0001, 0x29c: 0x0001, 0x29d: 0x0001,",
   "\t0x29e: 0x0001, 0x29f: 0x0001, 0x2a0: 0x0001, 0x2a1: 0x0001, 0x2a2: 0x0001, 0x2a3: 0x0001,",
   "\t0x2a4: 0x0001, 0x2a5: 0x0001, 0x2a6: 0x0001, 0x2a7: 0x0001, 0x2a8: 0x0001, 0x2a9: 0x0001,",
   "\t0x2aa: 0x0001, 0x2ab: 0x0001, 0x2ac: 0x0001, 0x2ad: 0x0001, 0x2ae: 0x0001, 0x2af: 0x0001,",
   "\t0x2b0: 0x0001, 0x2b1: 0x0001, 0x2b2: 0x0001, 0x2b3: 0x0001, 0x2b4: 0x0001, 0x2b5: 0x0001,",
   "\t0x2b7: 0x0001, 0x2b8: 0x0001, 0x2b9: 0x0001, 0x2ba: 0x0001, 0x2bb: 0x0001,",
   "\t0x2bc: 0x0001, 0x2bd: 0x0001, 0x2be: 0x0001, 0x2bf: 0x0001,",
   "\t// Block 0xb, offset 0x2c0",
   "\t0x2c0: 0x0001, 0x2c1: 0x0001, 0x2c3: 0x0010, 0x2c4: 0x0010, 0x2c5: 0x0010,",
   "\t0x2c6: 0x0010, 0x2c7: 0x0010, 0x2c8: 0x0010, 0x2c9: 0x0010, 0x2ca: 0x0001, 0x2cb: 0x0001,",
   "\t0x2cc: 0x0001, 0x2cd: 0x0001, 0x2ce: 0x0001, 0x2cf: 0x0001, 0x2d0: 0x0001, 0x2d1: 0x0001,",
   "\t0x2d2: 0x0001, 0x2d3: 0x0001, 0x2d4: 0x0001, 0x2d5: 0x0001, 0x2d6: 0x0001, 0x2d7: 0x0001,",
   "\t0x2d8: 0x0001, 0x2d9: 0x0001, 0x2da: 0x0001, 0x2db: 0x0001, 0x2dc: 0x0001, 0x2dd: 0x0001,",
   "\t0x2de: 0x0001, 0x2df: 0x0001, 0x2e0: 0x0001, 0x2e1: 0x0001, 0x2e2: 0x0001, 0x2e3: 0x0001,",
   "\t0x2e4: 0x0001, 0x2e5: 0x0001, 0x2e6: 0x0001, 0x2e7: 0x0001, 0x2e8: 0x0001, 0x2e9: 0x0001,",
   "\t0x2ea: 0x0001, 0x2eb: 0x0001, 0x2ec: 0x0001, 0x2ed: 0x0001, 0x2ee: 0x0001, 0x2ef: 0x0001,",
   "\t0x2f0: 0x0001, 0x2f1: 0x0001, 0x2f2: 0x0001, 0x2f3: 0x0001, 0x2f4: 0x0001, 0x2f5: 0x0001,",
   "\t0x2f6: 0x0001, 0x2f7: 0x0001, 0x2f8: 0x0001, 0x2f9: 0x0001, 0x2fa: 0x0001, 0x2fb: 0x0001,",
   "\t0x2fc: 0x0001, 0x2fd: 0x0001, 0x2fe: 0x0001, 0x2ff: 0x0001,",
   "\t// Block 0xc, offset 0x300",
   "\t0x300: 0x0001, 0x301: 0x0001, 0x302: 0x0001, 0x303: 0x0001, 0x304: 0x0001, 0x305: 0x0001,",
   "\t0x306: 0x0001, 0x307: 0x0001, 0x308: 0x0001, 0x309: 0x0001, 0x30a: 0x0001, 0x30b: 0x0001,",
   "\t0x30c: 0x0001, 0x30d: 0x0001, 0x30e: 0x0001, 0x30f: 0x0001, 0x310: 0x0001, 0x311: 0x0001,",
   "\t0x312: 0x0001, 0x313: 0x0001, 0x314: 0x0001, 0x315: 0x0001, 0x316: 0x0001, 0x317: 0x0001,",
   "\t0x318: 0x0001, 0x319: 0x0001, 0x31a: 0x0001, 0x31b: 0x0001, 0x31c: 0x0001, 0x31d: 0x0001,",
   "\t0x31e: 0x0001, 0x31f: 0x0001, 0x320: 0x0001, 0x321: 0x0001, 0x322: 0x0001, 0x323: 0x0001,",
   "\t0x324: 0x0001, 0x325: 0x0001, 0x326: 0x0001, 0x327: 0x0001, 0x328: 0x0001, 0x329: 0x0001,",
   "\t0x32a: 0x0001, 0x32b: 0x0001, 0x32c: 0x0001, 0x32d: 0x0001, 0x32e: 0x0001, 0x32f: 0x0001,",
   "\t0x331: 0x0001, 0x332: 0x0001, 0x333: 0x0001, 0x334: 0x0001, 0x335: 0x0001,",
   "\t0x336: 0x0001, 0x337: 0x0001, 0x338: 0x0001, 0x339: 0x0001, 0x33a: 0x0001, 0x33b: 0x0001,",
   "\t0x33c: 0x0001, 0x33d: 0x0001, 0x33e: 0x0001, 0x33f: 0x0001,",
   "\t// Block 0xd, offset 0x340",
   "\t0x340: 0x0001, 0x341: 0x0001, 0x342: 0x0001, 0x343: 0x0001, 0x344: 0x0001, 0x345: 0x0001,",
   "\t0x346: 0x0001, 0x347: 0x0001, 0x348: 0x0001, 0x349: 0x0001, 0x34a: 0x0001, 0x34b: 0x0001,",
   "\t0x34c: 0x0001, 0x34d: 0x0001, 0x34e: 0x0001, 0x34f: 0x0001, 0x350: 0x0001, 0x351: 0x0001,",
   "\t0x352: 0x0001, 0x353: 0x0001, 0x354: 0x0001, 0x355: 0x0001, 0x356: 0x0001,",
   "\t0x359: 0x0001, 0x35a: 0x0001, 0x35b: 0x0001, 0x35c: 0x0001,",
   "\t0x35e: 0x0001, 0x35f: 0x0800, 0x360: 0x0001, 0x361: 0x0001, 0x362: 0x0001, 0x363: 0x0001,",
   "\t0x364: 0x0001, 0x365: 0x0001, 0x366: 0x0001, 0x367: 0x0001, 0x368: 0x0001, 0x369: 0x0001,",
   "\t0x36a: 0x0001, 0x36b: 0x0001, 0x36c: 0x0001, 0x36d: 0x0001, 0x36e: 0x0001, 0x36f: 0x0001,",
   "\t0x370: 0x0001, 0x371: 0x0001, 0x372: 0x0001, 0x373: 0x0001, 0x374: 0x0001, 0x375: 0x0001,",
   "\t0x376: 0x0001, 0x377: 0x0001, 0x378: 0x0001, 0x379: 0x0001, 0x37a: 0x0001, 0x37b: 0x0001,",
   "\t0x37c: 0x0001, 0x37d: 0x0001, 0x37e: 0x0001, 0x37f: 0x0001,",
   "\t// Block 0xe, offset 0x380",
   "\t0x380: 0x0001, 0x381: 0x0001, 0x382: 0x0001, 0x383: 0x0001, 0x384: 0x0001, 0x385: 0x0001,",
   "\t0x386: 0x0001, 0x387: 0x0001, 0x388: 0x0001, 0x389: 0x1000, 0x38a: 0x0001,",
   "\t0x391: 0x0010,",
   "\t0x392: 0x0010, 0x393: 0x0010, 0x394: 0x0010, 0x395: 0x0010, 0x396: 0x0010, 0x397: 0x0010,",
   "\t0x398: 0x0010, 0x399: 0x0010, 0x39a: 0x0010, 0x39b: 0x0010, 0x39c: 0x0010, 0x39d: 0x0010,",
   "\t0x39e: 0x0010, 0x39f: 0x0010, 0x3a0: 0x0010, 0x3a1: 0x0010, 0x3a2: 0x0010, 0x3a3: 0x0010,",
   "\t0x3a4: 0x0010, 0x3a5: 0x0010, 0x3a6: 0x0010, 0x3a7: 0x0010, 0x3a8: 0x0010, 0x3a9: 0x0010,",
   "\t0x3aa: 0x0010, 0x3ab: 0x0010, 0x3ac: 0x0010, 0x3ad: 0x0010, 0x3ae: 0x0010, 0x3af: 0x0010,",
   "\t0x3b0: 0x0010, 0x3b1: 0x0010, 0x3b2: 0x0010, 0x3b3: 0x0010, 0x3b4: 0x0010, 0x3b5: 0x0010,",
   "\t0x3b6: 0x0010, 0x3b7: 0x0010, 0x3b8: 0x0010, 0x3b9: 0x0010, 0x3ba: 0x0010, 0x3bb: 0x0010,",
   "\t0x3bc: 0x0010, 0x3bd: 0x0010, 0x3bf: 0x0010,",
   "\t// Block 0xf, offset 0x3c0",
   "\t0x3c1: 0x0010, 0x3c2: 0x0010, 0x3c4: 0x0010, 0x3c5: 0x0010,",
   "\t0x3c7: 0x0010,",
   "\t0x3d0: 0x0100, 0x3d1: 0x0100,",
   "\t0x3d2: 0x0100, 0x3d3: 0x0100, 0x3d4: 0x0100, 0x3d5: 0x0100, 0x3d6: 0x0100, 0x3d7: 0x0100,",
   "\t0x3d8: 0x0100, 0x3d9: 0x0100, 0x3da: 0x0100, 0x3db: 0x0100, 0x3dc: 0x0100, 0x3dd: 0x0100,",
   "\t0x3de: 0x0100, 0x3df: 0x0100, 0x3e0: 0x0100, 0x3e1: 0x0100, 0x3e2: 0x0100, 0x3e3: 0x0100,",
   "\t0x3e4: 0x0100, 0x3e5: 0x0100, 0x3e6: 0x0100, 0x3e7: 0x0100, 0x3e8: 0x0100, 0x3e9: 0x0100,",
   "\t0x3ea: 0x0100, 0x3ef: 0x0100,",
   "\t0x3f0: 0x0100, 0x3f1: 0x0100, 0x3f2: 0x0100, 0x3f3: 0x0001, 0x3f4: 0x0800,"]
theorem v0_eq : v0 = (layout 6 4 0 ((Table.Values.blocks.drop 0).take 16)).map String.ofList := by
  kernel_rfl
/-- words/trie.go:278-460, `wordsValues` from block 0x10 on. -/
def v1 : List String :=
  ["\t// Block 0x10, offset 0x400",
   "\t0x400: 0x8000, 0x401: 0x8000, 0x402: 0x8000, 0x403: 0x8000, 0x404: 0x8000, 0x405: 0x8000,",
   "\t0x40c: 0x1000, 0x40d: 0x1000, 0x410: 0x0010, 0x411: 0x0010,",
   "\t0x412: 0x0010, 0x413: 0x0010, 0x414: 0x0010, 0x415: 0x0010, 0x416: 0x0010, 0x417: 0x0010,",
   "\t0x418: 0x0010, 0x419: 0x0010, 0x41a: 0x0010, 0x41c: 0x0080,",
   "\t0x420: 0x0001, 0x421: 0x0001, 0x422: 0x0001, 0x423: 0x0001,",
   "\t0x424: 0x0001, 0x425: 0x0001, 0x426: 0x0001, 0x427: 0x0001, 0x428: 0x0001, 0x429: 0x0001,",
   "\t0x42a: 0x0001, 0x42b: 0x0001, 0x42c: 0x0001, 0x42d: 0x0001, 0x42e: 0x0001, 0x42f: 0x0001,",
   "\t0x430: 0x0001, 0x431: 0x0001, 0x432: 0x0001, 0x433: 0x0001, 0x434: 0x0001, 0x435: 0x0001,",
   "\t0x436: 0x0001, 0x437: 0x0001, 0x438: 0x0001, 0x439: 0x0001, 0x43a: 0x0001, 0x43b: 0x0001,",
   "\t0x43c: 0x0001, 0x43d: 0x0001, 0x43e: 0x0001, 0x43f: 0x0001,",
   "\t// Block 0x11, offset 0x440",
   "\t0x440: 0x0001, 0x441: 0x0001, 0x442: 0x0001, 0x443: 0x0001, 0x444: 0x0001, 0x445: 0x0001,",
   "\t0x446: 0x0001, 0x447: 0x0001, 0x448: 0x0001, 0x449: 0x0001, 0x44a: 0x0001, 0x44b: 0x0010,",
   "\t0x44c: 0x0010, 0x44d: 0x0010, 0x44e: 0x0010, 0x44f: 0x0010, 0x450: 0x0010, 0x451: 0x0010,",
   "\t0x452: 0x0010, 0x453: 0x0010, 0x454: 0x0010, 0x455: 0x0010, 0x456: 0x0010, 0x457: 0x0010,",
   "\t0x458: 0x0010, 0x459: 0x0010, 0x45a: 0x0010, 0x45b: 0x0010, 0x45c: 0x0010, 0x45d: 0x0010,",
   "\t0x45e: 0x0010, 0x45f: 0x0010, 0x460: 0x8000, 0x461: 0x8000, 0x462: 0x8000, 0x463: 0x8000,",
   "\t0x464: 0x8000, 0x465: 0x8000, 0x466: 0x8000, 0x467: 0x8000, 0x468: 0x8000, 0x469: 0x8000,",
   "\t0x46b: 0x8000, 0x46c: 0x1000, 0x46e: 0x0001, 0x46f: 0x0001,",
   "\t0x470: 0x0010, 0x471: 0x0001, 0x472: 0x0001, 0x473: 0x0001, 0x474: 0x0001, 0x475: 0x0001,",
   "\t0x476: 0x0001, 0x477: 0x0001, 0x478: 0x0001, 0x479: 0x0001, 0x47a: 0x0001, 0x47b: 0x0001,",
   "\t0x47c: 0x0001, 0x47d: 0x0001, 0x47e: 0x0001, 0x47f: 0x0001,",
   "\t// Block 0x12, offset 0x480",
   "\t0x480: 0x0001, 0x481: 0x0001, 0x482: 0x0001, 0x483: 0x0001, 0x484: 0x0001, 0x485: 0x0001,",
   "\t0x486: 0x0001, 0x487: 0x0001, 0x488: 0x0001, 0x489: 0x0001, 0x48a: 0x0001, 0x48b: 0x0001,",
   "\t0x48c: 0x0001, 0x48d: 0x0001, 0x48e: 0x0001, 0x48f: 0x0001, 0x490: 0x0001, 0x491: 0x0001,",
   "\t0x492: 0x0001, 0x493: 0x0001, 0x495: 0x0001, 0x496: 0x0010, 0x497: 0x0010,",
   "\t0x498: 0x0010, 0x499: 0x0010, 0x49a: 0x0010, 0x49b: 0x0010, 0x49c: 0x0010, 0x49d: 0x8000,",
   "\t0x49f: 0x0010, 0x4a0: 0x0010, 0x4a1: 0x0010, 0x4a2: 0x0010, 0x4a3: 0x0010,",
   "\t0x4a4: 0x0010, 0x4a5: 0x0001, 0x4a6: 0x0001, 0x4a7: 0x0010, 0x4a8: 0x0010,",
   "\t0x4aa: 0x0010, 0x4ab: 0x0010, 0x4ac: 0x0010, 0x4ad: 0x0010, 0x4ae: 0x0001, 0x4af: 0x0001,",
   "\t0x4b0: 0x8000, 0x4b1: 0x8000, 0x4b2: 0x8000, 0x4b3: 0x8000, 0x4b4: 0x8000, 0x4b5: 0x8000,",
   "\t0x4b6: 0x8000, 0x4b7: 0x8000, 0x4b8: 0x8000, 0x4b9: 0x8000, 0x4ba: 0x0001, 0x4bb: 0x0001,",
   "\t0x4bc: 0x0001, 0x4bf: 0x0001,",
   "\t// Block 0x13, offset 0x4c0",
   "\t0x4cf: 0x0001, 0x4d0: 0x0001, 0x4d1: 0x0010,",
   "\t0x4d2: 0x0001, 0x4d3: 0x0001, 0x4d4: 0x0001, 0x4d5: 0x0001, 0x4d6: 0x0001, 0x4d7: 0x0001,",
   "\t0x4d8: 0x0001, 0x4d9: 0x0001, 0x4da: 0x0001, 0x4db: 0x0001, 0x4dc: 0x0001, 0x4dd: 0x0001,",
   "\t0x4de: 0x0001, 0x4df: 0x0001, 0x4e0: 0x0001, 0x4e1: 0x0001, 0x4e2: 0x0001, 0x4e3: 0x0001,",
   "\t0x4e4: 0x0001, 0x4e5: 0x0001, 0x4e6: 0x0001, 0x4e7: 0x0001, 0x4e8: 0x0001, 0x4e9: 0x0001,",
   "\t0x4ea: 0x0001, 0x4eb: 0x0001, 0x4ec: 0x0001, 0x4ed: 0x0001, 0x4ee: 0x0001, 0x4ef: 0x0001,",
   "\t0x4f0: 0x0010, 0x4f1: 0x0010, 0x4f2: 0x0010, 0x4f3: 0x0010, 0x4f4: 0x0010, 0x4f5: 0x0010,",
   "\t0x4f6: 0x0010, 0x4f7: 0x0010, 0x4f8: 0x0010, 0x4f9: 0x0010, 0x4fa: 0x0010, 0x4fb: 0x0010,",
   "\t0x4fc: 0x0010, 0x4fd: 0x0010, 0x4fe: 0x0010, 0x4ff: 0x0010,",
   "\t// Block 0x14, offset 0x500",
   "\t0x500: 0x0010, 0x501: 0x0010, 0x502: 0x0010, 0x503: 0x0010, 0x504: 0x0010, 0x505: 0x0010,",
   "\t0x506: 0x0010, 0x507: 0x0010, 0x508: 0x0010, 0x509: 0x0010, 0x50a: 0x0010,",
   "\t0x50d: 0x0001, 0x50e: 0x0001, 0x50f: 0x0001, 0x510: 0x0001, 0x511: 0x0001,",
   "\t0x512: 0x0001, 0x513: 0x0001, 0x514: 0x0001, 0x515: 0x0001, 0x516: 0x0001, 0x517: 0x0001,",
   "\t0x518: 0x0001, 0x519: 0x0001, 0x51a: 0x0001, 0x51b: 0x0001, 0x51c: 0x0001, 0x51d: 0x0001,",
   "\t0x51e: 0x0001, 0x51f: 0x0001, 0x520: 0x0001, 0x521: 0x0001, 0x522: 0x0001, 0x523: 0x0001,",
   "\t0x524: 0x0001, 0x525: 0x0001, 0x526: 0x0001, 0x527: 0x0001, 0x528: 0x0001, 0x529: 0x0001,",
   "\t0x52a: 0x0001, 0x52b: 0x0001, 0x52c: 0x0001, 0x52d: 0x0001, 0x52e: 0x0001, 0x52f: 0x0001,",
   "\t0x530: 0x0001, 0x531: 0x0001, 0x532: 0x0001, 0x533: 0x0001, 0x534: 0x0001, 0x535: 0x0001,",
   "\t0x536: 0x0001, 0x537: 0x0001, 0x538: 0x0001, 0x539: 0x0001, 0x53a: 0x0001, 0x53b: 0x0001,",
   "\t0x53c: 0x0001, 0x53d: 0x0001, 0x53e: 0x0001, 0x53f: 0x0001,",
   "\t// Block 0x15, offset 0x540",
   "\t0x540: 0x0001, 0x541: 0x0001, 0x542: 0x0001, 0x543: 0x0001, 0x544: 0x0001, 0x545: 0x0001,",
   "\t0x546: 0x0001, 0x547: 0x0001, 0x548: 0x0001, 0x549: 0x0001, 0x54a: 0x0001, 0x54b: 0x0001,",
   "\t0x54c: 0x0001, 0x54d: 0x0001, 0x54e: 0x0001, 0x54f: 0x0001, 0x550: 0x0001, 0x551: 0x0001,",
   "\t0x552: 0x0001, 0x553: 0x0001, 0x554: 0x0001, 0x555: 0x0001, 0x556: 0x0001, 0x557: 0x0001,",
   "\t0x558: 0x0001, 0x559: 0x0001, 0x55a: 0x0001, 0x55b: 0x0001, 0x55c: 0x0001, 0x55d: 0x0001,",
   "\t0x55e: 0x0001, 0x55f: 0x0001, 0x560: 0x0001, 0x561: 0x0001, 0x562: 0x0001, 0x563: 0x0001,",
   "\t0x564: 0x0001, 0x565: 0x0001, 0x566: 0x0010, 0x567: 0x0010, 0x568: 0x0010, 0x569: 0x0010,",
   "\t0x56a: 0x0010, 0x56b: 0x0010, 0x56c: 0x0010, 0x56d: 0x0010, 0x56e: 0x0010, 0x56f: 0x0010,",
   "\t0x570: 0x0010, 0x571: 0x0001,",
   "\t// Block 0x16, offset 0x580",
   "\t0x580: 0x8000, 0x581: 0x8000, 0x582: 0x8000, 0x583: 0x8000, 0x584: 0x8000, 0x585: 0x8000,",
   "\t0x586: 0x8000, 0x587: 0x8000, 0x588: 0x8000, 0x589: 0x8000, 0x58a: 0x0001, 0x58b: 0x0001,",
   "\t0x58c: 0x0001, 0x58d: 0x0001, 0x58e: 0x0001, 0x58f: 0x0001, 0x590: 0x0001, 0x591: 0x0001,",
   "\t0x592: 0x0001, 0x593: 0x0001, 0x594: 0x0001, 0x595: 0x0001, 0x596: 0x0001, 0x597: 0x0001,",
   "\t0x598: 0x0001, 0x599: 0x0001, 0x59a: 0x0001, 0x59b: 0x0001, 0x59c: 0x0001, 0x59d: 0x0001,",
   "\t0x59e: 0x0001, 0x59f: 0x0001, 0x5a0: 0x0001, 0x5a1: 0x0001, 0x5a2: 0x0001, 0x5a3: 0x0001,",
   "\t0x5a4: 0x0001, 0x5a5: 0x0001, 0x5a6: 0x0001, 0x5a7: 0x0001, 0x5a8: 0x0001, 0x5a9: 0x0001,",
   "\t0x5aa: 0x0001, 0x5ab: 0x0010, 0x5ac: 0x0010, 0x5ad: 0x0010, 0x5ae: 0x0010, 0x5af: 0x0010,",
   "\t0x5b0: 0x0010, 0x5b1: 0x0010, 0x5b2: 0x0010, 0x5b3: 0x0010, 0x5b4: 0x0001, 0x5b5: 0x0001,",
   "\t0x5b8: 0x1000, 0x5ba: 0x0001,",
   "\t0x5bd: 0x0010,",
   "\t// Block 0x17, offset 0x5c0",
   "\t0x5c0: 0x0001, 0x5c1: 0x0001, 0x5c2: 0x0001, 0x5c3: 0x0001, 0x5c4: 0x0001, 0x5c5: 0x0001,",
   "\t0x5c6: 0x0001, 0x5c7: 0x0001, 0x5c8: 0x0001, 0x5c9: 0x0001, 0x5ca: 0x0001, 0x5cb: 0x0001,",
   "\t0x5cc: 0x0001, 0x5cd: 0x0001, 0x5ce: 0x0001, 0x5cf: 0x0001, 0x5d0: 0x0001, 0x5d1: 0x0001,",
   "\t0x5d2: 0x0001, 0x5d3: 0x0001, 0x5d4: 0x0001, 0x5d5: 0x0001, 0x5d6: 0x0010, 0x5d7: 0x0010,",
   "\t0x5d8: 0x0010, 0x5d9: 0x0010, 0x5da: 0x0001, 0x5db: 0x0010, 0x5dc: 0x0010, 0x5dd: 0x0010,",
   "\t0x5de: 0x0010, 0x5df: 0x0010, 0x5e0: 0x0010, 0x5e1: 0x0010, 0x5e2: 0x0010, 0x5e3: 0x0010,",
   "\t0x5e4: 0x0001, 0x5e5: 0x0010, 0x5e6: 0x0010, 0x5e7: 0x0010, 0x5e8: 0x0001, 0x5e9: 0x0010,",
   "\t0x5ea: 0x0010, 0x5eb: 0x0010, 0x5ec: 0x0010, 0x5ed: 0x0010,",
   "\t// Block 0x18, offset 0x600",
   "\t0x600: 0x0001, 0x601: 0x0001, 0x602: 0x0001, 0x603: 0x0001, 0x604: 0x0001, 0x605: 0x0001,",
   "\t0x606: 0x0001, 0x607: 0x0001, 0x608: 0x0001, 0x609: 0x0001, 0x60a: 0x0001, 0x60b: 0x0001,",
   "\t0x60c: 0x0001, 0x60d: 0x0001, 0x60e: 0x0001, 0x60f: 0x0001, 0x610: 0x0001, 0x611: 0x0001,",
   "\t0x612: 0x0001, 0x613: 0x0001, 0x614: 0x0001, 0x615: 0x0001, 0x616: 0x0001, 0x617: 0x0001,",
   "\t0x618: 0x0001, 0x619: 0x0010, 0x61a: 0x0010, 0x61b: 0x0010,",
   "\t0x620: 0x0001, 0x621: 0x0001, 0x622: 0x0001, 0x623: 0x0001,",
   "\t0x624: 0x0001, 0x625: 0x0001, 0x626: 0x0001, 0x627: 0x0001, 0x628: 0x0001, 0x629: 0x0001,",
   "\t0x62a: 0x0001,",
   "\t0x630: 0x0001, 0x631: 0x0001, 0x632: 0x0001, 0x633: 0x0001, 0x634: 0x0001, 0x635: 0x0001,",
   "\t0x636: 0x0001, 0x637: 0x0001, 0x638: 0x0001, 0x639: 0x0001, 0x63a: 0x0001, 0x63b: 0x0001,",
   "\t0x63c: 0x0001, 0x63d: 0x0001, 0x63e: 0x0001, 0x63f: 0x0001,",
   "\t// Block 0x19, offset 0x640",
   "\t0x640: 0x0001, 0x641: 0x0001, 0x642: 0x0001, 0x643: 0x0001, 0x644: 0x0001, 0x645: 0x0001,",
   "\t0x646: 0x0001, 0x647: 0x0001, 0x649: 0x0001, 0x64a: 0x0001, 0x64b: 0x0001,",
   "\t0x64c: 0x0001, 0x64d: 0x0001, 0x64e: 0x0001, 0x64f: 0x0001, 0x650: 0x8000, 0x651: 0x8000,",
   "\t0x657: 0x0010,",
   "\t0x658: 0x0010, 0x659: 0x0010, 0x65a: 0x0010, 0x65b: 0x0010, 0x65c: 0x0010, 0x65d: 0x0010,",
   "\t0x65e: 0x0010, 0x65f: 0x0010, 0x660: 0x0001, 0x661: 0x0001, 0x662: 0x0001, 0x663: 0x0001,",
   "\t0x664: 0x0001, 0x665: 0x0001, 0x666: 0x0001, 0x667: 0x0001, 0x668: 0x0001, 0x669: 0x0001,",
   "\t0x66a: 0x0001, 0x66b: 0x0001, 0x66c: 0x0001, 0x66d: 0x0001, 0x66e: 0x0001, 0x66f: 0x0001,",
   "\t0x670: 0x0001, 0x671: 0x0001, 0x672: 0x0001, 0x673: 0x0001, 0x674: 0x0001, 0x675: 0x0001,",
   "\t0x676: 0x0001, 0x677: 0x0001, 0x678: 0x0001, 0x679: 0x0001, 0x67a: 0x0001, 0x67b: 0x0001,",
   "\t0x67c: 0x0001, 0x67d: 0x0001, 0x67e: 0x0001, 0x67f: 0x0001,",
   "\t// Block 0x1a, offset 0x680",
   "\t0x680: 0x0001, 0x681: 0x0001, 0x682: 0x0001, 0x683: 0x0001, 0x684: 0x0001, 0x685: 0x0001,",
   "\t0x686: 0x0001, 0x687: 0x0001, 0x688: 0x0001, 0x689: 0x0001, 0x68a: 0x0010, 0x68b: 0x0010,",
   "\t0x68c: 0x0010, 0x68d: 0x0010, 0x68e: 0x0010, 0x68f: 0x0010, 0x690: 0x0010, 0x691: 0x0010,",
   "\t0x692: 0x0010, 0x693: 0x0010, 0x694: 0x0010, 0x695: 0x0010, 0x696: 0x0010, 0x697: 0x0010,",
   "\t0x698: 0x0010, 0x699: 0x0010, 0x69a: 0x0010, 0x69b: 0x0010, 0x69c: 0x0010, 0x69d: 0x0010,",
   "\t0x69e: 0x0010, 0x69f: 0x0010, 0x6a0: 0x0010, 0x6a1: 0x0010, 0x6a2: 0x8000, 0x6a3: 0x0010,",
   "\t0x6a4: 0x0010, 0x6a5: 0x0010, 0x6a6: 0x0010, 0x6a7: 0x0010, 0x6a8: 0x0010, 0x6a9: 0x0010,",
   "\t0x6aa: 0x0010, 0x6ab: 0x0010, 0x6ac: 0x0010, 0x6ad: 0x0010, 0x6ae: 0x0010, 0x6af: 0x0010,",
   "\t0x6b0: 0x0010, 0x6b1: 0x0010, 0x6b2: 0x0010, 0x6b3: 0x0010, 0x6b4: 0x0010, 0x6b5: 0x0010,",
   "\t0x6b6: 0x0010, 0x6b7: 0x0010, 0x6b8: 0x0010, 0x6b9: 0x0010, 0x6ba: 0x0010, 0x6bb: 0x0010,",
   "\t0x6bc: 0x0010, 0x6bd: 0x0010, 0x6be: 0x0010, 0x6bf: 0x0010,",
   "\t// Block 0x1b, offset 0x6c0",
   "\t0x6c0: 0x0010, 0x6c1: 0x0010, 0x6c2: 0x0010, 0x6c3: 0x0010, 0x6c4: 0x0001, 0x6c5: 0x0001,",
   "\t0x6c6: 0x0001, 0x6c7: 0x0001, 0x6c8: 0x0001, 0x6c9: 0x0001, 0x6ca: 0x0001, 0x6cb: 0x0001,",
   "\t0x6cc: 0x0001, 0x6cd: 0x0001, 0x6ce: 0x0001, 0x6cf: 0x0001, 0x6d0: 0x0001, 0x6d1: 0x0001,",
   "\t0x6d2: 0x0001, 0x6d3: 0x0001, 0x6d4: 0x0001, 0x6d5: 0x0001, 0x6d6: 0x0001, 0x6d7: 0x0001,",
   "\t0x6d8: 0x0001, 0x6d9: 0x0001, 0x6da: 0x0001, 0x6db: 0x0001, 0x6dc: 0x0001, 0x6dd: 0x0001,",
   "\t0x6de: 0x0001, 0x6df: 0x0001, 0x6e0: 0x0001, 0x6e1: 0x0001, 0x6e2: 0x0001, 0x6e3: 0x0001,",
   "\t0x6e4: 0x0001, 0x6e5: 0x0001, 0x6e6: 0x0001, 0x6e7: 0x0001, 0x6e8: 0x0001, 0x6e9: 0x0001,",
   "\t0x6ea: 0x0001, 0x6eb: 0x0001, 0x6ec: 0x0001, 0x6ed: 0x0001, 0x6ee: 0x0001, 0x6ef: 0x0001,",
   "\t0x6f0: 0x0001, 0x6f1: 0x0001, 0x6f2: 0x0001, 0x6f3: 0x0001, 0x6f4: 0x0001, 0x6f5: 0x0001,",
   "\t0x6f6: 0x0001, 0x6f7: 0x0001, 0x6f8: 0x0001, 0x6f9: 0x0001, 0x6fa: 0x0010, 0x6fb: 0x0010,",
   "\t0x6fc: 0x0010, 0x6fd: 0x0001, 0x6fe: 0x0010, 0x6ff: 0x0010,",
   "\t// Block 0x1c, offset 0x700",
   "\t0x700: 0x0010, 0x701: 0x0010, 0x702: 0x0010, 0x703: 0x0010, 0x704: 0x0010, 0x705: 0x0010,",
   "\t0x706: 0x0010, 0x707: 0x0010, 0x708: 0x0010, 0x709: 0x0010, 0x70a: 0x0010, 0x70b: 0x0010,",
   "\t0x70c: 0x0010, 0x70d: 0x0010, 0x70e: 0x0010, 0x70f: 0x0010, 0x710: 0x0001, 0x711: 0x0010,",
   "\t0x712: 0x0010, 0x713: 0x0010, 0x714: 0x0010, 0x715: 0x0010, 0x716: 0x0010, 0x717: 0x0010,",
   "\t0x718: 0x0001, 0x719: 0x0001, 0x71a: 0x0001, 0x71b: 0x0001, 0x71c: 0x0001, 0x71d: 0x0001,",
   "\t0x71e: 0x0001, 0x71f: 0x0001, 0x720: 0x0001, 0x721: 0x0001, 0x722: 0x0010, 0x723: 0x0010,",
   "\t0x726: 0x8000, 0x727: 0x8000, 0x728: 0x8000, 0x729: 0x8000,",
   "\t0x72a: 0x8000, 0x72b: 0x8000, 0x72c: 0x8000, 0x72d: 0x8000, 0x72e: 0x8000, 0x72f: 0x8000,",
   "\t0x731: 0x0001, 0x732: 0x0001, 0x733: 0x0001, 0x734: 0x0001, 0x735: 0x0001,",
   "\t0x736: 0x0001, 0x737: 0x0001, 0x738: 0x0001, 0x739: 0x0001, 0x73a: 0x0001, 0x73b: 0x0001,",
   "\t0x73c: 0x0001, 0x73d: 0x0001, 0x73e: 0x0001, 0x73f: 0x0001,",
   "\t// Block 0x1d, offset 0x740",
   "\t0x740: 0x0001, 0x741: 0x0010, 0x742: 0x0010, 0x743: 0x0010, 0x745: 0x0001,",
   "\t0x746: 0x0001, 0x747: 0x0001, 0x748: 0x0001, 0x749: 0x0001, 0x74a: 0x0001, 0x74b: 0x0001,",
   "\t0x74c: 0x0001, 0x74f: 0x0001, 0x750: 0x0001,",
   "\t0x753: 0x0001, 0x754: 0x0001, 0x755: 0x0001, 0x756: 0x0001, 0x757: 0x0001,",
   "\t0x758: 0x0001, 0x759: 0x0001, 0x75a: 0x0001, 0x75b: 0x0001, 0x75c: 0x0001, 0x75d: 0x0001,",
   "\t0x75e: 0x0001, 0x75f: 0x0001, 0x760: 0x0001, 0x761: 0x0001, 0x762: 0x0001, 0x763: 0x0001,",
   "\t0x764: 0x0001, 0x765: 0x0001, 0x766: 0x0001, 0x767: 0x0001, 0x768: 0x0001,",
   "\t0x76a: 0x0001, 0x76b: 0x0001, 0x76c: 0x0001, 0x76d: 0x0001, 0x76e: 0x0001, 0x76f: 0x0001,",
   "\t0x770: 0x0001, 0x772: 0x0001,",
   "\t0x776: 0x0001, 0x777: 0x0001, 0x778: 0x0001, 0x779: 0x0001,",
   "\t0x77c: 0x0010, 0x77d: 0x0001, 0x77e: 0x0010, 0x77f: 0x0010,",
   "\t// Block 0x1e, offset 0x780",
   "\t0x780: 0x0010, 0x781: 0x0010, 0x782: 0x0010, 0x783: 0x0010, 0x784: 0x0010,",
   "\t0x787: 0x0010, 0x788: 0x0010, 0x78b: 0x0010,",
   "\t0x78c: 0x0010, 0x78d: 0x0010, 0x78e: 0x0001,",
   "\t0x797: 0x0010,",
   "\t0x79c: 0x0001, 0x79d: 0x0001,",
   "\t0x79f: 0x0001, 0x7a0: 0x0001, 0x7a1: 0x0001, 0x7a2: 0x0010, 0x7a3: 0x0010,",
   "\t0x7a6: 0x8000, 0x7a7: 0x8000, 0x7a8: 0x8000, 0x7a9: 0x8000,",
   "\t0x7aa: 0x8000, 0x7ab: 0x8000, 0x7ac: 0x8000, 0x7ad: 0x8000, 0x7ae: 0x8000, 0x7af: 0x8000,",
   "\t0x7b0: 0x0001, 0x7b1: 0x0001,",
   "\t0x7bc: 0x0001, 0x7be: 0x0010,",
   "\t// Block 0x1f, offset 0x7c0",
   "\t0x7c1: 0x0010, 0x7c2: 0x0010, 0x7c3: 0x0010, 0x7c5: 0x0001,",
   "\t0x7c6: 0x0001, 0x7c7: 0x0001, 0x7c8: 0x0001, 0x7c9: 0x0001, 0x7ca: 0x0001,",
   "\t0x7cf: 0x0001, 0x7d0: 0x0001,",
   "\t0x7d3: 0x0001, 0x7d4: 0x0001, 0x7d5: 0x0001, 0x7d6: 0x0001, 0x7d7: 0x0001,",
   "\t0x7d8: 0x0001, 0x7d9: 0x0001, 0x7da: 0x0001, 0x7db: 0x0001, 0x7dc: 0x0001, 0x7dd: 0x0001,",
   "\t0x7de: 0x0001, 0x7df: 0x0001, 0x7e0: 0x0001, 0x7e1: 0x0001, 0x7e2: 0x0001, 0x7e3: 0x0001,",
   "\t0x7e4: 0x0001, 0x7e5: 0x0001, 0x7e6: 0x0001, 0x7e7: 0x0001, 0x7e8: 0x0001,",
   "\t0x7ea: 0x0001, 0x7eb: 0x0001, 0x7ec: 0x0001, 0x7ed: 0x0001, 0x7ee: 0x0001, 0x7ef: 0x0001,",
   "\t0x7f0: 0x0001, 0x7f2: 0x0001, 0x7f3: 0x0001, 0x7f5: 0x0001,",
   "\t0x7f6: 0x0001, 0x7f8: 0x0001, 0x7f9: 0x0001,",
   "\t0x7fc: 0x0010, 0x7fe: 0x0010, 0x7ff: 0x0010,"]
theorem v1_eq : v1 = (layout 6 4 16 ((Table.Values.blocks.drop 16).take 16)).map String.ofList := by
  kernel_rfl
/-- words/trie.go:461-621, `wordsValues` from block 0x20 on. -/
def v2 : List String :=
  ["\t// Block 0x20, offset 0x800",
   "\t0x800: 0x0010, 0x801: 0x0010, 0x802: 0x0010,",
   "\t0x807: 0x0010, 0x808: 0x0010, 0x80b: 0x0010,",
   "\t0x80c: 0x0010, 0x80d: 0x0010, 0x811: 0x0010,",
   "\t0x819: 0x0001, 0x81a: 0x0001, 0x81b: 0x0001, 0x81c: 0x0001,",
   "\t0x81e: 0x0001,",
   "\t0x826: 0x8000, 0x827: 0x8000, 0x828: 0x8000, 0x829: 0x8000,",
   "\t0x82a: 0x8000, 0x82b: 0x8000, 0x82c: 0x8000, 0x82d: 0x8000, 0x82e: 0x8000, 0x82f: 0x8000,",
   "\t0x830: 0x0010, 0x831: 0x0010, 0x832: 0x0001, 0x833: 0x0001, 0x834: 0x0001, 0x835: 0x0010,",
   "\t// Block 0x21, offset 0x840",
   "\t0x841: 0x0010, 0x842: 0x0010, 0x843: 0x0010, 0x845: 0x0001,",
   "\t0x846: 0x0001, 0x847: 0x0001, 0x848: 0x0001, 0x849: 0x0001, 0x84a: 0x0001, 0x84b: 0x0001,",
   "\t0x84c: 0x0001, 0x84d: 0x0001, 0x84f: 0x0001, 0x850: 0x0001, 0x851: 0x0001,",
   "\t0x853: 0x0001, 0x854: 0x0001, 0x855: 0x0001, 0x856: 0x0001, 0x857: 0x0001,",
   "\t0x858: 0x0001, 0x859: 0x0001, 0x85a: 0x0001, 0x85b: 0x0001, 0x85c: 0x0001, 0x85d: 0x0001,",
   "\t0x85e: 0x0001, 0x85f: 0x0001, 0x860: 0x0001, 0x861: 0x0001, 0x862: 0x0001, 0x863: 0x0001,",
   "\t0x864: 0x0001, 0x865: 0x0001, 0x866: 0x0001, 0x867: 0x0001, 0x868: 0x0001,",
   "\t0x86a: 0x0001, 0x86b: 0x0001, 0x86c: 0x0001, 0x86d: 0x0001, 0x86e: 0x0001, 0x86f: 0x0001,",
   "\t0x870: 0x0001, 0x872: 0x0001, 0x873: 0x0001, 0x875: 0x0001,",
   "\t0x876: 0x0001, 0x877: 0x0001, 0x878: 0x0001, 0x879: 0x0001,",
   "\t0x87c: 0x0010, 0x87d: 0x0001, 0x87e: 0x0010, 0x87f: 0x0010,",
   "\t// Block 0x22, offset 0x880",
   "\t0x880: 0x0010, 0x881: 0x0010, 0x882: 0x0010, 0x883: 0x0010, 0x884: 0x0010, 0x885: 0x0010,",
   "\t0x887: 0x0010, 0x888: 0x0010, 0x889: 0x0010, 0x88b: 0x0010,",
   "\t0x88c: 0x0010, 0x88d: 0x0010, 0x890: 0x0001,",
   "\t0x8a0: 0x0001, 0x8a1: 0x0001, 0x8a2: 0x0010, 0x8a3: 0x0010,",
   "\t0x8a6: 0x8000, 0x8a7: 0x8000, 0x8a8: 0x8000, 0x8a9: 0x8000,",
   "\t0x8aa: 0x8000, 0x8ab: 0x8000, 0x8ac: 0x8000, 0x8ad: 0x8000, 0x8ae: 0x8000, 0x8af: 0x8000,",
   "\t0x8b9: 0x0001, 0x8ba: 0x0010, 0x8bb: 0x0010,",
   "\t0x8bc: 0x0010, 0x8bd: 0x0010, 0x8be: 0x0010, 0x8bf: 0x0010,",
   "\t// Block 0x23, offset 0x8c0",
   "\t0x8c1: 0x0010, 0x8c2: 0x0010, 0x8c3: 0x0010, 0x8c5: 0x0001,",
   "\t0x8c6: 0x0001, 0x8c7: 0x0001, 0x8c8: 0x0001, 0x8c9: 0x0001, 0x8ca: 0x0001, 0x8cb: 0x0001,",
   "\t0x8cc: 0x0001, 0x8cf: 0x0001, 0x8d0: 0x0001,",
   "\t0x8d3: 0x0001, 0x8d4: 0x0001, 0x8d5: 0x0001, 0x8d6: 0x0001, 0x8d7: 0x0001,",
   "\t0x8d8: 0x0001, 0x8d9: 0x0001, 0x8da: 0x0001, 0x8db: 0x0001, 0x8dc: 0x0001, 0x8dd: 0x0001,",
   "\t0x8de: 0x0001, 0x8df: 0x0001, 0x8e0: 0x0001, 0x8e1: 0x0001, 0x8e2: 0x0001, 0x8e3: 0x0001,",
   "\t0x8e4: 0x0001, 0x8e5: 0x0001, 0x8e6: 0x0001, 0x8e7: 0x0001, 0x8e8: 0x0001,",
   "\t0x8ea: 0x0001, 0x8eb: 0x0001, 0x8ec: 0x0001, 0x8ed: 0x0001, 0x8ee: 0x0001, 0x8ef: 0x0001,",
   "\t0x8f0: 0x0001, 0x8f2: 0x0001, 0x8f3: 0x0001, 0x8f5: 0x0001,",
   "\t0x8f6: 0x0001, 0x8f7: 0x0001, 0x8f8: 0x0001, 0x8f9: 0x0001,",
   "\t0x8fc: 0x0010, 0x8fd: 0x0001, 0x8fe: 0x0010, 0x8ff: 0x0010,",
   "\t// Block 0x24, offset 0x900",
   "\t0x900: 0x0010, 0x901: 0x0010, 0x902: 0x0010, 0x903: 0x0010, 0x904: 0x0010,",
   "\t0x907: 0x0010, 0x908: 0x0010, 0x90b: 0x0010,",
   "\t0x90c: 0x0010, 0x90d: 0x0010,",
   "\t0x915: 0x0010, 0x916: 0x0010, 0x917: 0x0010,",
   "\t0x91c: 0x0001, 0x91d: 0x0001,",
   "\t0x91f: 0x0001, 0x920: 0x0001, 0x921: 0x0001, 0x922: 0x0010, 0x923: 0x0010,",
   "\t0x926: 0x8000, 0x927: 0x8000, 0x928: 0x8000, 0x929: 0x8000,",
   "\t0x92a: 0x8000, 0x92b: 0x8000, 0x92c: 0x8000, 0x92d: 0x8000, 0x92e: 0x8000, 0x92f: 0x8000,",
   "\t0x931: 0x0001,",
   "\t// Block 0x25, offset 0x940",
   "\t0x942: 0x0010, 0x943: 0x0001, 0x945: 0x0001,",
   "\t0x946: 0x0001, 0x947: 0x0001, 0x948: 0x0001, 0x949: 0x0001, 0x94a: 0x0001,",
   "\t0x94e: 0x0001, 0x94f: 0x0001, 0x950: 0x0001,",
   "\t0x952: 0x0001, 0x953: 0x0001, 0x954: 0x0001, 0x955: 0x0001,",
   "\t0x959: 0x0001, 0x95a: 0x0001, 0x95c: 0x0001,",
   "\t0x95e: 0x0001, 0x95f: 0x0001, 0x963: 0x0001,",
   "\t0x964: 0x0001, 0x968: 0x0001, 0x969: 0x0001,",
   "\t0x96a: 0x0001, 0x96e: 0x0001, 0x96f: 0x0001,",
   "\t0x970: 0x0001, 0x971: 0x0001, 0x972: 0x0001, 0x973: 0x0001, 0x974: 0x0001, 0x975: 0x0001,",
   "\t0x976: 0x0001, 0x977: 0x0001, 0x978: 0x0001, 0x979: 0x0001,",
   "\t0x97e: 0x0010, 0x97f: 0x0010,",
   "\t// Block 0x26, offset 0x980",
   "\t0x980: 0x0010, 0x981: 0x0010, 0x982: 0x0010,",
   "\t0x986: 0x0010, 0x987: 0x0010, 0x988: 0x0010, 0x98a: 0x0010, 0x98b: 0x0010,",
   "\t0x98c: 0x0010, 0x98d: 0x0010, 0x990: 0x0001,",
   "\t0x997: 0x0010,",
   "\t0x9a6: 0x8000, 0x9a7: 0x8000, 0x9a8: 0x8000, 0x9a9: 0x8000,",
   "\t0x9aa: 0x8000, 0x9ab: 0x8000, 0x9ac: 0x8000, 0x9ad: 0x8000, 0x9ae: 0x8000, 0x9af: 0x8000,",
   "\t// Block 0x27, offset 0x9c0",
   "\t0x9c0: 0x0010, 0x9c1: 0x0010, 0x9c2: 0x0010, 0x9c3: 0x0010, 0x9c4: 0x0010, 0x9c5: 0x0001,",
   "\t0x9c6: 0x0001, 0x9c7: 0x0001, 0x9c8: 0x0001, 0x9c9: 0x0001, 0x9ca: 0x0001, 0x9cb: 0x0001,",
   "\t0x9cc: 0x0001, 0x9ce: 0x0001, 0x9cf: 0x0001, 0x9d0: 0x0001,",
   "\t0x9d2: 0x0001, 0x9d3: 0x0001, 0x9d4: 0x0001, 0x9d5: 0x0001, 0x9d6: 0x0001, 0x9d7: 0x0001,",
   "\t0x9d8: 0x0001, 0x9d9: 0x0001, 0x9da: 0x0001, 0x9db: 0x0001, 0x9dc: 0x0001, 0x9dd: 0x0001,",
   "\t0x9de: 0x0001, 0x9df: 0x0001, 0x9e0: 0x0001, 0x9e1: 0x0001, 0x9e2: 0x0001, 0x9e3: 0x0001,",
   "\t0x9e4: 0x0001, 0x9e5: 0x0001, 0x9e6: 0x0001, 0x9e7: 0x0001, 0x9e8: 0x0001,",
   "\t0x9ea: 0x0001, 0x9eb: 0x0001, 0x9ec: 0x0001, 0x9ed: 0x0001, 0x9ee: 0x0001, 0x9ef: 0x0001,",
   "\t0x9f0: 0x0001, 0x9f1: 0x0001, 0x9f2: 0x0001, 0x9f3: 0x0001, 0x9f4: 0x0001, 0x9f5: 0x0001,",
   "\t0x9f6: 0x0001, 0x9f7: 0x0001, 0x9f8: 0x0001, 0x9f9: 0x0001,",
   "\t0x9fc: 0x0010, 0x9fd: 0x0001, 0x9fe: 0x0010, 0x9ff: 0x0010,",
   "\t// Block 0x28, offset 0xa00",
   "\t0xa00: 0x0010, 0xa01: 0x0010, 0xa02: 0x0010, 0xa03: 0x0010, 0xa04: 0x0010,",
   "\t0xa06: 0x0010, 0xa07: 0x0010, 0xa08: 0x0010, 0xa0a: 0x0010, 0xa0b: 0x0010,",
   "\t0xa0c: 0x0010, 0xa0d: 0x0010,",
   "\t0xa15: 0x0010, 0xa16: 0x0010,",
   "\t0xa18: 0x0001, 0xa19: 0x0001, 0xa1a: 0x0001, 0xa1c: 0x0001, 0xa1d: 0x0001,",
   "\t0xa20: 0x0001, 0xa21: 0x0001, 0xa22: 0x0010, 0xa23: 0x0010,",
   "\t0xa26: 0x8000, 0xa27: 0x8000, 0xa28: 0x8000, 0xa29: 0x8000,",
   "\t0xa2a: 0x8000, 0xa2b: 0x8000, 0xa2c: 0x8000, 0xa2d: 0x8000, 0xa2e: 0x8000, 0xa2f: 0x8000,",
   "\t// Block 0x29, offset 0xa40",
   "\t0xa40: 0x0001, 0xa41: 0x0010, 0xa42: 0x0010, 0xa43: 0x0010, 0xa45: 0x0001,",
   "\t0xa46: 0x0001, 0xa47: 0x0001, 0xa48: 0x0001, 0xa49: 0x0001, 0xa4a: 0x0001, 0xa4b: 0x0001,",
   "\t0xa4c: 0x0001, 0xa4e: 0x0001, 0xa4f: 0x0001, 0xa50: 0x0001,",
   "\t0xa52: 0x0001, 0xa53: 0x0001, 0xa54: 0x0001, 0xa55: 0x0001, 0xa56: 0x0001, 0xa57: 0x0001,",
   "\t0xa58: 0x0001, 0xa59: 0x0001, 0xa5a: 0x0001, 0xa5b: 0x0001, 0xa5c: 0x0001, 0xa5d: 0x0001,",
   "\t0xa5e: 0x0001, 0xa5f: 0x0001, 0xa60: 0x0001, 0xa61: 0x0001, 0xa62: 0x0001, 0xa63: 0x0001,",
   "\t0xa64: 0x0001, 0xa65: 0x0001, 0xa66: 0x0001, 0xa67: 0x0001, 0xa68: 0x0001,",
   "\t0xa6a: 0x0001, 0xa6b: 0x0001, 0xa6c: 0x0001, 0xa6d: 0x0001, 0xa6e: 0x0001, 0xa6f: 0x0001,",
   "\t0xa70: 0x0001, 0xa71: 0x0001, 0xa72: 0x0001, 0xa73: 0x0001, 0xa75: 0x0001,",
   "\t0xa76: 0x0001, 0xa77: 0x0001, 0xa78: 0x0001, 0xa79: 0x0001,",
   "\t0xa7c: 0x0010, 0xa7d: 0x0001, 0xa7e: 0x0010, 0xa7f: 0x0010,",
   "\t// Block 0x2a, offset 0xa80",
   "\t0xa80: 0x0010, 0xa81: 0x0010, 0xa82: 0x0010, 0xa83: 0x0010, 0xa84: 0x0010,",
   "\t0xa86: 0x0010, 0xa87: 0x0010, 0xa88: 0x0010, 0xa8a: 0x0010, 0xa8b: 0x0010,",
   "\t0xa8c: 0x0010, 0xa8d: 0x0010,",
   "\t0xa95: 0x0010, 0xa96: 0x0010,",
   "\t0xa9c: 0x0001, 0xa9d: 0x0001,",
   "\t0xa9e: 0x0001, 0xaa0: 0x0001, 0xaa1: 0x0001, 0xaa2: 0x0010, 0xaa3: 0x0010,",
   "\t0xaa6: 0x8000, 0xaa7: 0x8000, 0xaa8: 0x8000, 0xaa9: 0x8000,",
   "\t0xaaa: 0x8000, 0xaab: 0x8000, 0xaac: 0x8000, 0xaad: 0x8000, 0xaae: 0x8000, 0xaaf: 0x8000,",
   "\t0xab1: 0x0001, 0xab2: 0x0001, 0xab3: 0x0010,",
   "\t// Block 0x2b, offset 0xac0",
   "\t0xac0: 0x0010, 0xac1: 0x0010, 0xac2: 0x0010, 0xac3: 0x0010, 0xac4: 0x0001, 0xac5: 0x0001,",
   "\t0xac6: 0x0001, 0xac7: 0x0001, 0xac8: 0x0001, 0xac9: 0x0001, 0xaca: 0x0001, 0xacb: 0x0001,",
   "\t0xacc: 0x0001, 0xace: 0x0001, 0xacf: 0x0001, 0xad0: 0x0001,",
   "\t0xad2: 0x0001, 0xad3: 0x0001, 0xad4: 0x0001, 0xad5: 0x0001, 0xad6: 0x0001, 0xad7: 0x0001,",
   "\t0xad8: 0x0001, 0xad9: 0x0001, 0xada: 0x0001, 0xadb: 0x0001, 0xadc: 0x0001, 0xadd: 0x0001,",
   "\t0xade: 0x0001, 0xadf: 0x0001, 0xae0: 0x0001, 0xae1: 0x0001, 0xae2: 0x0001, 0xae3: 0x0001,",
   "\t0xae4: 0x0001, 0xae5: 0x0001, 0xae6: 0x0001, 0xae7: 0x0001, 0xae8: 0x0001, 0xae9: 0x0001,",
   "\t0xaea: 0x0001, 0xaeb: 0x0001, 0xaec: 0x0001, 0xaed: 0x0001, 0xaee: 0x0001, 0xaef: 0x0001,",
   "\t0xaf0: 0x0001, 0xaf1: 0x0001, 0xaf2: 0x0001, 0xaf3: 0x0001, 0xaf4: 0x0001, 0xaf5: 0x0001,",
   "\t0xaf6: 0x0001, 0xaf7: 0x0001, 0xaf8: 0x0001, 0xaf9: 0x0001, 0xafa: 0x0001, 0xafb: 0x0010,",
   "\t0xafc: 0x0010, 0xafd: 0x0001, 0xafe: 0x0010, 0xaff: 0x0010,",
   "\t// Block 0x2c, offset 0xb00",
   "\t0xb00: 0x0010, 0xb01: 0x0010, 0xb02: 0x0010, 0xb03: 0x0010, 0xb04: 0x0010,",
   "\t0xb06: 0x0010, 0xb07: 0x0010, 0xb08: 0x0010, 0xb0a: 0x0010, 0xb0b: 0x0010,",
   "\t0xb0c: 0x0010, 0xb0d: 0x0010, 0xb0e: 0x0001,",
   "\t0xb14: 0x0001, 0xb15: 0x0001, 0xb16: 0x0001, 0xb17: 0x0010,",
   "\t0xb1f: 0x0001, 0xb20: 0x0001, 0xb21: 0x0001, 0xb22: 0x0010, 0xb23: 0x0010,",
   "\t0xb26: 0x8000, 0xb27: 0x8000, 0xb28: 0x8000, 0xb29: 0x8000,",
   "\t0xb2a: 0x8000, 0xb2b: 0x8000, 0xb2c: 0x8000, 0xb2d: 0x8000, 0xb2e: 0x8000, 0xb2f: 0x8000,",
   "\t0xb3a: 0x0001, 0xb3b: 0x0001,",
   "\t0xb3c: 0x0001, 0xb3d: 0x0001, 0xb3e: 0x0001, 0xb3f: 0x0001,",
   "\t// Block 0x2d, offset 0xb40",
   "\t0xb41: 0x0010, 0xb42: 0x0010, 0xb43: 0x0010, 0xb45: 0x0001,",
   "\t0xb46: 0x0001, 0xb47: 0x0001, 0xb48: 0x0001, 0xb49: 0x0001, 0xb4a: 0x0001, 0xb4b: 0x0001,",
   "\t0xb4c: 0x0001, 0xb4d: 0x0001, 0xb4e: 0x0001, 0xb4f: 0x0001, 0xb50: 0x0001, 0xb51: 0x0001,",
   "\t0xb52: 0x0001, 0xb53: 0x0001, 0xb54: 0x0001, 0xb55: 0x0001, 0xb56: 0x0001,",
   "\t0xb5a: 0x0001, 0xb5b: 0x0001, 0xb5c: 0x0001, 0xb5d: 0x0001,",
   "\t0xb5e: 0x0001, 0xb5f: 0x0001, 0xb60: 0x0001, 0xb61: 0x0001, 0xb62: 0x0001, 0xb63: 0x0001,",
   "\t0xb64: 0x0001, 0xb65: 0x0001, 0xb66: 0x0001, 0xb67: 0x0001, 0xb68: 0x0001, 0xb69: 0x0001,",
   "\t0xb6a: 0x0001, 0xb6b: 0x0001, 0xb6c: 0x0001, 0xb6d: 0x0001, 0xb6e: 0x0001, 0xb6f: 0x0001,",
   "\t0xb70: 0x0001, 0xb71: 0x0001, 0xb73: 0x0001, 0xb74: 0x0001, 0xb75: 0x0001,",
   "\t0xb76: 0x0001, 0xb77: 0x0001, 0xb78: 0x0001, 0xb79: 0x0001, 0xb7a: 0x0001, 0xb7b: 0x0001,",
   "\t0xb7d: 0x0001,",
   "\t// Block 0x2e, offset 0xb80",
   "\t0xb80: 0x0001, 0xb81: 0x0001, 0xb82: 0x0001, 0xb83: 0x0001, 0xb84: 0x0001, 0xb85: 0x0001,",
   "\t0xb86: 0x0001, 0xb8a: 0x0010,",
   "\t0xb8f: 0x0010, 0xb90: 0x0010, 0xb91: 0x0010,",
   "\t0xb92: 0x0010, 0xb93: 0x0010, 0xb94: 0x0010, 0xb96: 0x0010,",
   "\t0xb98: 0x0010, 0xb99: 0x0010, 0xb9a: 0x0010, 0xb9b: 0x0010, 0xb9c: 0x0010, 0xb9d: 0x0010,",
   "\t0xb9e: 0x0010, 0xb9f: 0x0010,",
   "\t0xba6: 0x8000, 0xba7: 0x8000, 0xba8: 0x8000, 0xba9: 0x8000,",
   "\t0xbaa: 0x8000, 0xbab: 0x8000, 0xbac: 0x8000, 0xbad: 0x8000, 0xbae: 0x8000, 0xbaf: 0x8000,",
   "\t0xbb2: 0x0010, 0xbb3: 0x0010,",
   "\t// Block 0x2f, offset 0xbc0",
   "\t0xbf1: 0x0010, 0xbf4: 0x0010, 0xbf5: 0x0010,",
   "\t0xbf6: 0x0010, 0xbf7: 0x0010, 0xbf8: 0x0010, 0xbf9: 0x0010, 0xbfa: 0x0010,"]
theorem v2_eq : v2 = (layout 6 4 32 ((Table.Values.blocks.drop 32).take 16)).map String.ofList := by
  kernel_rfl
/-- words/trie.go:622-762, `wordsValues` from block 0x30 on. -/
def v3 : List String :=
  ["\t// Block 0x30, offset 0xc00",
   "\t0xc07: 0x0010, 0xc08: 0x0010, 0xc09: 0x0010, 0xc0a: 0x0010, 0xc0b: 0x0010,",
   "\t0xc0c: 0x0010, 0xc0d: 0x0010, 0xc0e: 0x0010, 0xc10: 0x8000, 0xc11: 0x8000,",
   "\t0xc12: 0x8000, 0xc13: 0x8000, 0xc14: 0x8000, 0xc15: 0x8000, 0xc16: 0x8000, 0xc17: 0x8000,",
   "\t0xc18: 0x8000, 0xc19: 0x8000,",
   "\t// Block 0x31, offset 0xc40",
   "\t0xc71: 0x0010, 0xc74: 0x0010, 0xc75: 0x0010,",
   "\t0xc76: 0x0010, 0xc77: 0x0010, 0xc78: 0x0010, 0xc79: 0x0010, 0xc7a: 0x0010, 0xc7b: 0x0010,",
   "\t0xc7c: 0x0010,",
   "\t// Block 0x32, offset 0xc80",
   "\t0xc88: 0x0010, 0xc89: 0x0010, 0xc8a: 0x0010, 0xc8b: 0x0010,",
   "\t0xc8c: 0x0010, 0xc8d: 0x0010, 0xc8e: 0x0010, 0xc90: 0x8000, 0xc91: 0x8000,",
   "\t0xc92: 0x8000, 0xc93: 0x8000, 0xc94: 0x8000, 0xc95: 0x8000, 0xc96: 0x8000, 0xc97: 0x8000,",
   "\t0xc98: 0x8000, 0xc99: 0x8000,",
   "\t// Block 0x33, offset 0xcc0",
   "\t0xcc0: 0x0001,",
   "\t0xcd8: 0x0010, 0xcd9: 0x0010,",
   "\t0xce0: 0x8000, 0xce1: 0x8000, 0xce2: 0x8000, 0xce3: 0x8000,",
   "\t0xce4: 0x8000, 0xce5: 0x8000, 0xce6: 0x8000, 0xce7: 0x8000, 0xce8: 0x8000, 0xce9: 0x8000,",
   "\t0xcf5: 0x0010,",
   "\t0xcf7: 0x0010, 0xcf9: 0x0010,",
   "\t0xcfe: 0x0010, 0xcff: 0x0010,",
   "\t// Block 0x34, offset 0xd00",
   "\t0xd00: 0x0001, 0xd01: 0x0001, 0xd02: 0x0001, 0xd03: 0x0001, 0xd04: 0x0001, 0xd05: 0x0001,",
   "\t0xd06: 0x0001, 0xd07: 0x0001, 0xd09: 0x0001, 0xd0a: 0x0001, 0xd0b: 0x0001,",
   "\t0xd0c: 0x0001, 0xd0d: 0x0001, 0xd0e: 0x0001, 0xd0f: 0x0001, 0xd10: 0x0001, 0xd11: 0x0001,",
   "\t0xd12: 0x0001, 0xd13: 0x0001, 0xd14: 0x0001, 0xd15: 0x0001, 0xd16: 0x0001, 0xd17: 0x0001,",
   "\t0xd18: 0x0001, 0xd19: 0x0001, 0xd1a: 0x0001, 0xd1b: 0x0001, 0xd1c: 0x0001, 0xd1d: 0x0001,",
   "\t0xd1e: 0x0001, 0xd1f: 0x0001, 0xd20: 0x0001, 0xd21: 0x0001, 0xd22: 0x0001, 0xd23: 0x0001,",
   "\t0xd24: 0x0001, 0xd25: 0x0001, 0xd26: 0x0001, 0xd27: 0x0001, 0xd28: 0x0001, 0xd29: 0x0001,",
   "\t0xd2a: 0x0001, 0xd2b: 0x0001, 0xd2c: 0x0001,",
   "\t0xd31: 0x0010, 0xd32: 0x0010, 0xd33: 0x0010, 0xd34: 0x0010, 0xd35: 0x0010,",
   "\t0xd36: 0x0010, 0xd37: 0x0010, 0xd38: 0x0010, 0xd39: 0x0010, 0xd3a: 0x0010, 0xd3b: 0x0010,",
   "\t0xd3c: 0x0010, 0xd3d: 0x0010, 0xd3e: 0x0010, 0xd3f: 0x0010,",
   "\t// Block 0x35, offset 0xd40",
   "\t0xd40: 0x0010, 0xd41: 0x0010, 0xd42: 0x0010, 0xd43: 0x0010, 0xd44: 0x0010,",
   "\t0xd46: 0x0010, 0xd47: 0x0010, 0xd48: 0x0001, 0xd49: 0x0001, 0xd4a: 0x0001, 0xd4b: 0x0001,",
   "\t0xd4c: 0x0001, 0xd4d: 0x0010, 0xd4e: 0x0010, 0xd4f: 0x0010, 0xd50: 0x0010, 0xd51: 0x0010,",
   "\t0xd52: 0x0010, 0xd53: 0x0010, 0xd54: 0x0010, 0xd55: 0x0010, 0xd56: 0x0010, 0xd57: 0x0010,",
   "\t0xd59: 0x0010, 0xd5a: 0x0010, 0xd5b: 0x0010, 0xd5c: 0x0010, 0xd5d: 0x0010,",
   "\t0xd5e: 0x0010, 0xd5f: 0x0010, 0xd60: 0x0010, 0xd61: 0x0010, 0xd62: 0x0010, 0xd63: 0x0010,",
   "\t0xd64: 0x0010, 0xd65: 0x0010, 0xd66: 0x0010, 0xd67: 0x0010, 0xd68: 0x0010, 0xd69: 0x0010,",
   "\t0xd6a: 0x0010, 0xd6b: 0x0010, 0xd6c: 0x0010, 0xd6d: 0x0010, 0xd6e: 0x0010, 0xd6f: 0x0010,",
   "\t0xd70: 0x0010, 0xd71: 0x0010, 0xd72: 0x0010, 0xd73: 0x0010, 0xd74: 0x0010, 0xd75: 0x0010,",
   "\t0xd76: 0x0010, 0xd77: 0x0010, 0xd78: 0x0010, 0xd79: 0x0010, 0xd7a: 0x0010, 0xd7b: 0x0010,",
   "\t0xd7c: 0x0010,",
   "\t// Block 0x36, offset 0xd80",
   "\t0xd86: 0x0010,",
   "\t// Block 0x37, offset 0xdc0",
   "\t0xdeb: 0x0010, 0xdec: 0x0010, 0xded: 0x0010, 0xdee: 0x0010, 0xdef: 0x0010,",
   "\t0xdf0: 0x0010, 0xdf1: 0x0010, 0xdf2: 0x0010, 0xdf3: 0x0010, 0xdf4: 0x0010, 0xdf5: 0x0010,",
   "\t0xdf6: 0x0010, 0xdf7: 0x0010, 0xdf8: 0x0010, 0xdf9: 0x0010, 0xdfa: 0x0010, 0xdfb: 0x0010,",
   "\t0xdfc: 0x0010, 0xdfd: 0x0010, 0xdfe: 0x0010,",
   "\t// Block 0x38, offset 0xe00",
   "\t0xe00: 0x8000, 0xe01: 0x8000, 0xe02: 0x8000, 0xe03: 0x8000, 0xe04: 0x8000, 0xe05: 0x8000,",
   "\t0xe06: 0x8000, 0xe07: 0x8000, 0xe08: 0x8000, 0xe09: 0x8000,",
   "\t0xe16: 0x0010, 0xe17: 0x0010,",
   "\t0xe18: 0x0010, 0xe19: 0x0010,",
   "\t0xe1e: 0x0010, 0xe1f: 0x0010, 0xe20: 0x0010, 0xe22: 0x0010, 0xe23: 0x0010,",
   "\t0xe24: 0x0010, 0xe27: 0x0010, 0xe28: 0x0010, 0xe29: 0x0010,",
   "\t0xe2a: 0x0010, 0xe2b: 0x0010, 0xe2c: 0x0010, 0xe2d: 0x0010,",
   "\t0xe31: 0x0010, 0xe32: 0x0010, 0xe33: 0x0010, 0xe34: 0x0010,",
   "\t// Block 0x39, offset 0xe40",
   "\t0xe42: 0x0010, 0xe43: 0x0010, 0xe44: 0x0010, 0xe45: 0x0010,",
   "\t0xe46: 0x0010, 0xe47: 0x0010, 0xe48: 0x0010, 0xe49: 0x0010, 0xe4a: 0x0010, 0xe4b: 0x0010,",
   "\t0xe4c: 0x0010, 0xe4d: 0x0010, 0xe4f: 0x0010, 0xe50: 0x8000, 0xe51: 0x8000,",
   "\t0xe52: 0x8000, 0xe53: 0x8000, 0xe54: 0x8000, 0xe55: 0x8000, 0xe56: 0x8000, 0xe57: 0x8000,",
   "\t0xe58: 0x8000, 0xe59: 0x8000, 0xe5a: 0x0010, 0xe5b: 0x0010, 0xe5c: 0x0010, 0xe5d: 0x0010,",
   "\t0xe60: 0x0001, 0xe61: 0x0001, 0xe62: 0x0001, 0xe63: 0x0001,",
   "\t0xe64: 0x0001, 0xe65: 0x0001, 0xe66: 0x0001, 0xe67: 0x0001, 0xe68: 0x0001, 0xe69: 0x0001,",
   "\t0xe6a: 0x0001, 0xe6b: 0x0001, 0xe6c: 0x0001, 0xe6d: 0x0001, 0xe6e: 0x0001, 0xe6f: 0x0001,",
   "\t0xe70: 0x0001, 0xe71: 0x0001, 0xe72: 0x0001, 0xe73: 0x0001, 0xe74: 0x0001, 0xe75: 0x0001,",
   "\t0xe76: 0x0001, 0xe77: 0x0001, 0xe78: 0x0001, 0xe79: 0x0001, 0xe7a: 0x0001, 0xe7b: 0x0001,",
   "\t0xe7c: 0x0001, 0xe7d: 0x0001, 0xe7e: 0x0001, 0xe7f: 0x0001,",
   "\t// Block 0x3a, offset 0xe80",
   "\t0xe80: 0x0001, 0xe81: 0x0001, 0xe82: 0x0001, 0xe83: 0x0001, 0xe84: 0x0001, 0xe85: 0x0001,",
   "\t0xe87: 0x0001,",
   "\t0xe8d: 0x0001, 0xe90: 0x0001, 0xe91: 0x0001,",
   "\t0xe92: 0x0001, 0xe93: 0x0001, 0xe94: 0x0001, 0xe95: 0x0001, 0xe96: 0x0001, 0xe97: 0x0001,",
   "\t0xe98: 0x0001, 0xe99: 0x0001, 0xe9a: 0x0001, 0xe9b: 0x0001, 0xe9c: 0x0001, 0xe9d: 0x0001,",
   "\t0xe9e: 0x0001, 0xe9f: 0x0001, 0xea0: 0x0001, 0xea1: 0x0001, 0xea2: 0x0001, 0xea3: 0x0001,",
   "\t0xea4: 0x0001, 0xea5: 0x0001, 0xea6: 0x0001, 0xea7: 0x0001, 0xea8: 0x0001, 0xea9: 0x0001,",
   "\t0xeaa: 0x0001, 0xeab: 0x0001, 0xeac: 0x0001, 0xead: 0x0001, 0xeae: 0x0001, 0xeaf: 0x0001,",
   "\t0xeb0: 0x0001, 0xeb1: 0x0001, 0xeb2: 0x0001, 0xeb3: 0x0001, 0xeb4: 0x0001, 0xeb5: 0x0001,",
   "\t0xeb6: 0x0001, 0xeb7: 0x0001, 0xeb8: 0x0001, 0xeb9: 0x0001, 0xeba: 0x0001,",
   "\t0xebc: 0x0001, 0xebd: 0x0001, 0xebe: 0x0001, 0xebf: 0x0001,",
   "\t// Block 0x3b, offset 0xec0",
   "\t0xec0: 0x0001, 0xec1: 0x0001, 0xec2: 0x0001, 0xec3: 0x0001, 0xec4: 0x0001, 0xec5: 0x0001,",
   "\t0xec6: 0x0001, 0xec7: 0x0001, 0xec8: 0x0001, 0xeca: 0x0001, 0xecb: 0x0001,",
   "\t0xecc: 0x0001, 0xecd: 0x0001, 0xed0: 0x0001, 0xed1: 0x0001,",
   "\t0xed2: 0x0001, 0xed3: 0x0001, 0xed4: 0x0001, 0xed5: 0x0001, 0xed6: 0x0001,",
   "\t0xed8: 0x0001, 0xeda: 0x0001, 0xedb: 0x0001, 0xedc: 0x0001, 0xedd: 0x0001,",
   "\t0xee0: 0x0001, 0xee1: 0x0001, 0xee2: 0x0001, 0xee3: 0x0001,",
   "\t0xee4: 0x0001, 0xee5: 0x0001, 0xee6: 0x0001, 0xee7: 0x0001, 0xee8: 0x0001, 0xee9: 0x0001,",
   "\t0xeea: 0x0001, 0xeeb: 0x0001, 0xeec: 0x0001, 0xeed: 0x0001, 0xeee: 0x0001, 0xeef: 0x0001,",
   "\t0xef0: 0x0001, 0xef1: 0x0001, 0xef2: 0x0001, 0xef3: 0x0001, 0xef4: 0x0001, 0xef5: 0x0001,",
   "\t0xef6: 0x0001, 0xef7: 0x0001, 0xef8: 0x0001, 0xef9: 0x0001, 0xefa: 0x0001, 0xefb: 0x0001,",
   "\t0xefc: 0x0001, 0xefd: 0x0001, 0xefe: 0x0001, 0xeff: 0x0001,",
   "\t// Block 0x3c, offset 0xf00",
   "\t0xf00: 0x0001, 0xf01: 0x0001, 0xf02: 0x0001, 0xf03: 0x0001, 0xf04: 0x0001, 0xf05: 0x0001,",
   "\t0xf06: 0x0001, 0xf07: 0x0001, 0xf08: 0x0001, 0xf0a: 0x0001, 0xf0b: 0x0001,",
   "\t0xf0c: 0x0001, 0xf0d: 0x0001, 0xf10: 0x0001, 0xf11: 0x0001,",
   "\t0xf12: 0x0001, 0xf13: 0x0001, 0xf14: 0x0001, 0xf15: 0x0001, 0xf16: 0x0001, 0xf17: 0x0001,",
   "\t0xf18: 0x0001, 0xf19: 0x0001, 0xf1a: 0x0001, 0xf1b: 0x0001, 0xf1c: 0x0001, 0xf1d: 0x0001,",
   "\t0xf1e: 0x0001, 0xf1f: 0x0001, 0xf20: 0x0001, 0xf21: 0x0001, 0xf22: 0x0001, 0xf23: 0x0001,",
   "\t0xf24: 0x0001, 0xf25: 0x0001, 0xf26: 0x0001, 0xf27: 0x0001, 0xf28: 0x0001, 0xf29: 0x0001,",
   "\t0xf2a: 0x0001, 0xf2b: 0x0001, 0xf2c: 0x0001, 0xf2d: 0x0001, 0xf2e: 0x0001, 0xf2f: 0x0001,",
   "\t0xf30: 0x0001, 0xf32: 0x0001, 0xf33: 0x0001, 0xf34: 0x0001, 0xf35: 0x0001,",
   "\t0xf38: 0x0001, 0xf39: 0x0001, 0xf3a: 0x0001, 0xf3b: 0x0001,",
   "\t0xf3c: 0x0001, 0xf3d: 0x0001, 0xf3e: 0x0001,",
   "\t// Block 0x3d, offset 0xf40",
   "\t0xf40: 0x0001, 0xf42: 0x0001, 0xf43: 0x0001, 0xf44: 0x0001, 0xf45: 0x0001,",
   "\t0xf48: 0x0001, 0xf49: 0x0001, 0xf4a: 0x0001, 0xf4b: 0x0001,",
   "\t0xf4c: 0x0001, 0xf4d: 0x0001, 0xf4e: 0x0001, 0xf4f: 0x0001, 0xf50: 0x0001, 0xf51: 0x0001,",
   "\t0xf52: 0x0001, 0xf53: 0x0001, 0xf54: 0x0001, 0xf55: 0x0001, 0xf56: 0x0001,",
   "\t0xf58: 0x0001, 0xf59: 0x0001, 0xf5a: 0x0001, 0xf5b: 0x0001, 0xf5c: 0x0001, 0xf5d: 0x0001,",
   "\t0xf5e: 0x0001, 0xf5f: 0x0001, 0xf60: 0x0001, 0xf61: 0x0001, 0xf62: 0x0001, 0xf63: 0x0001,",
   "\t0xf64: 0x0001, 0xf65: 0x0001, 0xf66: 0x0001, 0xf67: 0x0001, 0xf68: 0x0001, 0xf69: 0x0001,",
   "\t0xf6a: 0x0001, 0xf6b: 0x0001, 0xf6c: 0x0001, 0xf6d: 0x0001, 0xf6e: 0x0001, 0xf6f: 0x0001,",
   "\t0xf70: 0x0001, 0xf71: 0x0001, 0xf72: 0x0001, 0xf73: 0x0001, 0xf74: 0x0001, 0xf75: 0x0001,",
   "\t0xf76: 0x0001, 0xf77: 0x0001, 0xf78: 0x0001, 0xf79: 0x0001, 0xf7a: 0x0001, 0xf7b: 0x0001,",
   "\t0xf7c: 0x0001, 0xf7d: 0x0001, 0xf7e: 0x0001, 0xf7f: 0x0001,",
   "\t// Block 0x3e, offset 0xf80",
   "\t0xf80: 0x0001, 0xf81: 0x0001, 0xf82: 0x0001, 0xf83: 0x0001, 0xf84: 0x0001, 0xf85: 0x0001,",
   "\t0xf86: 0x0001, 0xf87: 0x0001, 0xf88: 0x0001, 0xf89: 0x0001, 0xf8a: 0x0001, 0xf8b: 0x0001,",
   "\t0xf8c: 0x0001, 0xf8d: 0x0001, 0xf8e: 0x0001, 0xf8f: 0x0001, 0xf90: 0x0001,",
   "\t0xf92: 0x0001, 0xf93: 0x0001, 0xf94: 0x0001, 0xf95: 0x0001,",
   "\t0xf98: 0x0001, 0xf99: 0x0001, 0xf9a: 0x0001, 0xf9b: 0x0001, 0xf9c: 0x0001, 0xf9d: 0x0001,",
   "\t0xf9e: 0x0001, 0xf9f: 0x0001, 0xfa0: 0x0001, 0xfa1: 0x0001, 0xfa2: 0x0001, 0xfa3: 0x0001,",
   "\t0xfa4: 0x0001, 0xfa5: 0x0001, 0xfa6: 0x0001, 0xfa7: 0x0001, 0xfa8: 0x0001, 0xfa9: 0x0001,",
   "\t0xfaa: 0x0001, 0xfab: 0x0001, 0xfac: 0x0001, 0xfad: 0x0001, 0xfae: 0x0001, 0xfaf: 0x0001,",
   "\t0xfb0: 0x0001, 0xfb1: 0x0001, 0xfb2: 0x0001, 0xfb3: 0x0001, 0xfb4: 0x0001, 0xfb5: 0x0001,",
   "\t0xfb6: 0x0001, 0xfb7: 0x0001, 0xfb8: 0x0001, 0xfb9: 0x0001, 0xfba: 0x0001, 0xfbb: 0x0001,",
   "\t0xfbc: 0x0001, 0xfbd: 0x0001, 0xfbe: 0x0001, 0xfbf: 0x0001,",
   "\t// Block 0x3f, offset 0xfc0",
   "\t0xfc0: 0x0001, 0xfc1: 0x0001, 0xfc2: 0x0001, 0xfc3: 0x0001, 0xfc4: 0x0001, 0xfc5: 0x0001,",
   "\t0xfc6: 0x0001, 0xfc7: 0x0001, 0xfc8: 0x0001, 0xfc9: 0x0001, 0xfca: 0x0001, 0xfcb: 0x0001,",
   "\t0xfcc: 0x0001, 0xfcd: 0x0001, 0xfce: 0x0001, 0xfcf: 0x0001, 0xfd0: 0x0001, 0xfd1: 0x0001,",
   "\t0xfd2: 0x0001, 0xfd3: 0x0001, 0xfd4: 0x0001, 0xfd5: 0x0001, 0xfd6: 0x0001, 0xfd7: 0x0001,",
   "\t0xfd8: 0x0001, 0xfd9: 0x0001, 0xfda: 0x0001, 0xfdd: 0x0010,",
   "\t0xfde: 0x0010, 0xfdf: 0x0010,"]
theorem v3_eq : v3 = (layout 6 4 48 ((Table.Values.blocks.drop 48).take 16)).map String.ofList := by
  kernel_rfl
/-- words/trie.go:763-919, `wordsValues` from block 0x40 on. -/
def v4 : List String :=
  ["\t// Block 0x40, offset 0x1000",
   "\t0x1000: 0x0001, 0x1001: 0x0001, 0x1002: 0x0001, 0x1003: 0x0001, 0x1004: 0x0001, 0x1005: 0x0001,",
   "\t0x1006: 0x0001, 0x1007: 0x0001, 0x1008: 0x0001, 0x1009: 0x0001, 0x100a: 0x0001, 0x100b: 0x0001,",
   "\t0x100c: 0x0001, 0x100d: 0x0001, 0x100e: 0x0001, 0x100f: 0x0001,",
   "\t0x1020: 0x0001, 0x1021: 0x0001, 0x1022: 0x0001, 0x1023: 0x0001,",
   "\t0x1024: 0x0001, 0x1025: 0x0001, 0x1026: 0x0001, 0x1027: 0x0001, 0x1028: 0x0001, 0x1029: 0x0001,",
   "\t0x102a: 0x0001, 0x102b: 0x0001, 0x102c: 0x0001, 0x102d: 0x0001, 0x102e: 0x0001, 0x102f: 0x0001,",
   "\t0x1030: 0x0001, 0x1031: 0x0001, 0x1032: 0x0001, 0x1033: 0x0001, 0x1034: 0x0001, 0x1035: 0x0001,",
   "\t0x1036: 0x0001, 0x1037: 0x0001, 0x1038: 0x0001, 0x1039: 0x0001, 0x103a: 0x0001, 0x103b: 0x0001,",
   "\t0x103c: 0x0001, 0x103d: 0x0001, 0x103e: 0x0001, 0x103f: 0x0001,",
   "\t// Block 0x41, offset 0x1040",
   "\t0x1040: 0x0001, 0x1041: 0x0001, 0x1042: 0x0001, 0x1043: 0x0001, 0x1044: 0x0001, 0x1045: 0x0001,",
   "\t0x1046: 0x0001, 0x1047: 0x0001, 0x1048: 0x0001, 0x1049: 0x0001, 0x104a: 0x0001, 0x104b: 0x0001,",
   "\t0x104c: 0x0001, 0x104d: 0x0001, 0x104e: 0x0001, 0x104f: 0x0001, 0x1050: 0x0001, 0x1051: 0x0001,",
   "\t0x1052: 0x0001, 0x1053: 0x0001, 0x1054: 0x0001, 0x1055: 0x0001, 0x1056: 0x0001, 0x1057: 0x0001,",
   "\t0x1058: 0x0001, 0x1059: 0x0001, 0x105a: 0x0001, 0x105b: 0x0001, 0x105c: 0x0001, 0x105d: 0x0001,",
   "\t0x105e: 0x0001, 0x105f: 0x0001, 0x1060: 0x0001, 0x1061: 0x0001, 0x1062: 0x0001, 0x1063: 0x0001,",
   "\t0x1064: 0x0001, 0x1065: 0x0001, 0x1066: 0x0001, 0x1067: 0x0001, 0x1068: 0x0001, 0x1069: 0x0001,",
   "\t0x106a: 0x0001, 0x106b: 0x0001, 0x106c: 0x0001, 0x106d: 0x0001, 0x106e: 0x0001, 0x106f: 0x0001,",
   "\t0x1070: 0x0001, 0x1071: 0x0001, 0x1072: 0x0001, 0x1073: 0x0001, 0x1074: 0x0001, 0x1075: 0x0001,",
   "\t0x1078: 0x0001, 0x1079: 0x0001, 0x107a: 0x0001, 0x107b: 0x0001,",
   "\t0x107c: 0x0001, 0x107d: 0x0001,",
   "\t// Block 0x42, offset 0x1080",
   "\t0x1081: 0x0001, 0x1082: 0x0001, 0x1083: 0x0001, 0x1084: 0x0001, 0x1085: 0x0001,",
   "\t0x1086: 0x0001, 0x1087: 0x0001, 0x1088: 0x0001, 0x1089: 0x0001, 0x108a: 0x0001, 0x108b: 0x0001,",
   "\t0x108c: 0x0001, 0x108d: 0x0001, 0x108e: 0x0001, 0x108f: 0x0001, 0x1090: 0x0001, 0x1091: 0x0001,",
   "\t0x1092: 0x0001, 0x1093: 0x0001, 0x1094: 0x0001, 0x1095: 0x0001, 0x1096: 0x0001, 0x1097: 0x0001,",
   "\t0x1098: 0x0001, 0x1099: 0x0001, 0x109a: 0x0001, 0x109b: 0x0001, 0x109c: 0x0001, 0x109d: 0x0001,",
   "\t0x109e: 0x0001, 0x109f: 0x0001, 0x10a0: 0x0001, 0x10a1: 0x0001, 0x10a2: 0x0001, 0x10a3: 0x0001,",
   "\t0x10a4: 0x0001, 0x10a5: 0x0001, 0x10a6: 0x0001, 0x10a7: 0x0001, 0x10a8: 0x0001, 0x10a9: 0x0001,",
   "\t0x10aa: 0x0001, 0x10ab: 0x0001, 0x10ac: 0x0001, 0x10ad: 0x0001, 0x10ae: 0x0001, 0x10af: 0x0001,",
   "\t0x10b0: 0x0001, 0x10b1: 0x0001, 0x10b2: 0x0001, 0x10b3: 0x0001, 0x10b4: 0x0001, 0x10b5: 0x0001,",
   "\t0x10b6: 0x0001, 0x10b7: 0x0001, 0x10b8: 0x0001, 0x10b9: 0x0001, 0x10ba: 0x0001, 0x10bb: 0x0001,",
   "\t0x10bc: 0x0001, 0x10bd: 0x0001, 0x10be: 0x0001, 0x10bf: 0x0001,",
   "\t// Block 0x43, offset 0x10c0",
   "\t0x10c0: 0x0001, 0x10c1: 0x0001, 0x10c2: 0x0001, 0x10c3: 0x0001, 0x10c4: 0x0001, 0x10c5: 0x0001,",
   "\t0x10c6: 0x0001, 0x10c7: 0x0001, 0x10c8: 0x0001, 0x10c9: 0x0001, 0x10ca: 0x0001, 0x10cb: 0x0001,",
   "\t0x10cc: 0x0001, 0x10cd: 0x0001, 0x10ce: 0x0001, 0x10cf: 0x0001, 0x10d0: 0x0001, 0x10d1: 0x0001,",
   "\t0x10d2: 0x0001, 0x10d3: 0x0001, 0x10d4: 0x0001, 0x10d5: 0x0001, 0x10d6: 0x0001, 0x10d7: 0x0001,",
   "\t0x10d8: 0x0001, 0x10d9: 0x0001, 0x10da: 0x0001, 0x10db: 0x0001, 0x10dc: 0x0001, 0x10dd: 0x0001,",
   "\t0x10de: 0x0001, 0x10df: 0x0001, 0x10e0: 0x0001, 0x10e1: 0x0001, 0x10e2: 0x0001, 0x10e3: 0x0001,",
   "\t0x10e4: 0x0001, 0x10e5: 0x0001, 0x10e6: 0x0001, 0x10e7: 0x0001, 0x10e8: 0x0001, 0x10e9: 0x0001,",
   "\t0x10ea: 0x0001, 0x10eb: 0x0001, 0x10ec: 0x0001, 0x10ef: 0x0001,",
   "\t0x10f0: 0x0001, 0x10f1: 0x0001, 0x10f2: 0x0001, 0x10f3: 0x0001, 0x10f4: 0x0001, 0x10f5: 0x0001,",
   "\t0x10f6: 0x0001, 0x10f7: 0x0001, 0x10f8: 0x0001, 0x10f9: 0x0001, 0x10fa: 0x0001, 0x10fb: 0x0001,",
   "\t0x10fc: 0x0001, 0x10fd: 0x0001, 0x10fe: 0x0001, 0x10ff: 0x0001,",
   "\t// Block 0x44, offset 0x1100",
   "\t0x1100: 0x40000, 0x1101: 0x0001, 0x1102: 0x0001, 0x1103: 0x0001, 0x1104: 0x0001, 0x1105: 0x0001,",
   "\t0x1106: 0x0001, 0x1107: 0x0001, 0x1108: 0x0001, 0x1109: 0x0001, 0x110a: 0x0001, 0x110b: 0x0001,",
   "\t0x110c: 0x0001, 0x110d: 0x0001, 0x110e: 0x0001, 0x110f: 0x0001, 0x1110: 0x0001, 0x1111: 0x0001,",
   "\t0x1112: 0x0001, 0x1113: 0x0001, 0x1114: 0x0001, 0x1115: 0x0001, 0x1116: 0x0001, 0x1117: 0x0001,",
   "\t0x1118: 0x0001, 0x1119: 0x0001, 0x111a: 0x0001,",
   "\t0x1120: 0x0001, 0x1121: 0x0001, 0x1122: 0x0001, 0x1123: 0x0001,",
   "\t0x1124: 0x0001, 0x1125: 0x0001, 0x1126: 0x0001, 0x1127: 0x0001, 0x1128: 0x0001, 0x1129: 0x0001,",
   "\t0x112a: 0x0001, 0x112b: 0x0001, 0x112c: 0x0001, 0x112d: 0x0001, 0x112e: 0x0001, 0x112f: 0x0001,",
   "\t0x1130: 0x0001, 0x1131: 0x0001, 0x1132: 0x0001, 0x1133: 0x0001, 0x1134: 0x0001, 0x1135: 0x0001,",
   "\t0x1136: 0x0001, 0x1137: 0x0001, 0x1138: 0x0001, 0x1139: 0x0001, 0x113a: 0x0001, 0x113b: 0x0001,",
   "\t0x113c: 0x0001, 0x113d: 0x0001, 0x113e: 0x0001, 0x113f: 0x0001,",
   "\t// Block 0x45, offset 0x1140",
   "\t0x1140: 0x0001, 0x1141: 0x0001, 0x1142: 0x0001, 0x1143: 0x0001, 0x1144: 0x0001, 0x1145: 0x0001,",
   "\t0x1146: 0x0001, 0x1147: 0x0001, 0x1148: 0x0001, 0x1149: 0x0001, 0x114a: 0x0001, 0x114b: 0x0001,",
   "\t0x114c: 0x0001, 0x114d: 0x0001, 0x114e: 0x0001, 0x114f: 0x0001, 0x1150: 0x0001, 0x1151: 0x0001,",
   "\t0x1152: 0x0001, 0x1153: 0x0001, 0x1154: 0x0001, 0x1155: 0x0001, 0x1156: 0x0001, 0x1157: 0x0001,",
   "\t0x1158: 0x0001, 0x1159: 0x0001, 0x115a: 0x0001, 0x115b: 0x0001, 0x115c: 0x0001, 0x115d: 0x0001,",
   "\t0x115e: 0x0001, 0x115f: 0x0001, 0x1160: 0x0001, 0x1161: 0x0001, 0x1162: 0x0001, 0x1163: 0x0001,",
   "\t0x1164: 0x0001, 0x1165: 0x0001, 0x1166: 0x0001, 0x1167: 0x0001, 0x1168: 0x0001, 0x1169: 0x0001,",
   "\t0x116a: 0x0001, 0x116e: 0x0001, 0x116f: 0x0001,",
   "\t0x1170: 0x0001, 0x1171: 0x0001, 0x1172: 0x0001, 0x1173: 0x0001, 0x1174: 0x0001, 0x1175: 0x0001,",
   "\t0x1176: 0x0001, 0x1177: 0x0001, 0x1178: 0x0001,",
   "\t// Block 0x46, offset 0x1180",
   "\t0x1180: 0x0001, 0x1181: 0x0001, 0x1182: 0x0001, 0x1183: 0x0001, 0x1184: 0x0001, 0x1185: 0x0001,",
   "\t0x1186: 0x0001, 0x1187: 0x0001, 0x1188: 0x0001, 0x1189: 0x0001, 0x118a: 0x0001, 0x118b: 0x0001,",
   "\t0x118c: 0x0001, 0x118d: 0x0001, 0x118e: 0x0001, 0x118f: 0x0001, 0x1190: 0x0001, 0x1191: 0x0001,",
   "\t0x1192: 0x0010, 0x1193: 0x0010, 0x1194: 0x0010, 0x1195: 0x0010,",
   "\t0x119f: 0x0001, 0x11a0: 0x0001, 0x11a1: 0x0001, 0x11a2: 0x0001, 0x11a3: 0x0001,",
   "\t0x11a4: 0x0001, 0x11a5: 0x0001, 0x11a6: 0x0001, 0x11a7: 0x0001, 0x11a8: 0x0001, 0x11a9: 0x0001,",
   "\t0x11aa: 0x0001, 0x11ab: 0x0001, 0x11ac: 0x0001, 0x11ad: 0x0001, 0x11ae: 0x0001, 0x11af: 0x0001,",
   "\t0x11b0: 0x0001, 0x11b1: 0x0001, 0x11b2: 0x0010, 0x11b3: 0x0010, 0x11b4: 0x0010,",
   "\t// Block 0x47, offset 0x11c0",
   "\t0x11c0: 0x0001, 0x11c1: 0x0001, 0x11c2: 0x0001, 0x11c3: 0x0001, 0x11c4: 0x0001, 0x11c5: 0x0001,",
   "\t0x11c6: 0x0001, 0x11c7: 0x0001, 0x11c8: 0x0001, 0x11c9: 0x0001, 0x11ca: 0x0001, 0x11cb: 0x0001,",
   "\t0x11cc: 0x0001, 0x11cd: 0x0001, 0x11ce: 0x0001, 0x11cf: 0x0001, 0x11d0: 0x0001, 0x11d1: 0x0001,",
   "\t0x11d2: 0x0010, 0x11d3: 0x0010,",
   "\t0x11e0: 0x0001, 0x11e1: 0x0001, 0x11e2: 0x0001, 0x11e3: 0x0001,",
   "\t0x11e4: 0x0001, 0x11e5: 0x0001, 0x11e6: 0x0001, 0x11e7: 0x0001, 0x11e8: 0x0001, 0x11e9: 0x0001,",
   "\t0x11ea: 0x0001, 0x11eb: 0x0001, 0x11ec: 0x0001, 0x11ee: 0x0001, 0x11ef: 0x0001,",
   "\t0x11f0: 0x0001, 0x11f2: 0x0010, 0x11f3: 0x0010,",
   "\t// Block 0x48, offset 0x1200",
   "\t0x1234: 0x0010, 0x1235: 0x0010,",
   "\t0x1236: 0x0010, 0x1237: 0x0010, 0x1238: 0x0010, 0x1239: 0x0010, 0x123a: 0x0010, 0x123b: 0x0010,",
   "\t0x123c: 0x0010, 0x123d: 0x0010, 0x123e: 0x0010, 0x123f: 0x0010,",
   "\t// Block 0x49, offset 0x1240",
   "\t0x1240: 0x0010, 0x1241: 0x0010, 0x1242: 0x0010, 0x1243: 0x0010, 0x1244: 0x0010, 0x1245: 0x0010,",
   "\t0x1246: 0x0010, 0x1247: 0x0010, 0x1248: 0x0010, 0x1249: 0x0010, 0x124a: 0x0010, 0x124b: 0x0010,",
   "\t0x124c: 0x0010, 0x124d: 0x0010, 0x124e: 0x0010, 0x124f: 0x0010, 0x1250: 0x0010, 0x1251: 0x0010,",
   "\t0x1252: 0x0010, 0x1253: 0x0010,",
   "\t0x125d: 0x0010,",
   "\t0x1260: 0x8000, 0x1261: 0x8000, 0x1262: 0x8000, 0x1263: 0x8000,",
   "\t0x1264: 0x8000, 0x1265: 0x8000, 0x1266: 0x8000, 0x1267: 0x8000, 0x1268: 0x8000, 0x1269: 0x8000,",
   "\t// Block 0x4a, offset 0x1280",
   "\t0x128b: 0x0010,",
   "\t0x128c: 0x0010, 0x128d: 0x0010, 0x128e: 0x0080, 0x128f: 0x0010, 0x1290: 0x8000, 0x1291: 0x8000,",
   "\t0x1292: 0x8000, 0x1293: 0x8000, 0x1294: 0x8000, 0x1295: 0x8000, 0x1296: 0x8000, 0x1297: 0x8000,",
   "\t0x1298: 0x8000, 0x1299: 0x8000,",
   "\t0x12a0: 0x0001, 0x12a1: 0x0001, 0x12a2: 0x0001, 0x12a3: 0x0001,",
   "\t0x12a4: 0x0001, 0x12a5: 0x0001, 0x12a6: 0x0001, 0x12a7: 0x0001, 0x12a8: 0x0001, 0x12a9: 0x0001,",
   "\t0x12aa: 0x0001, 0x12ab: 0x0001, 0x12ac: 0x0001, 0x12ad: 0x0001, 0x12ae: 0x0001, 0x12af: 0x0001,",
   "\t0x12b0: 0x0001, 0x12b1: 0x0001, 0x12b2: 0x0001, 0x12b3: 0x0001, 0x12b4: 0x0001, 0x12b5: 0x0001,",
   "\t0x12b6: 0x0001, 0x12b7: 0x0001, 0x12b8: 0x0001, 0x12b9: 0x0001, 0x12ba: 0x0001, 0x12bb: 0x0001,",
   "\t0x12bc: 0x0001, 0x12bd: 0x0001, 0x12be: 0x0001, 0x12bf: 0x0001,",
   "\t// Block 0x4b, offset 0x12c0",
   "\t0x12c0: 0x0001, 0x12c1: 0x0001, 0x12c2: 0x0001, 0x12c3: 0x0001, 0x12c4: 0x0001, 0x12c5: 0x0001,",
   "\t0x12c6: 0x0001, 0x12c7: 0x0001, 0x12c8: 0x0001, 0x12c9: 0x0001, 0x12ca: 0x0001, 0x12cb: 0x0001,",
   "\t0x12cc: 0x0001, 0x12cd: 0x0001, 0x12ce: 0x0001, 0x12cf: 0x0001, 0x12d0: 0x0001, 0x12d1: 0x0001,",
   "\t0x12d2: 0x0001, 0x12d3: 0x0001, 0x12d4: 0x0001, 0x12d5: 0x0001, 0x12d6: 0x0001, 0x12d7: 0x0001,",
   "\t0x12d8: 0x0001, 0x12d9: 0x0001, 0x12da: 0x0001, 0x12db: 0x0001, 0x12dc: 0x0001, 0x12dd: 0x0001,",
   "\t0x12de: 0x0001, 0x12df: 0x0001, 0x12e0: 0x0001, 0x12e1: 0x0001, 0x12e2: 0x0001, 0x12e3: 0x0001,",
   "\t0x12e4: 0x0001, 0x12e5: 0x0001, 0x12e6: 0x0001, 0x12e7: 0x0001, 0x12e8: 0x0001, 0x12e9: 0x0001,",
   "\t0x12ea: 0x0001, 0x12eb: 0x0001, 0x12ec: 0x0001, 0x12ed: 0x0001, 0x12ee: 0x0001, 0x12ef: 0x0001,",
   "\t0x12f0: 0x0001, 0x12f1: 0x0001, 0x12f2: 0x0001, 0x12f3: 0x0001, 0x12f4: 0x0001, 0x12f5: 0x0001,",
   "\t0x12f6: 0x0001, 0x12f7: 0x0001, 0x12f8: 0x0001,",
   "\t// Block 0x4c, offset 0x1300",
   "\t0x1300: 0x0001, 0x1301: 0x0001, 0x1302: 0x0001, 0x1303: 0x0001, 0x1304: 0x0001, 0x1305: 0x0010,",
   "\t0x1306: 0x0010, 0x1307: 0x0001, 0x1308: 0x0001, 0x1309: 0x0001, 0x130a: 0x0001, 0x130b: 0x0001,",
   "\t0x130c: 0x0001, 0x130d: 0x0001, 0x130e: 0x0001, 0x130f: 0x0001, 0x1310: 0x0001, 0x1311: 0x0001,",
   "\t0x1312: 0x0001, 0x1313: 0x0001, 0x1314: 0x0001, 0x1315: 0x0001, 0x1316: 0x0001, 0x1317: 0x0001,",
   "\t0x1318: 0x0001, 0x1319: 0x0001, 0x131a: 0x0001, 0x131b: 0x0001, 0x131c: 0x0001, 0x131d: 0x0001,",
   "\t0x131e: 0x0001, 0x131f: 0x0001, 0x1320: 0x0001, 0x1321: 0x0001, 0x1322: 0x0001, 0x1323: 0x0001,",
   "\t0x1324: 0x0001, 0x1325: 0x0001, 0x1326: 0x0001, 0x1327: 0x0001, 0x1328: 0x0001, 0x1329: 0x0010,",
   "\t0x132a: 0x0001,",
   "\t0x1330: 0x0001, 0x1331: 0x0001, 0x1332: 0x0001, 0x1333: 0x0001, 0x1334: 0x0001, 0x1335: 0x0001,",
   "\t0x1336: 0x0001, 0x1337: 0x0001, 0x1338: 0x0001, 0x1339: 0x0001, 0x133a: 0x0001, 0x133b: 0x0001,",
   "\t0x133c: 0x0001, 0x133d: 0x0001, 0x133e: 0x0001, 0x133f: 0x0001,",
   "\t// Block 0x4d, offset 0x1340",
   "\t0x1340: 0x0001, 0x1341: 0x0001, 0x1342: 0x0001, 0x1343: 0x0001, 0x1344: 0x0001, 0x1345: 0x0001,",
   "\t0x1346: 0x0001, 0x1347: 0x0001, 0x1348: 0x0001, 0x1349: 0x0001, 0x134a: 0x0001, 0x134b: 0x0001,",
   "\t0x134c: 0x0001, 0x134d: 0x0001, 0x134e: 0x0001, 0x134f: 0x0001, 0x1350: 0x0001, 0x1351: 0x0001,",
   "\t0x1352: 0x0001, 0x1353: 0x0001, 0x1354: 0x0001, 0x1355: 0x0001, 0x1356: 0x0001, 0x1357: 0x0001,",
   "\t0x1358: 0x0001, 0x1359: 0x0001, 0x135a: 0x0001, 0x135b: 0x0001, 0x135c: 0x0001, 0x135d: 0x0001,",
   "\t0x135e: 0x0001, 0x135f: 0x0001, 0x1360: 0x0001, 0x1361: 0x0001, 0x1362: 0x0001, 0x1363: 0x0001,",
   "\t0x1364: 0x0001, 0x1365: 0x0001, 0x1366: 0x0001, 0x1367: 0x0001, 0x1368: 0x0001, 0x1369: 0x0001,",
   "\t0x136a: 0x0001, 0x136b: 0x0001, 0x136c: 0x0001, 0x136d: 0x0001, 0x136e: 0x0001, 0x136f: 0x0001,",
   "\t0x1370: 0x0001, 0x1371: 0x0001, 0x1372: 0x0001, 0x1373: 0x0001, 0x1374: 0x0001, 0x1375: 0x0001,",
   "\t// Block 0x4e, offset 0x1380",
   "\t0x1380: 0x0001, 0x1381: 0x0001, 0x1382: 0x0001, 0x1383: 0x0001, 0x1384: 0x0001, 0x1385: 0x0001,",
   "\t0x1386: 0x0001, 0x1387: 0x0001, 0x1388: 0x0001, 0x1389: 0x0001, 0x138a: 0x0001, 0x138b: 0x0001,",
   "\t0x138c: 0x0001, 0x138d: 0x0001, 0x138e: 0x0001, 0x138f: 0x0001, 0x1390: 0x0001, 0x1391: 0x0001,",
   "\t0x1392: 0x0001, 0x1393: 0x0001, 0x1394: 0x0001, 0x1395: 0x0001, 0x1396: 0x0001, 0x1397: 0x0001,",
   "\t0x1398: 0x0001, 0x1399: 0x0001, 0x139a: 0x0001, 0x139b: 0x0001, 0x139c: 0x0001, 0x139d: 0x0001,",
   "\t0x139e: 0x0001, 0x13a0: 0x0010, 0x13a1: 0x0010, 0x13a2: 0x0010, 0x13a3: 0x0010,",
   "\t0x13a4: 0x0010, 0x13a5: 0x0010, 0x13a6: 0x0010, 0x13a7: 0x0010, 0x13a8: 0x0010, 0x13a9: 0x0010,",
   "\t0x13aa: 0x0010, 0x13ab: 0x0010,",
   "\t0x13b0: 0x0010, 0x13b1: 0x0010, 0x13b2: 0x0010, 0x13b3: 0x0010, 0x13b4: 0x0010, 0x13b5: 0x0010,",
   "\t0x13b6: 0x0010, 0x13b7: 0x0010, 0x13b8: 0x0010, 0x13b9: 0x0010, 0x13ba: 0x0010, 0x13bb: 0x0010,",
   "\t// Block 0x4f, offset 0x13c0",
   "\t0x13c6: 0x8000, 0x13c7: 0x8000, 0x13c8: 0x8000, 0x13c9: 0x8000, 0x13ca: 0x8000, 0x13cb: 0x8000,",
   "\t0x13cc: 0x8000, 0x13cd: 0x8000, 0x13ce: 0x8000, 0x13cf: 0x8000,"]
theorem v4_eq : v4 = (layout 6 4 64 ((Table.Values.blocks.drop 64).take 16)).map String.ofList := by
  kernel_rfl
/-- words/trie.go:920-1078, `wordsValues` from block 0x50 on. -/
def v5 : List String :=
  ["\t// Block 0x50, offset 0x1400",
   "\t0x1410: 0x8000, 0x1411: 0x8000,",
   "\t0x1412: 0x8000, 0x1413: 0x8000, 0x1414: 0x8000, 0x1415: 0x8000, 0x1416: 0x8000, 0x1417: 0x8000,",
   "\t0x1418: 0x8000, 0x1419: 0x8000, 0x141a: 0x8000,",
   "\t// Block 0x51, offset 0x1440",
   "\t0x1440: 0x0001, 0x1441: 0x0001, 0x1442: 0x0001, 0x1443: 0x0001, 0x1444: 0x0001, 0x1445: 0x0001,",
   "\t0x1446: 0x0001, 0x1447: 0x0001, 0x1448: 0x0001, 0x1449: 0x0001, 0x144a: 0x0001, 0x144b: 0x0001,",
   "\t0x144c: 0x0001, 0x144d: 0x0001, 0x144e: 0x0001, 0x144f: 0x0001, 0x1450: 0x0001, 0x1451: 0x0001,",
   "\t0x1452: 0x0001, 0x1453: 0x0001, 0x1454: 0x0001, 0x1455: 0x0001, 0x1456: 0x0001, 0x1457: 0x0010,",
   "\t0x1458: 0x0010, 0x1459: 0x0010, 0x145a: 0x0010, 0x145b: 0x0010,",
   "\t// Block 0x52, offset 0x1480",
   "\t0x1495: 0x0010, 0x1496: 0x0010, 0x1497: 0x0010,",
   "\t0x1498: 0x0010, 0x1499: 0x0010, 0x149a: 0x0010, 0x149b: 0x0010, 0x149c: 0x0010, 0x149d: 0x0010,",
   "\t0x149e: 0x0010, 0x14a0: 0x0010, 0x14a1: 0x0010, 0x14a2: 0x0010, 0x14a3: 0x0010,",
   "\t0x14a4: 0x0010, 0x14a5: 0x0010, 0x14a6: 0x0010, 0x14a7: 0x0010, 0x14a8: 0x0010, 0x14a9: 0x0010,",
   "\t0x14aa: 0x0010, 0x14ab: 0x0010, 0x14ac: 0x0010, 0x14ad: 0x0010, 0x14ae: 0x0010, 0x14af: 0x0010,",
   "\t0x14b0: 0x0010, 0x14b1: 0x0010, 0x14b2: 0x0010, 0x14b3: 0x0010, 0x14b4: 0x0010, 0x14b5: 0x0010,",
   "\t0x14b6: 0x0010, 0x14b7: 0x0010, 0x14b8: 0x0010, 0x14b9: 0x0010, 0x14ba: 0x0010, 0x14bb: 0x0010,",
   "\t0x14bc: 0x0010, 0x14bf: 0x0010,",
   "\t// Block 0x53, offset 0x14c0",
   "\t0x14c0: 0x8000, 0x14c1: 0x8000, 0x14c2: 0x8000, 0x14c3: 0x8000, 0x14c4: 0x8000, 0x14c5: 0x8000,",
   "\t0x14c6: 0x8000, 0x14c7: 0x8000, 0x14c8: 0x8000, 0x14c9: 0x8000,",
   "\t0x14d0: 0x8000, 0x14d1: 0x8000,",
   "\t0x14d2: 0x8000, 0x14d3: 0x8000, 0x14d4: 0x8000, 0x14d5: 0x8000, 0x14d6: 0x8000, 0x14d7: 0x8000,",
   "\t0x14d8: 0x8000, 0x14d9: 0x8000,",
   "\t0x14f0: 0x0010, 0x14f1: 0x0010, 0x14f2: 0x0010, 0x14f3: 0x0010, 0x14f4: 0x0010, 0x14f5: 0x0010,",
   "\t0x14f6: 0x0010, 0x14f7: 0x0010, 0x14f8: 0x0010, 0x14f9: 0x0010, 0x14fa: 0x0010, 0x14fb: 0x0010,",
   "\t0x14fc: 0x0010, 0x14fd: 0x0010, 0x14fe: 0x0010, 0x14ff: 0x0010,",
   "\t// Block 0x54, offset 0x1500",
   "\t0x1500: 0x0010, 0x1501: 0x0010, 0x1502: 0x0010, 0x1503: 0x0010, 0x1504: 0x0010, 0x1505: 0x0010,",
   "\t0x1506: 0x0010, 0x1507: 0x0010, 0x1508: 0x0010, 0x1509: 0x0010, 0x150a: 0x0010, 0x150b: 0x0010,",
   "\t0x150c: 0x0010, 0x150d: 0x0010, 0x150e: 0x0010, 0x150f: 0x0010, 0x1510: 0x0010, 0x1511: 0x0010,",
   "\t0x1512: 0x0010, 0x1513: 0x0010, 0x1514: 0x0010, 0x1515: 0x0010, 0x1516: 0x0010, 0x1517: 0x0010,",
   "\t0x1518: 0x0010, 0x1519: 0x0010, 0x151a: 0x0010, 0x151b: 0x0010, 0x151c: 0x0010, 0x151d: 0x0010,",
   "\t0x1520: 0x0010, 0x1521: 0x0010, 0x1522: 0x0010, 0x1523: 0x0010,",
   "\t0x1524: 0x0010, 0x1525: 0x0010, 0x1526: 0x0010, 0x1527: 0x0010, 0x1528: 0x0010, 0x1529: 0x0010,",
   "\t0x152a: 0x0010, 0x152b: 0x0010,",
   "\t// Block 0x55, offset 0x1540",
   "\t0x1540: 0x0010, 0x1541: 0x0010, 0x1542: 0x0010, 0x1543: 0x0010, 0x1544: 0x0010, 0x1545: 0x0001,",
   "\t0x1546: 0x0001, 0x1547: 0x0001, 0x1548: 0x0001, 0x1549: 0x0001, 0x154a: 0x0001, 0x154b: 0x0001,",
   "\t0x154c: 0x0001, 0x154d: 0x0001, 0x154e: 0x0001, 0x154f: 0x0001, 0x1550: 0x0001, 0x1551: 0x0001,",
   "\t0x1552: 0x0001, 0x1553: 0x0001, 0x1554: 0x0001, 0x1555: 0x0001, 0x1556: 0x0001, 0x1557: 0x0001,",
   "\t0x1558: 0x0001, 0x1559: 0x0001, 0x155a: 0x0001, 0x155b: 0x0001, 0x155c: 0x0001, 0x155d: 0x0001,",
   "\t0x155e: 0x0001, 0x155f: 0x0001, 0x1560: 0x0001, 0x1561: 0x0001, 0x1562: 0x0001, 0x1563: 0x0001,",
   "\t0x1564: 0x0001, 0x1565: 0x0001, 0x1566: 0x0001, 0x1567: 0x0001, 0x1568: 0x0001, 0x1569: 0x0001,",
   "\t0x156a: 0x0001, 0x156b: 0x0001, 0x156c: 0x0001, 0x156d: 0x0001, 0x156e: 0x0001, 0x156f: 0x0001,",
   "\t0x1570: 0x0001, 0x1571: 0x0001, 0x1572: 0x0001, 0x1573: 0x0001, 0x1574: 0x0010, 0x1575: 0x0010,",
   "\t0x1576: 0x0010, 0x1577: 0x0010, 0x1578: 0x0010, 0x1579: 0x0010, 0x157a: 0x0010, 0x157b: 0x0010,",
   "\t0x157c: 0x0010, 0x157d: 0x0010, 0x157e: 0x0010, 0x157f: 0x0010,",
   "\t// Block 0x56, offset 0x1580",
   "\t0x1580: 0x0010, 0x1581: 0x0010, 0x1582: 0x0010, 0x1583: 0x0010, 0x1584: 0x0010, 0x1585: 0x0001,",
   "\t0x1586: 0x0001, 0x1587: 0x0001, 0x1588: 0x0001, 0x1589: 0x0001, 0x158a: 0x0001, 0x158b: 0x0001,",
   "\t0x158c: 0x0001, 0x1590: 0x8000, 0x1591: 0x8000,",
   "\t0x1592: 0x8000, 0x1593: 0x8000, 0x1594: 0x8000, 0x1595: 0x8000, 0x1596: 0x8000, 0x1597: 0x8000,",
   "\t0x1598: 0x8000, 0x1599: 0x8000,",
   "\t0x15ab: 0x0010, 0x15ac: 0x0010, 0x15ad: 0x0010, 0x15ae: 0x0010, 0x15af: 0x0010,",
   "\t0x15b0: 0x0010, 0x15b1: 0x0010, 0x15b2: 0x0010, 0x15b3: 0x0010,",
   "\t// Block 0x57, offset 0x15c0",
   "\t0x15c0: 0x0010, 0x15c1: 0x0010, 0x15c2: 0x0010, 0x15c3: 0x0001, 0x15c4: 0x0001, 0x15c5: 0x0001,",
   "\t0x15c6: 0x0001, 0x15c7: 0x0001, 0x15c8: 0x0001, 0x15c9: 0x0001, 0x15ca: 0x0001, 0x15cb: 0x0001,",
   "\t0x15cc: 0x0001, 0x15cd: 0x0001, 0x15ce: 0x0001, 0x15cf: 0x0001, 0x15d0: 0x0001, 0x15d1: 0x0001,",
   "\t0x15d2: 0x0001, 0x15d3: 0x0001, 0x15d4: 0x0001, 0x15d5: 0x0001, 0x15d6: 0x0001, 0x15d7: 0x0001,",
   "\t0x15d8: 0x0001, 0x15d9: 0x0001, 0x15da: 0x0001, 0x15db: 0x0001, 0x15dc: 0x0001, 0x15dd: 0x0001,",
   "\t0x15de: 0x0001, 0x15df: 0x0001, 0x15e0: 0x0001, 0x15e1: 0x0010, 0x15e2: 0x0010, 0x15e3: 0x0010,",
   "\t0x15e4: 0x0010, 0x15e5: 0x0010, 0x15e6: 0x0010, 0x15e7: 0x0010, 0x15e8: 0x0010, 0x15e9: 0x0010,",
   "\t0x15ea: 0x0010, 0x15eb: 0x0010, 0x15ec: 0x0010, 0x15ed: 0x0010, 0x15ee: 0x0001, 0x15ef: 0x0001,",
   "\t0x15f0: 0x8000, 0x15f1: 0x8000, 0x15f2: 0x8000, 0x15f3: 0x8000, 0x15f4: 0x8000, 0x15f5: 0x8000,",
   "\t0x15f6: 0x8000, 0x15f7: 0x8000, 0x15f8: 0x8000, 0x15f9: 0x8000, 0x15fa: 0x0001, 0x15fb: 0x0001,",
   "\t0x15fc: 0x0001, 0x15fd: 0x0001, 0x15fe: 0x0001, 0x15ff: 0x0001,",
   "\t// Block 0x58, offset 0x1600",
   "\t0x1600: 0x0001, 0x1601: 0x0001, 0x1602: 0x0001, 0x1603: 0x0001, 0x1604: 0x0001, 0x1605: 0x0001,",
   "\t0x1606: 0x0001, 0x1607: 0x0001, 0x1608: 0x0001, 0x1609: 0x0001, 0x160a: 0x0001, 0x160b: 0x0001,",
   "\t0x160c: 0x0001, 0x160d: 0x0001, 0x160e: 0x0001, 0x160f: 0x0001, 0x1610: 0x0001, 0x1611: 0x0001,",
   "\t0x1612: 0x0001, 0x1613: 0x0001, 0x1614: 0x0001, 0x1615: 0x0001, 0x1616: 0x0001, 0x1617: 0x0001,",
   "\t0x1618: 0x0001, 0x1619: 0x0001, 0x161a: 0x0001, 0x161b: 0x0001, 0x161c: 0x0001, 0x161d: 0x0001,",
   "\t0x161e: 0x0001, 0x161f: 0x0001, 0x1620: 0x0001, 0x1621: 0x0001, 0x1622: 0x0001, 0x1623: 0x0001,",
   "\t0x1624: 0x0001, 0x1625: 0x0001, 0x1626: 0x0010, 0x1627: 0x0010, 0x1628: 0x0010, 0x1629: 0x0010,",
   "\t0x162a: 0x0010, 0x162b: 0x0010, 0x162c: 0x0010, 0x162d: 0x0010, 0x162e: 0x0010, 0x162f: 0x0010,",
   "\t0x1630: 0x0010, 0x1631: 0x0010, 0x1632: 0x0010, 0x1633: 0x0010,",
   "\t// Block 0x59, offset 0x1640",
   "\t0x1640: 0x0001, 0x1641: 0x0001, 0x1642: 0x0001, 0x1643: 0x0001, 0x1644: 0x0001, 0x1645: 0x0001,",
   "\t0x1646: 0x0001, 0x1647: 0x0001, 0x1648: 0x0001, 0x1649: 0x0001, 0x164a: 0x0001, 0x164b: 0x0001,",
   "\t0x164c: 0x0001, 0x164d: 0x0001, 0x164e: 0x0001, 0x164f: 0x0001, 0x1650: 0x0001, 0x1651: 0x0001,",
   "\t0x1652: 0x0001, 0x1653: 0x0001, 0x1654: 0x0001, 0x1655: 0x0001, 0x1656: 0x0001, 0x1657: 0x0001,",
   "\t0x1658: 0x0001, 0x1659: 0x0001, 0x165a: 0x0001, 0x165b: 0x0001, 0x165c: 0x0001, 0x165d: 0x0001,",
   "\t0x165e: 0x0001, 0x165f: 0x0001, 0x1660: 0x0001, 0x1661: 0x0001, 0x1662: 0x0001, 0x1663: 0x0001,",
   "\t0x1664: 0x0010, 0x1665: 0x0010, 0x1666: 0x0010, 0x1667: 0x0010, 0x1668: 0x0010, 0x1669: 0x0010,",
   "\t0x166a: 0x0010, 0x166b: 0x0010, 0x166c: 0x0010, 0x166d: 0x0010, 0x166e: 0x0010, 0x166f: 0x0010,",
   "\t0x1670: 0x0010, 0x1671: 0x0010, 0x1672: 0x0010, 0x1673: 0x0010, 0x1674: 0x0010, 0x1675: 0x0010,",
   "\t0x1676: 0x0010, 0x1677: 0x0010,",
   "\t// Block 0x5a, offset 0x1680",
   "\t0x1680: 0x8000, 0x1681: 0x8000, 0x1682: 0x8000, 0x1683: 0x8000, 0x1684: 0x8000, 0x1685: 0x8000,",
   "\t0x1686: 0x8000, 0x1687: 0x8000, 0x1688: 0x8000, 0x1689: 0x8000,",
   "\t0x168d: 0x0001, 0x168e: 0x0001, 0x168f: 0x0001, 0x1690: 0x8000, 0x1691: 0x8000,",
   "\t0x1692: 0x8000, 0x1693: 0x8000, 0x1694: 0x8000, 0x1695: 0x8000, 0x1696: 0x8000, 0x1697: 0x8000,",
   "\t0x1698: 0x8000, 0x1699: 0x8000, 0x169a: 0x0001, 0x169b: 0x0001, 0x169c: 0x0001, 0x169d: 0x0001,",
   "\t0x169e: 0x0001, 0x169f: 0x0001, 0x16a0: 0x0001, 0x16a1: 0x0001, 0x16a2: 0x0001, 0x16a3: 0x0001,",
   "\t0x16a4: 0x0001, 0x16a5: 0x0001, 0x16a6: 0x0001, 0x16a7: 0x0001, 0x16a8: 0x0001, 0x16a9: 0x0001,",
   "\t0x16aa: 0x0001, 0x16ab: 0x0001, 0x16ac: 0x0001, 0x16ad: 0x0001, 0x16ae: 0x0001, 0x16af: 0x0001,",
   "\t0x16b0: 0x0001, 0x16b1: 0x0001, 0x16b2: 0x0001, 0x16b3: 0x0001, 0x16b4: 0x0001, 0x16b5: 0x0001,",
   "\t0x16b6: 0x0001, 0x16b7: 0x0001, 0x16b8: 0x0001, 0x16b9: 0x0001, 0x16ba: 0x0001, 0x16bb: 0x0001,",
   "\t0x16bc: 0x0001, 0x16bd: 0x0001,",
   "\t// Block 0x5b, offset 0x16c0",
   "\t0x16c0: 0x0001, 0x16c1: 0x0001, 0x16c2: 0x0001, 0x16c3: 0x0001, 0x16c4: 0x0001, 0x16c5: 0x0001,",
   "\t0x16c6: 0x0001, 0x16c7: 0x0001, 0x16c8: 0x0001, 0x16c9: 0x0001, 0x16ca: 0x0001,",
   "\t0x16d0: 0x0001, 0x16d1: 0x0001,",
   "\t0x16d2: 0x0001, 0x16d3: 0x0001, 0x16d4: 0x0001, 0x16d5: 0x0001, 0x16d6: 0x0001, 0x16d7: 0x0001,",
   "\t0x16d8: 0x0001, 0x16d9: 0x0001, 0x16da: 0x0001, 0x16db: 0x0001, 0x16dc: 0x0001, 0x16dd: 0x0001,",
   "\t0x16de: 0x0001, 0x16df: 0x0001, 0x16e0: 0x0001, 0x16e1: 0x0001, 0x16e2: 0x0001, 0x16e3: 0x0001,",
   "\t0x16e4: 0x0001, 0x16e5: 0x0001, 0x16e6: 0x0001, 0x16e7: 0x0001, 0x16e8: 0x0001, 0x16e9: 0x0001,",
   "\t0x16ea: 0x0001, 0x16eb: 0x0001, 0x16ec: 0x0001, 0x16ed: 0x0001, 0x16ee: 0x0001, 0x16ef: 0x0001,",
   "\t0x16f0: 0x0001, 0x16f1: 0x0001, 0x16f2: 0x0001, 0x16f3: 0x0001, 0x16f4: 0x0001, 0x16f5: 0x0001,",
   "\t0x16f6: 0x0001, 0x16f7: 0x0001, 0x16f8: 0x0001, 0x16f9: 0x0001, 0x16fa: 0x0001,",
   "\t0x16fd: 0x0001, 0x16fe: 0x0001, 0x16ff: 0x0001,",
   "\t// Block 0x5c, offset 0x1700",
   "\t0x1710: 0x0010, 0x1711: 0x0010,",
   "\t0x1712: 0x0010, 0x1714: 0x0010, 0x1715: 0x0010, 0x1716: 0x0010, 0x1717: 0x0010,",
   "\t0x1718: 0x0010, 0x1719: 0x0010, 0x171a: 0x0010, 0x171b: 0x0010, 0x171c: 0x0010, 0x171d: 0x0010,",
   "\t0x171e: 0x0010, 0x171f: 0x0010, 0x1720: 0x0010, 0x1721: 0x0010, 0x1722: 0x0010, 0x1723: 0x0010,",
   "\t0x1724: 0x0010, 0x1725: 0x0010, 0x1726: 0x0010, 0x1727: 0x0010, 0x1728: 0x0010, 0x1729: 0x0001,",
   "\t0x172a: 0x0001, 0x172b: 0x0001, 0x172c: 0x0001, 0x172d: 0x0010, 0x172e: 0x0001, 0x172f: 0x0001,",
   "\t0x1730: 0x0001, 0x1731: 0x0001, 0x1732: 0x0001, 0x1733: 0x0001, 0x1734: 0x0010, 0x1735: 0x0001,",
   "\t0x1736: 0x0001, 0x1737: 0x0010, 0x1738: 0x0010, 0x1739: 0x0010, 0x173a: 0x0001,",
   "\t// Block 0x5d, offset 0x1740",
   "\t0x1740: 0x0001, 0x1741: 0x0001, 0x1742: 0x0001, 0x1743: 0x0001, 0x1744: 0x0001, 0x1745: 0x0001,",
   "\t0x1746: 0x0001, 0x1747: 0x0001, 0x1748: 0x0001, 0x1749: 0x0001, 0x174a: 0x0001, 0x174b: 0x0001,",
   "\t0x174c: 0x0001, 0x174d: 0x0001, 0x174e: 0x0001, 0x174f: 0x0001, 0x1750: 0x0001, 0x1751: 0x0001,",
   "\t0x1752: 0x0001, 0x1753: 0x0001, 0x1754: 0x0001, 0x1755: 0x0001,",
   "\t0x1758: 0x0001, 0x1759: 0x0001, 0x175a: 0x0001, 0x175b: 0x0001, 0x175c: 0x0001, 0x175d: 0x0001,",
   "\t0x1760: 0x0001, 0x1761: 0x0001, 0x1762: 0x0001, 0x1763: 0x0001,",
   "\t0x1764: 0x0001, 0x1765: 0x0001, 0x1766: 0x0001, 0x1767: 0x0001, 0x1768: 0x0001, 0x1769: 0x0001,",
   "\t0x176a: 0x0001, 0x176b: 0x0001, 0x176c: 0x0001, 0x176d: 0x0001, 0x176e: 0x0001, 0x176f: 0x0001,",
   "\t0x1770: 0x0001, 0x1771: 0x0001, 0x1772: 0x0001, 0x1773: 0x0001, 0x1774: 0x0001, 0x1775: 0x0001,",
   "\t0x1776: 0x0001, 0x1777: 0x0001, 0x1778: 0x0001, 0x1779: 0x0001, 0x177a: 0x0001, 0x177b: 0x0001,",
   "\t0x177c: 0x0001, 0x177d: 0x0001, 0x177e: 0x0001, 0x177f: 0x0001,",
   "\t// Block 0x5e, offset 0x1780",
   "\t0x1780: 0x0001, 0x1781: 0x0001, 0x1782: 0x0001, 0x1783: 0x0001, 0x1784: 0x0001, 0x1785: 0x0001,",
   "\t0x1788: 0x0001, 0x1789: 0x0001, 0x178a: 0x0001, 0x178b: 0x0001,",
   "\t0x178c: 0x0001, 0x178d: 0x0001, 0x1790: 0x0001, 0x1791: 0x0001,",
   "\t0x1792: 0x0001, 0x1793: 0x0001, 0x1794: 0x0001, 0x1795: 0x0001, 0x1796: 0x0001, 0x1797: 0x0001,",
   "\t0x1799: 0x0001, 0x179b: 0x0001, 0x179d: 0x0001,",
   "\t0x179f: 0x0001, 0x17a0: 0x0001, 0x17a1: 0x0001, 0x17a2: 0x0001, 0x17a3: 0x0001,",
   "\t0x17a4: 0x0001, 0x17a5: 0x0001, 0x17a6: 0x0001, 0x17a7: 0x0001, 0x17a8: 0x0001, 0x17a9: 0x0001,",
   "\t0x17aa: 0x0001, 0x17ab: 0x0001, 0x17ac: 0x0001, 0x17ad: 0x0001, 0x17ae: 0x0001, 0x17af: 0x0001,",
   "\t0x17b0: 0x0001, 0x17b1: 0x0001, 0x17b2: 0x0001, 0x17b3: 0x0001, 0x17b4: 0x0001, 0x17b5: 0x0001,",
   "\t0x17b6: 0x0001, 0x17b7: 0x0001, 0x17b8: 0x0001, 0x17b9: 0x0001, 0x17ba: 0x0001, 0x17bb: 0x0001,",
   "\t0x17bc: 0x0001, 0x17bd: 0x0001,",
   "\t// Block 0x5f, offset 0x17c0",
   "\t0x17c0: 0x0001, 0x17c1: 0x0001, 0x17c2: 0x0001, 0x17c3: 0x0001, 0x17c4: 0x0001, 0x17c5: 0x0001,",
   "\t0x17c6: 0x0001, 0x17c7: 0x0001, 0x17c8: 0x0001, 0x17c9: 0x0001, 0x17ca: 0x0001, 0x17cb: 0x0001,",
   "\t0x17cc: 0x0001, 0x17cd: 0x0001, 0x17ce: 0x0001, 0x17cf: 0x0001, 0x17d0: 0x0001, 0x17d1: 0x0001,",
   "\t0x17d2: 0x0001, 0x17d3: 0x0001, 0x17d4: 0x0001, 0x17d5: 0x0001, 0x17d6: 0x0001, 0x17d7: 0x0001,",
   "\t0x17d8: 0x0001, 0x17d9: 0x0001, 0x17da: 0x0001, 0x17db: 0x0001, 0x17dc: 0x0001, 0x17dd: 0x0001,",
   "\t0x17de: 0x0001, 0x17df: 0x0001, 0x17e0: 0x0001, 0x17e1: 0x0001, 0x17e2: 0x0001, 0x17e3: 0x0001,",
   "\t0x17e4: 0x0001, 0x17e5: 0x0001, 0x17e6: 0x0001, 0x17e7: 0x0001, 0x17e8: 0x0001, 0x17e9: 0x0001,",
   "\t0x17ea: 0x0001, 0x17eb: 0x0001, 0x17ec: 0x0001, 0x17ed: 0x0001, 0x17ee: 0x0001, 0x17ef: 0x0001,",
   "\t0x17f0: 0x0001, 0x17f1: 0x0001, 0x17f2: 0x0001, 0x17f3: 0x0001, 0x17f4: 0x0001,",
   "\t0x17f6: 0x0001, 0x17f7: 0x0001, 0x17f8: 0x0001, 0x17f9: 0x0001, 0x17fa: 0x0001, 0x17fb: 0x0001,",
   "\t0x17fc: 0x0001, 0x17fe: 0x0001,"]
theorem v5_eq : v5 = (layout 6 4 80 ((Table.Values.blocks.drop 80).take 16)).map String.ofList := by
  kernel_rfl
/-- words/trie.go:1079-1193, `wordsValues` from block 0x60 on. -/
def v6 : List String :=
  ["\t// Block 0x60, offset 0x1800",
   "\t0x1802: 0x0001, 0x1803: 0x0001, 0x1804: 0x0001,",
   "\t0x1806: 0x0001, 0x1807: 0x0001, 0x1808: 0x0001, 0x1809: 0x0001, 0x180a: 0x0001, 0x180b: 0x0001,",
   "\t0x180c: 0x0001, 0x1810: 0x0001, 0x1811: 0x0001,",
   "\t0x1812: 0x0001, 0x1813: 0x0001, 0x1816: 0x0001, 0x1817: 0x0001,",
   "\t0x1818: 0x0001, 0x1819: 0x0001, 0x181a: 0x0001, 0x181b: 0x0001,",
   "\t0x1820: 0x0001, 0x1821: 0x0001, 0x1822: 0x0001, 0x1823: 0x0001,",
   "\t0x1824: 0x0001, 0x1825: 0x0001, 0x1826: 0x0001, 0x1827: 0x0001, 0x1828: 0x0001, 0x1829: 0x0001,",
   "\t0x182a: 0x0001, 0x182b: 0x0001, 0x182c: 0x0001,",
   "\t0x1832: 0x0001, 0x1833: 0x0001, 0x1834: 0x0001,",
   "\t0x1836: 0x0001, 0x1837: 0x0001, 0x1838: 0x0001, 0x1839: 0x0001, 0x183a: 0x0001, 0x183b: 0x0001,",
   "\t0x183c: 0x0001,",
   "\t// Block 0x61, offset 0x1840",
   "\t0x1840: 0x40000, 0x1841: 0x40000, 0x1842: 0x40000, 0x1843: 0x40000, 0x1844: 0x40000, 0x1845: 0x40000,",
   "\t0x1846: 0x40000, 0x1848: 0x40000, 0x1849: 0x40000, 0x184a: 0x40000,",
   "\t0x184c: 0x0010, 0x184d: 0x80000, 0x184e: 0x0080, 0x184f: 0x0080,",
   "\t0x1858: 0x2000, 0x1859: 0x2000,",
   "\t0x1864: 0x2000, 0x1867: 0x0800, 0x1868: 0x4000, 0x1869: 0x4000,",
   "\t0x186a: 0x0080, 0x186b: 0x0080, 0x186c: 0x0080, 0x186d: 0x0080, 0x186e: 0x0080, 0x186f: 0x0020,",
   "\t0x187c: 0x0040, 0x187f: 0x0020,",
   "\t// Block 0x62, offset 0x1880",
   "\t0x1880: 0x0020, 0x1884: 0x1000,",
   "\t0x1889: 0x0040,",
   "\t0x1894: 0x0020,",
   "\t0x189f: 0x40000, 0x18a0: 0x0080, 0x18a1: 0x0080, 0x18a2: 0x0080, 0x18a3: 0x0080,",
   "\t0x18a4: 0x0080, 0x18a6: 0x0080, 0x18a7: 0x0080, 0x18a8: 0x0080, 0x18a9: 0x0080,",
   "\t0x18aa: 0x0080, 0x18ab: 0x0080, 0x18ac: 0x0080, 0x18ad: 0x0080, 0x18ae: 0x0080, 0x18af: 0x0080,",
   "\t0x18b1: 0x0001,",
   "\t0x18bf: 0x0001,",
   "\t// Block 0x63, offset 0x18c0",
   "\t0x18d0: 0x0001, 0x18d1: 0x0001,",
   "\t0x18d2: 0x0001, 0x18d3: 0x0001, 0x18d4: 0x0001, 0x18d5: 0x0001, 0x18d6: 0x0001, 0x18d7: 0x0001,",
   "\t0x18d8: 0x0001, 0x18d9: 0x0001, 0x18da: 0x0001, 0x18db: 0x0001, 0x18dc: 0x0001,",
   "\t// Block 0x64, offset 0x1900",
   "\t0x1910: 0x0010, 0x1911: 0x0010,",
   "\t0x1912: 0x0010, 0x1913: 0x0010, 0x1914: 0x0010, 0x1915: 0x0010, 0x1916: 0x0010, 0x1917: 0x0010,",
   "\t0x1918: 0x0010, 0x1919: 0x0010, 0x191a: 0x0010, 0x191b: 0x0010, 0x191c: 0x0010, 0x191d: 0x0010,",
   "\t0x191e: 0x0010, 0x191f: 0x0010, 0x1920: 0x0010, 0x1921: 0x0010, 0x1922: 0x0010, 0x1923: 0x0010,",
   "\t0x1924: 0x0010, 0x1925: 0x0010, 0x1926: 0x0010, 0x1927: 0x0010, 0x1928: 0x0010, 0x1929: 0x0010,",
   "\t0x192a: 0x0010, 0x192b: 0x0010, 0x192c: 0x0010, 0x192d: 0x0010, 0x192e: 0x0010, 0x192f: 0x0010,",
   "\t0x1930: 0x0010,",
   "\t// Block 0x65, offset 0x1940",
   "\t0x1942: 0x0001,",
   "\t0x1947: 0x0001, 0x194a: 0x0001, 0x194b: 0x0001,",
   "\t0x194c: 0x0001, 0x194d: 0x0001, 0x194e: 0x0001, 0x194f: 0x0001, 0x1950: 0x0001, 0x1951: 0x0001,",
   "\t0x1952: 0x0001, 0x1953: 0x0001, 0x1955: 0x0001,",
   "\t0x1959: 0x0001, 0x195a: 0x0001, 0x195b: 0x0001, 0x195c: 0x0001, 0x195d: 0x0001,",
   "\t0x1962: 0x0040,",
   "\t0x1964: 0x0001, 0x1966: 0x0001, 0x1968: 0x0001,",
   "\t0x196a: 0x0001, 0x196b: 0x0001, 0x196c: 0x0001, 0x196d: 0x0001, 0x196f: 0x0001,",
   "\t0x1970: 0x0001, 0x1971: 0x0001, 0x1972: 0x0001, 0x1973: 0x0001, 0x1974: 0x0001, 0x1975: 0x0001,",
   "\t0x1976: 0x0001, 0x1977: 0x0001, 0x1978: 0x0001, 0x1979: 0x0041,",
   "\t0x197c: 0x0001, 0x197d: 0x0001, 0x197e: 0x0001, 0x197f: 0x0001,",
   "\t// Block 0x66, offset 0x1980",
   "\t0x1985: 0x0001,",
   "\t0x1986: 0x0001, 0x1987: 0x0001, 0x1988: 0x0001, 0x1989: 0x0001,",
   "\t0x198e: 0x0001,",
   "\t0x19a0: 0x0001, 0x19a1: 0x0001, 0x19a2: 0x0001, 0x19a3: 0x0001,",
   "\t0x19a4: 0x0001, 0x19a5: 0x0001, 0x19a6: 0x0001, 0x19a7: 0x0001, 0x19a8: 0x0001, 0x19a9: 0x0001,",
   "\t0x19aa: 0x0001, 0x19ab: 0x0001, 0x19ac: 0x0001, 0x19ad: 0x0001, 0x19ae: 0x0001, 0x19af: 0x0001,",
   "\t0x19b0: 0x0001, 0x19b1: 0x0001, 0x19b2: 0x0001, 0x19b3: 0x0001, 0x19b4: 0x0001, 0x19b5: 0x0001,",
   "\t0x19b6: 0x0001, 0x19b7: 0x0001, 0x19b8: 0x0001, 0x19b9: 0x0001, 0x19ba: 0x0001, 0x19bb: 0x0001,",
   "\t0x19bc: 0x0001, 0x19bd: 0x0001, 0x19be: 0x0001, 0x19bf: 0x0001,",
   "\t// Block 0x67, offset 0x19c0",
   "\t0x19c0: 0x0001, 0x19c1: 0x0001, 0x19c2: 0x0001, 0x19c3: 0x0001, 0x19c4: 0x0001, 0x19c5: 0x0001,",
   "\t0x19c6: 0x0001, 0x19c7: 0x0001, 0x19c8: 0x0001,",
   "\t0x19d4: 0x0040, 0x19d5: 0x0040, 0x19d6: 0x0040, 0x19d7: 0x0040,",
   "\t0x19d8: 0x0040, 0x19d9: 0x0040,",
   "\t0x19e9: 0x0040,",
   "\t0x19ea: 0x0040,",
   "\t// Block 0x68, offset 0x1a00",
   "\t0x1a1a: 0x0040, 0x1a1b: 0x0040,",
   "\t0x1a28: 0x0040,",
   "\t// Block 0x69, offset 0x1a40",
   "\t0x1a4f: 0x0040,",
   "\t0x1a69: 0x0040,",
   "\t0x1a6a: 0x0040, 0x1a6b: 0x0040, 0x1a6c: 0x0040, 0x1a6d: 0x0040, 0x1a6e: 0x0040, 0x1a6f: 0x0040,",
   "\t0x1a70: 0x0040, 0x1a71: 0x0040, 0x1a72: 0x0040, 0x1a73: 0x0040,",
   "\t0x1a78: 0x0040, 0x1a79: 0x0040, 0x1a7a: 0x0040,",
   "\t// Block 0x6a, offset 0x1a80",
   "\t0x1ab6: 0x0001, 0x1ab7: 0x0001, 0x1ab8: 0x0001, 0x1ab9: 0x0001, 0x1aba: 0x0001, 0x1abb: 0x0001,",
   "\t0x1abc: 0x0001, 0x1abd: 0x0001, 0x1abe: 0x0001, 0x1abf: 0x0001,",
   "\t// Block 0x6b, offset 0x1ac0",
   "\t0x1ac0: 0x0001, 0x1ac1: 0x0001, 0x1ac2: 0x0041, 0x1ac3: 0x0001, 0x1ac4: 0x0001, 0x1ac5: 0x0001,",
   "\t0x1ac6: 0x0001, 0x1ac7: 0x0001, 0x1ac8: 0x0001, 0x1ac9: 0x0001, 0x1aca: 0x0001, 0x1acb: 0x0001,",
   "\t0x1acc: 0x0001, 0x1acd: 0x0001, 0x1ace: 0x0001, 0x1acf: 0x0001, 0x1ad0: 0x0001, 0x1ad1: 0x0001,",
   "\t0x1ad2: 0x0001, 0x1ad3: 0x0001, 0x1ad4: 0x0001, 0x1ad5: 0x0001, 0x1ad6: 0x0001, 0x1ad7: 0x0001,",
   "\t0x1ad8: 0x0001, 0x1ad9: 0x0001, 0x1ada: 0x0001, 0x1adb: 0x0001, 0x1adc: 0x0001, 0x1add: 0x0001,",
   "\t0x1ade: 0x0001, 0x1adf: 0x0001, 0x1ae0: 0x0001, 0x1ae1: 0x0001, 0x1ae2: 0x0001, 0x1ae3: 0x0001,",
   "\t0x1ae4: 0x0001, 0x1ae5: 0x0001, 0x1ae6: 0x0001, 0x1ae7: 0x0001, 0x1ae8: 0x0001, 0x1ae9: 0x0001,",
   "\t// Block 0x6c, offset 0x1b00",
   "\t0x1b2a: 0x0040, 0x1b2b: 0x0040,",
   "\t0x1b36: 0x0040,",
   "\t// Block 0x6d, offset 0x1b40",
   "\t0x1b40: 0x0040,",
   "\t0x1b7b: 0x0040,",
   "\t0x1b7c: 0x0040, 0x1b7d: 0x0040, 0x1b7e: 0x0040,",
   "\t// Block 0x6e, offset 0x1b80",
   "\t0x1b80: 0x0040, 0x1b81: 0x0040, 0x1b82: 0x0040, 0x1b83: 0x0040, 0x1b84: 0x0040,",
   "\t0x1b8e: 0x0040, 0x1b91: 0x0040,",
   "\t0x1b94: 0x0040, 0x1b95: 0x0040,",
   "\t0x1b98: 0x0040, 0x1b9d: 0x0040,",
   "\t0x1ba0: 0x0040, 0x1ba2: 0x0040, 0x1ba3: 0x0040,",
   "\t0x1ba6: 0x0040,",
   "\t0x1baa: 0x0040, 0x1bae: 0x0040, 0x1baf: 0x0040,",
   "\t0x1bb8: 0x0040, 0x1bb9: 0x0040, 0x1bba: 0x0040,",
   "\t// Block 0x6f, offset 0x1bc0",
   "\t0x1bc0: 0x0040, 0x1bc2: 0x0040,",
   "\t0x1bc8: 0x0040, 0x1bc9: 0x0040, 0x1bca: 0x0040, 0x1bcb: 0x0040,",
   "\t0x1bcc: 0x0040, 0x1bcd: 0x0040, 0x1bce: 0x0040, 0x1bcf: 0x0040, 0x1bd0: 0x0040, 0x1bd1: 0x0040,",
   "\t0x1bd2: 0x0040, 0x1bd3: 0x0040,",
   "\t0x1bdf: 0x0040, 0x1be0: 0x0040, 0x1be3: 0x0040,",
   "\t0x1be5: 0x0040, 0x1be6: 0x0040, 0x1be8: 0x0040,",
   "\t0x1bfb: 0x0040,",
   "\t0x1bfe: 0x0040, 0x1bff: 0x0040,"]
theorem v6_eq : v6 = (layout 6 4 96 ((Table.Values.blocks.drop 96).take 16)).map String.ofList := by
  kernel_rfl
/-- words/trie.go:1194-1320, `wordsValues` from block 0x70 on. -/
def v7 : List String :=
  ["\t// Block 0x70, offset 0x1c00",
   "\t0x1c12: 0x0040, 0x1c13: 0x0040, 0x1c14: 0x0040, 0x1c15: 0x0040, 0x1c16: 0x0040, 0x1c17: 0x0040,",
   "\t0x1c19: 0x0040, 0x1c1b: 0x0040, 0x1c1c: 0x0040,",
   "\t0x1c20: 0x0040, 0x1c21: 0x0040,",
   "\t0x1c27: 0x0040,",
   "\t0x1c2a: 0x0040, 0x1c2b: 0x0040,",
   "\t0x1c30: 0x0040, 0x1c31: 0x0040,",
   "\t0x1c3d: 0x0040, 0x1c3e: 0x0040,",
   "\t// Block 0x71, offset 0x1c40",
   "\t0x1c44: 0x0040, 0x1c45: 0x0040,",
   "\t0x1c48: 0x0040,",
   "\t0x1c4e: 0x0040, 0x1c4f: 0x0040, 0x1c51: 0x0040,",
   "\t0x1c53: 0x0040, 0x1c54: 0x0040,",
   "\t0x1c69: 0x0040,",
   "\t0x1c6a: 0x0040,",
   "\t0x1c70: 0x0040, 0x1c71: 0x0040, 0x1c72: 0x0040, 0x1c73: 0x0040, 0x1c74: 0x0040, 0x1c75: 0x0040,",
   "\t0x1c77: 0x0040, 0x1c78: 0x0040, 0x1c79: 0x0040, 0x1c7a: 0x0040,",
   "\t0x1c7d: 0x0040,",
   "\t// Block 0x72, offset 0x1c80",
   "\t0x1c82: 0x0040, 0x1c85: 0x0040,",
   "\t0x1c88: 0x0040, 0x1c89: 0x0040, 0x1c8a: 0x0040, 0x1c8b: 0x0040,",
   "\t0x1c8c: 0x0040, 0x1c8d: 0x0040, 0x1c8f: 0x0040,",
   "\t0x1c92: 0x0040, 0x1c94: 0x0040, 0x1c96: 0x0040,",
   "\t0x1c9d: 0x0040,",
   "\t0x1ca1: 0x0040,",
   "\t0x1ca8: 0x0040,",
   "\t0x1cb3: 0x0040, 0x1cb4: 0x0040,",
   "\t// Block 0x73, offset 0x1cc0",
   "\t0x1cc4: 0x0040,",
   "\t0x1cc7: 0x0040,",
   "\t0x1ccc: 0x0040, 0x1cce: 0x0040,",
   "\t0x1cd3: 0x0040, 0x1cd4: 0x0040, 0x1cd5: 0x0040, 0x1cd7: 0x0040,",
   "\t0x1ce3: 0x0040,",
   "\t0x1ce4: 0x0040,",
   "\t// Block 0x74, offset 0x1d00",
   "\t0x1d15: 0x0040, 0x1d16: 0x0040, 0x1d17: 0x0040,",
   "\t0x1d21: 0x0040,",
   "\t0x1d30: 0x0040,",
   "\t0x1d3f: 0x0040,",
   "\t// Block 0x75, offset 0x1d40",
   "\t0x1d74: 0x0040, 0x1d75: 0x0040,",
   "\t// Block 0x76, offset 0x1d80",
   "\t0x1d85: 0x0040,",
   "\t0x1d86: 0x0040, 0x1d87: 0x0040,",
   "\t0x1d9b: 0x0040, 0x1d9c: 0x0040,",
   "\t// Block 0x77, offset 0x1dc0",
   "\t0x1dd0: 0x0040,",
   "\t0x1dd5: 0x0040,",
   "\t// Block 0x78, offset 0x1e00",
   "\t0x1e00: 0x0001, 0x1e01: 0x0001, 0x1e02: 0x0001, 0x1e03: 0x0001, 0x1e04: 0x0001, 0x1e05: 0x0001,",
   "\t0x1e06: 0x0001, 0x1e07: 0x0001, 0x1e08: 0x0001, 0x1e09: 0x0001, 0x1e0a: 0x0001, 0x1e0b: 0x0001,",
   "\t0x1e0c: 0x0001, 0x1e0d: 0x0001, 0x1e0e: 0x0001, 0x1e0f: 0x0001, 0x1e10: 0x0001, 0x1e11: 0x0001,",
   "\t0x1e12: 0x0001, 0x1e13: 0x0001, 0x1e14: 0x0001, 0x1e15: 0x0001, 0x1e16: 0x0001, 0x1e17: 0x0001,",
   "\t0x1e18: 0x0001, 0x1e19: 0x0001, 0x1e1a: 0x0001, 0x1e1b: 0x0001, 0x1e1c: 0x0001, 0x1e1d: 0x0001,",
   "\t0x1e1e: 0x0001, 0x1e1f: 0x0001, 0x1e20: 0x0001, 0x1e21: 0x0001, 0x1e22: 0x0001, 0x1e23: 0x0001,",
   "\t0x1e24: 0x0001,",
   "\t0x1e2b: 0x0001, 0x1e2c: 0x0001, 0x1e2d: 0x0001, 0x1e2e: 0x0001, 0x1e2f: 0x0010,",
   "\t0x1e30: 0x0010, 0x1e31: 0x0010, 0x1e32: 0x0001, 0x1e33: 0x0001,",
   "\t// Block 0x79, offset 0x1e40",
   "\t0x1e40: 0x0001, 0x1e41: 0x0001, 0x1e42: 0x0001, 0x1e43: 0x0001, 0x1e44: 0x0001, 0x1e45: 0x0001,",
   "\t0x1e46: 0x0001, 0x1e47: 0x0001, 0x1e48: 0x0001, 0x1e49: 0x0001, 0x1e4a: 0x0001, 0x1e4b: 0x0001,",
   "\t0x1e4c: 0x0001, 0x1e4d: 0x0001, 0x1e4e: 0x0001, 0x1e4f: 0x0001, 0x1e50: 0x0001, 0x1e51: 0x0001,",
   "\t0x1e52: 0x0001, 0x1e53: 0x0001, 0x1e54: 0x0001, 0x1e55: 0x0001, 0x1e56: 0x0001, 0x1e57: 0x0001,",
   "\t0x1e58: 0x0001, 0x1e59: 0x0001, 0x1e5a: 0x0001, 0x1e5b: 0x0001, 0x1e5c: 0x0001, 0x1e5d: 0x0001,",
   "\t0x1e5e: 0x0001, 0x1e5f: 0x0001, 0x1e60: 0x0001, 0x1e61: 0x0001, 0x1e62: 0x0001, 0x1e63: 0x0001,",
   "\t0x1e64: 0x0001, 0x1e65: 0x0001, 0x1e67: 0x0001,",
   "\t0x1e6d: 0x0001,",
   "\t0x1e70: 0x0001, 0x1e71: 0x0001, 0x1e72: 0x0001, 0x1e73: 0x0001, 0x1e74: 0x0001, 0x1e75: 0x0001,",
   "\t0x1e76: 0x0001, 0x1e77: 0x0001, 0x1e78: 0x0001, 0x1e79: 0x0001, 0x1e7a: 0x0001, 0x1e7b: 0x0001,",
   "\t0x1e7c: 0x0001, 0x1e7d: 0x0001, 0x1e7e: 0x0001, 0x1e7f: 0x0001,",
   "\t// Block 0x7a, offset 0x1e80",
   "\t0x1e80: 0x0001, 0x1e81: 0x0001, 0x1e82: 0x0001, 0x1e83: 0x0001, 0x1e84: 0x0001, 0x1e85: 0x0001,",
   "\t0x1e86: 0x0001, 0x1e87: 0x0001, 0x1e88: 0x0001, 0x1e89: 0x0001, 0x1e8a: 0x0001, 0x1e8b: 0x0001,",
   "\t0x1e8c: 0x0001, 0x1e8d: 0x0001, 0x1e8e: 0x0001, 0x1e8f: 0x0001, 0x1e90: 0x0001, 0x1e91: 0x0001,",
   "\t0x1e92: 0x0001, 0x1e93: 0x0001, 0x1e94: 0x0001, 0x1e95: 0x0001, 0x1e96: 0x0001, 0x1e97: 0x0001,",
   "\t0x1e98: 0x0001, 0x1e99: 0x0001, 0x1e9a: 0x0001, 0x1e9b: 0x0001, 0x1e9c: 0x0001, 0x1e9d: 0x0001,",
   "\t0x1e9e: 0x0001, 0x1e9f: 0x0001, 0x1ea0: 0x0001, 0x1ea1: 0x0001, 0x1ea2: 0x0001, 0x1ea3: 0x0001,",
   "\t0x1ea4: 0x0001, 0x1ea5: 0x0001, 0x1ea6: 0x0001, 0x1ea7: 0x0001,",
   "\t0x1eaf: 0x0001,",
   "\t0x1ebf: 0x0010,",
   "\t// Block 0x7b, offset 0x1ec0",
   "\t0x1ec0: 0x0001, 0x1ec1: 0x0001, 0x1ec2: 0x0001, 0x1ec3: 0x0001, 0x1ec4: 0x0001, 0x1ec5: 0x0001,",
   "\t0x1ec6: 0x0001, 0x1ec7: 0x0001, 0x1ec8: 0x0001, 0x1ec9: 0x0001, 0x1eca: 0x0001, 0x1ecb: 0x0001,",
   "\t0x1ecc: 0x0001, 0x1ecd: 0x0001, 0x1ece: 0x0001, 0x1ecf: 0x0001, 0x1ed0: 0x0001, 0x1ed1: 0x0001,",
   "\t0x1ed2: 0x0001, 0x1ed3: 0x0001, 0x1ed4: 0x0001, 0x1ed5: 0x0001, 0x1ed6: 0x0001,",
   "\t0x1ee0: 0x0001, 0x1ee1: 0x0001, 0x1ee2: 0x0001, 0x1ee3: 0x0001,",
   "\t0x1ee4: 0x0001, 0x1ee5: 0x0001, 0x1ee6: 0x0001, 0x1ee8: 0x0001, 0x1ee9: 0x0001,",
   "\t0x1eea: 0x0001, 0x1eeb: 0x0001, 0x1eec: 0x0001, 0x1eed: 0x0001, 0x1eee: 0x0001,",
   "\t0x1ef0: 0x0001, 0x1ef1: 0x0001, 0x1ef2: 0x0001, 0x1ef3: 0x0001, 0x1ef4: 0x0001, 0x1ef5: 0x0001,",
   "\t0x1ef6: 0x0001, 0x1ef8: 0x0001, 0x1ef9: 0x0001, 0x1efa: 0x0001, 0x1efb: 0x0001,",
   "\t0x1efc: 0x0001, 0x1efd: 0x0001, 0x1efe: 0x0001,",
   "\t// Block 0x7c, offset 0x1f00",
   "\t0x1f00: 0x0001, 0x1f01: 0x0001, 0x1f02: 0x0001, 0x1f03: 0x0001, 0x1f04: 0x0001, 0x1f05: 0x0001,",
   "\t0x1f06: 0x0001, 0x1f08: 0x0001, 0x1f09: 0x0001, 0x1f0a: 0x0001, 0x1f0b: 0x0001,",
   "\t0x1f0c: 0x0001, 0x1f0d: 0x0001, 0x1f0e: 0x0001, 0x1f10: 0x0001, 0x1f11: 0x0001,",
   "\t0x1f12: 0x0001, 0x1f13: 0x0001, 0x1f14: 0x0001, 0x1f15: 0x0001, 0x1f16: 0x0001,",
   "\t0x1f18: 0x0001, 0x1f19: 0x0001, 0x1f1a: 0x0001, 0x1f1b: 0x0001, 0x1f1c: 0x0001, 0x1f1d: 0x0001,",
   "\t0x1f1e: 0x0001, 0x1f20: 0x0010, 0x1f21: 0x0010, 0x1f22: 0x0010, 0x1f23: 0x0010,",
   "\t0x1f24: 0x0010, 0x1f25: 0x0010, 0x1f26: 0x0010, 0x1f27: 0x0010, 0x1f28: 0x0010, 0x1f29: 0x0010,",
   "\t0x1f2a: 0x0010, 0x1f2b: 0x0010, 0x1f2c: 0x0010, 0x1f2d: 0x0010, 0x1f2e: 0x0010, 0x1f2f: 0x0010,",
   "\t0x1f30: 0x0010, 0x1f31: 0x0010, 0x1f32: 0x0010, 0x1f33: 0x0010, 0x1f34: 0x0010, 0x1f35: 0x0010,",
   "\t0x1f36: 0x0010, 0x1f37: 0x0010, 0x1f38: 0x0010, 0x1f39: 0x0010, 0x1f3a: 0x0010, 0x1f3b: 0x0010,",
   "\t0x1f3c: 0x0010, 0x1f3d: 0x0010, 0x1f3e: 0x0010, 0x1f3f: 0x0010,",
   "\t// Block 0x7d, offset 0x1f40",
   "\t0x1f6f: 0x0001,",
   "\t// Block 0x7e, offset 0x1f80",
   "\t0x1f80: 0x0002, 0x1f81: 0x0002, 0x1f82: 0x0002, 0x1f83: 0x0002, 0x1f84: 0x0002, 0x1f85: 0x0002,",
   "\t0x1f86: 0x0002, 0x1f87: 0x0002, 0x1f88: 0x0002, 0x1f89: 0x0002, 0x1f8a: 0x0002, 0x1f8b: 0x0002,",
   "\t0x1f8c: 0x0002, 0x1f8d: 0x0002, 0x1f8e: 0x0002, 0x1f8f: 0x0002, 0x1f90: 0x0002, 0x1f91: 0x0002,",
   "\t0x1f92: 0x0002, 0x1f93: 0x0002, 0x1f94: 0x0002, 0x1f95: 0x0002, 0x1f96: 0x0002, 0x1f97: 0x0002,",
   "\t0x1f98: 0x0002, 0x1f99: 0x0002, 0x1f9b: 0x0002, 0x1f9c: 0x0002, 0x1f9d: 0x0002,",
   "\t0x1f9e: 0x0002, 0x1f9f: 0x0002, 0x1fa0: 0x0002, 0x1fa1: 0x0002, 0x1fa2: 0x0002, 0x1fa3: 0x0002,",
   "\t0x1fa4: 0x0002, 0x1fa5: 0x0002, 0x1fa6: 0x0002, 0x1fa7: 0x0002, 0x1fa8: 0x0002, 0x1fa9: 0x0002,",
   "\t0x1faa: 0x0002, 0x1fab: 0x0002, 0x1fac: 0x0002, 0x1fad: 0x0002, 0x1fae: 0x0002, 0x1faf: 0x0002,",
   "\t0x1fb0: 0x0002, 0x1fb1: 0x0002, 0x1fb2: 0x0002, 0x1fb3: 0x0002, 0x1fb4: 0x0002, 0x1fb5: 0x0002,",
   "\t0x1fb6: 0x0002, 0x1fb7: 0x0002, 0x1fb8: 0x0002, 0x1fb9: 0x0002, 0x1fba: 0x0002, 0x1fbb: 0x0002,",
   "\t0x1fbc: 0x0002, 0x1fbd: 0x0002, 0x1fbe: 0x0002, 0x1fbf: 0x0002,",
   "\t// Block 0x7f, offset 0x1fc0",
   "\t0x1fc0: 0x0002, 0x1fc1: 0x0002, 0x1fc2: 0x0002, 0x1fc3: 0x0002, 0x1fc4: 0x0002, 0x1fc5: 0x0002,",
   "\t0x1fc6: 0x0002, 0x1fc7: 0x0002, 0x1fc8: 0x0002, 0x1fc9: 0x0002, 0x1fca: 0x0002, 0x1fcb: 0x0002,",
   "\t0x1fcc: 0x0002, 0x1fcd: 0x0002, 0x1fce: 0x0002, 0x1fcf: 0x0002, 0x1fd0: 0x0002, 0x1fd1: 0x0002,",
   "\t0x1fd2: 0x0002, 0x1fd3: 0x0002, 0x1fd4: 0x0002, 0x1fd5: 0x0002, 0x1fd6: 0x0002, 0x1fd7: 0x0002,",
   "\t0x1fd8: 0x0002, 0x1fd9: 0x0002, 0x1fda: 0x0002, 0x1fdb: 0x0002, 0x1fdc: 0x0002, 0x1fdd: 0x0002,",
   "\t0x1fde: 0x0002, 0x1fdf: 0x0002, 0x1fe0: 0x0002, 0x1fe1: 0x0002, 0x1fe2: 0x0002, 0x1fe3: 0x0002,",
   "\t0x1fe4: 0x0002, 0x1fe5: 0x0002, 0x1fe6: 0x0002, 0x1fe7: 0x0002, 0x1fe8: 0x0002, 0x1fe9: 0x0002,",
   "\t0x1fea: 0x0002, 0x1feb: 0x0002, 0x1fec: 0x0002, 0x1fed: 0x0002, 0x1fee: 0x0002, 0x1fef: 0x0002,",
   "\t0x1ff0: 0x0002, 0x1ff1: 0x0002, 0x1ff2: 0x0002, 0x1ff3: 0x0002,"]
theorem v7_eq : v7 = (layout 6 4 112 ((Table.Values.blocks.drop 112).take 16)).map String.ofList := by
  kernel_rfl
/-- words/trie.go:1321-1461, `wordsValues` from block 0x80 on. -/
def v8 : List String :=
  ["\t// Block 0x80, offset 0x2000",
   "\t0x2000: 0x0002, 0x2001: 0x0002, 0x2002: 0x0002, 0x2003: 0x0002, 0x2004: 0x0002, 0x2005: 0x0002,",
   "\t0x2006: 0x0002, 0x2007: 0x0002, 0x2008: 0x0002, 0x2009: 0x0002, 0x200a: 0x0002, 0x200b: 0x0002,",
   "\t0x200c: 0x0002, 0x200d: 0x0002, 0x200e: 0x0002, 0x200f: 0x0002, 0x2010: 0x0002, 0x2011: 0x0002,",
   "\t0x2012: 0x0002, 0x2013: 0x0002, 0x2014: 0x0002, 0x2015: 0x0002, 0x2016: 0x0002, 0x2017: 0x0002,",
   "\t0x2018: 0x0002, 0x2019: 0x0002, 0x201a: 0x0002, 0x201b: 0x0002, 0x201c: 0x0002, 0x201d: 0x0002,",
   "\t0x201e: 0x0002, 0x201f: 0x0002, 0x2020: 0x0002, 0x2021: 0x0002, 0x2022: 0x0002, 0x2023: 0x0002,",
   "\t0x2024: 0x0002, 0x2025: 0x0002, 0x2026: 0x0002, 0x2027: 0x0002, 0x2028: 0x0002, 0x2029: 0x0002,",
   "\t0x202a: 0x0002, 0x202b: 0x0002, 0x202c: 0x0002, 0x202d: 0x0002, 0x202e: 0x0002, 0x202f: 0x0002,",
   "\t0x2030: 0x0002, 0x2031: 0x0002, 0x2032: 0x0002, 0x2033: 0x0002, 0x2034: 0x0002, 0x2035: 0x0002,",
   "\t0x2036: 0x0002, 0x2037: 0x0002, 0x2038: 0x0002, 0x2039: 0x0002, 0x203a: 0x0002, 0x203b: 0x0002,",
   "\t0x203c: 0x0002, 0x203d: 0x0002, 0x203e: 0x0002, 0x203f: 0x0002,",
   "\t// Block 0x81, offset 0x2040",
   "\t0x2040: 0x0002, 0x2041: 0x0002, 0x2042: 0x0002, 0x2043: 0x0002, 0x2044: 0x0002, 0x2045: 0x0002,",
   "\t0x2046: 0x0002, 0x2047: 0x0002, 0x2048: 0x0002, 0x2049: 0x0002, 0x204a: 0x0002, 0x204b: 0x0002,",
   "\t0x204c: 0x0002, 0x204d: 0x0002, 0x204e: 0x0002, 0x204f: 0x0002, 0x2050: 0x0002, 0x2051: 0x0002,",
   "\t0x2052: 0x0002, 0x2053: 0x0002, 0x2054: 0x0002, 0x2055: 0x0002,",
   "\t// Block 0x82, offset 0x2080",
   "\t0x2080: 0x40000, 0x2085: 0x0003,",
   "\t0x2087: 0x0002,",
   "\t0x20a1: 0x0002, 0x20a2: 0x0002, 0x20a3: 0x0002,",
   "\t0x20a4: 0x0002, 0x20a5: 0x0002, 0x20a6: 0x0002, 0x20a7: 0x0002, 0x20a8: 0x0002, 0x20a9: 0x0002,",
   "\t0x20aa: 0x0010, 0x20ab: 0x0010, 0x20ac: 0x0010, 0x20ad: 0x0010, 0x20ae: 0x0010, 0x20af: 0x0010,",
   "\t0x20b0: 0x0040, 0x20b1: 0x0202, 0x20b2: 0x0202, 0x20b3: 0x0202, 0x20b4: 0x0202, 0x20b5: 0x0202,",
   "\t0x20b8: 0x0002, 0x20b9: 0x0002, 0x20ba: 0x0002, 0x20bb: 0x0003,",
   "\t0x20bc: 0x0001, 0x20bd: 0x0040,",
   "\t// Block 0x83, offset 0x20c0",
   "\t0x20c1: 0x0002, 0x20c2: 0x0002, 0x20c3: 0x0002, 0x20c4: 0x0002, 0x20c5: 0x0002,",
   "\t0x20c6: 0x0002, 0x20c7: 0x0002, 0x20c8: 0x0002, 0x20c9: 0x0002, 0x20ca: 0x0002, 0x20cb: 0x0002,",
   "\t0x20cc: 0x0002, 0x20cd: 0x0002, 0x20ce: 0x0002, 0x20cf: 0x0002, 0x20d0: 0x0002, 0x20d1: 0x0002,",
   "\t0x20d2: 0x0002, 0x20d3: 0x0002, 0x20d4: 0x0002, 0x20d5: 0x0002, 0x20d6: 0x0002, 0x20d7: 0x0002,",
   "\t0x20d8: 0x0002, 0x20d9: 0x0002, 0x20da: 0x0002, 0x20db: 0x0002, 0x20dc: 0x0002, 0x20dd: 0x0002,",
   "\t0x20de: 0x0002, 0x20df: 0x0002, 0x20e0: 0x0002, 0x20e1: 0x0002, 0x20e2: 0x0002, 0x20e3: 0x0002,",
   "\t0x20e4: 0x0002, 0x20e5: 0x0002, 0x20e6: 0x0002, 0x20e7: 0x0002, 0x20e8: 0x0002, 0x20e9: 0x0002,",
   "\t0x20ea: 0x0002, 0x20eb: 0x0002, 0x20ec: 0x0002, 0x20ed: 0x0002, 0x20ee: 0x0002, 0x20ef: 0x0002,",
   "\t0x20f0: 0x0002, 0x20f1: 0x0002, 0x20f2: 0x0002, 0x20f3: 0x0002, 0x20f4: 0x0002, 0x20f5: 0x0002,",
   "\t0x20f6: 0x0002, 0x20f7: 0x0002, 0x20f8: 0x0002, 0x20f9: 0x0002, 0x20fa: 0x0002, 0x20fb: 0x0002,",
   "\t0x20fc: 0x0002, 0x20fd: 0x0002, 0x20fe: 0x0002, 0x20ff: 0x0002,",
   "\t// Block 0x84, offset 0x2100",
   "\t0x2100: 0x0002, 0x2101: 0x0002, 0x2102: 0x0002, 0x2103: 0x0002, 0x2104: 0x0002, 0x2105: 0x0002,",
   "\t0x2106: 0x0002, 0x2107: 0x0002, 0x2108: 0x0002, 0x2109: 0x0002, 0x210a: 0x0002, 0x210b: 0x0002,",
   "\t0x210c: 0x0002, 0x210d: 0x0002, 0x210e: 0x0002, 0x210f: 0x0002, 0x2110: 0x0002, 0x2111: 0x0002,",
   "\t0x2112: 0x0002, 0x2113: 0x0002, 0x2114: 0x0002, 0x2115: 0x0002, 0x2116: 0x0002,",
   "\t0x2119: 0x0010, 0x211a: 0x0010, 0x211b: 0x0202, 0x211c: 0x0202, 0x211d: 0x0002,",
   "\t0x211e: 0x0002, 0x211f: 0x0002, 0x2120: 0x0202, 0x2121: 0x0202, 0x2122: 0x0202, 0x2123: 0x0202,",
   "\t0x2124: 0x0202, 0x2125: 0x0202, 0x2126: 0x0202, 0x2127: 0x0202, 0x2128: 0x0202, 0x2129: 0x0202,",
   "\t0x212a: 0x0202, 0x212b: 0x0202, 0x212c: 0x0202, 0x212d: 0x0202, 0x212e: 0x0202, 0x212f: 0x0202,",
   "\t0x2130: 0x0202, 0x2131: 0x0202, 0x2132: 0x0202, 0x2133: 0x0202, 0x2134: 0x0202, 0x2135: 0x0202,",
   "\t0x2136: 0x0202, 0x2137: 0x0202, 0x2138: 0x0202, 0x2139: 0x0202, 0x213a: 0x0202, 0x213b: 0x0202,",
   "\t0x213c: 0x0202, 0x213d: 0x0202, 0x213e: 0x0202, 0x213f: 0x0202,",
   "\t// Block 0x85, offset 0x2140",
   "\t0x2140: 0x0202, 0x2141: 0x0202, 0x2142: 0x0202, 0x2143: 0x0202, 0x2144: 0x0202, 0x2145: 0x0202,",
   "\t0x2146: 0x0202, 0x2147: 0x0202, 0x2148: 0x0202, 0x2149: 0x0202, 0x214a: 0x0202, 0x214b: 0x0202,",
   "\t0x214c: 0x0202, 0x214d: 0x0202, 0x214e: 0x0202, 0x214f: 0x0202, 0x2150: 0x0202, 0x2151: 0x0202,",
   "\t0x2152: 0x0202, 0x2153: 0x0202, 0x2154: 0x0202, 0x2155: 0x0202, 0x2156: 0x0202, 0x2157: 0x0202,",
   "\t0x2158: 0x0202, 0x2159: 0x0202, 0x215a: 0x0202, 0x215b: 0x0202, 0x215c: 0x0202, 0x215d: 0x0202,",
   "\t0x215e: 0x0202, 0x215f: 0x0202, 0x2160: 0x0202, 0x2161: 0x0202, 0x2162: 0x0202, 0x2163: 0x0202,",
   "\t0x2164: 0x0202, 0x2165: 0x0202, 0x2166: 0x0202, 0x2167: 0x0202, 0x2168: 0x0202, 0x2169: 0x0202,",
   "\t0x216a: 0x0202, 0x216b: 0x0202, 0x216c: 0x0202, 0x216d: 0x0202, 0x216e: 0x0202, 0x216f: 0x0202,",
   "\t0x2170: 0x0202, 0x2171: 0x0202, 0x2172: 0x0202, 0x2173: 0x0202, 0x2174: 0x0202, 0x2175: 0x0202,",
   "\t0x2176: 0x0202, 0x2177: 0x0202, 0x2178: 0x0202, 0x2179: 0x0202, 0x217a: 0x0202,",
   "\t0x217c: 0x0202, 0x217d: 0x0202, 0x217e: 0x0202, 0x217f: 0x0202,",
   "\t// Block 0x86, offset 0x2180",
   "\t0x2185: 0x0001,",
   "\t0x2186: 0x0001, 0x2187: 0x0001, 0x2188: 0x0001, 0x2189: 0x0001, 0x218a: 0x0001, 0x218b: 0x0001,",
   "\t0x218c: 0x0001, 0x218d: 0x0001, 0x218e: 0x0001, 0x218f: 0x0001, 0x2190: 0x0001, 0x2191: 0x0001,",
   "\t0x2192: 0x0001, 0x2193: 0x0001, 0x2194: 0x0001, 0x2195: 0x0001, 0x2196: 0x0001, 0x2197: 0x0001,",
   "\t0x2198: 0x0001, 0x2199: 0x0001, 0x219a: 0x0001, 0x219b: 0x0001, 0x219c: 0x0001, 0x219d: 0x0001,",
   "\t0x219e: 0x0001, 0x219f: 0x0001, 0x21a0: 0x0001, 0x21a1: 0x0001, 0x21a2: 0x0001, 0x21a3: 0x0001,",
   "\t0x21a4: 0x0001, 0x21a5: 0x0001, 0x21a6: 0x0001, 0x21a7: 0x0001, 0x21a8: 0x0001, 0x21a9: 0x0001,",
   "\t0x21aa: 0x0001, 0x21ab: 0x0001, 0x21ac: 0x0001, 0x21ad: 0x0001, 0x21ae: 0x0001, 0x21af: 0x0001,",
   "\t0x21b1: 0x0001, 0x21b2: 0x0001, 0x21b3: 0x0001, 0x21b4: 0x0001, 0x21b5: 0x0001,",
   "\t0x21b6: 0x0001, 0x21b7: 0x0001, 0x21b8: 0x0001, 0x21b9: 0x0001, 0x21ba: 0x0001, 0x21bb: 0x0001,",
   "\t0x21bc: 0x0001, 0x21bd: 0x0001, 0x21be: 0x0001, 0x21bf: 0x0001,",
   "\t// Block 0x87, offset 0x21c0",
   "\t0x21c0: 0x0001, 0x21c1: 0x0001, 0x21c2: 0x0001, 0x21c3: 0x0001, 0x21c4: 0x0001, 0x21c5: 0x0001,",
   "\t0x21c6: 0x0001, 0x21c7: 0x0001, 0x21c8: 0x0001, 0x21c9: 0x0001, 0x21ca: 0x0001, 0x21cb: 0x0001,",
   "\t0x21cc: 0x0001, 0x21cd: 0x0001, 0x21ce: 0x0001,",
   "\t0x21e0: 0x0001, 0x21e1: 0x0001, 0x21e2: 0x0001, 0x21e3: 0x0001,",
   "\t0x21e4: 0x0001, 0x21e5: 0x0001, 0x21e6: 0x0001, 0x21e7: 0x0001, 0x21e8: 0x0001, 0x21e9: 0x0001,",
   "\t0x21ea: 0x0001, 0x21eb: 0x0001, 0x21ec: 0x0001, 0x21ed: 0x0001, 0x21ee: 0x0001, 0x21ef: 0x0001,",
   "\t0x21f0: 0x0001, 0x21f1: 0x0001, 0x21f2: 0x0001, 0x21f3: 0x0001, 0x21f4: 0x0001, 0x21f5: 0x0001,",
   "\t0x21f6: 0x0001, 0x21f7: 0x0001, 0x21f8: 0x0001, 0x21f9: 0x0001, 0x21fa: 0x0001, 0x21fb: 0x0001,",
   "\t0x21fc: 0x0001, 0x21fd: 0x0001, 0x21fe: 0x0001, 0x21ff: 0x0001,",
   "\t// Block 0x88, offset 0x2200",
   "\t0x2230: 0x0202, 0x2231: 0x0202, 0x2232: 0x0202, 0x2233: 0x0202, 0x2234: 0x0202, 0x2235: 0x0202,",
   "\t0x2236: 0x0202, 0x2237: 0x0202, 0x2238: 0x0202, 0x2239: 0x0202, 0x223a: 0x0202, 0x223b: 0x0202,",
   "\t0x223c: 0x0202, 0x223d: 0x0202, 0x223e: 0x0202, 0x223f: 0x0202,",
   "\t// Block 0x89, offset 0x2240",
   "\t0x2257: 0x0040,",
   "\t0x2259: 0x0040,",
   "\t// Block 0x8a, offset 0x2280",
   "\t0x2290: 0x0202, 0x2291: 0x0202,",
   "\t0x2292: 0x0202, 0x2293: 0x0202, 0x2294: 0x0202, 0x2295: 0x0202, 0x2296: 0x0202, 0x2297: 0x0202,",
   "\t0x2298: 0x0202, 0x2299: 0x0202, 0x229a: 0x0202, 0x229b: 0x0202, 0x229c: 0x0202, 0x229d: 0x0202,",
   "\t0x229e: 0x0202, 0x229f: 0x0202, 0x22a0: 0x0202, 0x22a1: 0x0202, 0x22a2: 0x0202, 0x22a3: 0x0202,",
   "\t0x22a4: 0x0202, 0x22a5: 0x0202, 0x22a6: 0x0202, 0x22a7: 0x0202, 0x22a8: 0x0202, 0x22a9: 0x0202,",
   "\t0x22aa: 0x0202, 0x22ab: 0x0202, 0x22ac: 0x0202, 0x22ad: 0x0202, 0x22ae: 0x0202, 0x22af: 0x0202,",
   "\t0x22b0: 0x0202, 0x22b1: 0x0202, 0x22b2: 0x0202, 0x22b3: 0x0202, 0x22b4: 0x0202, 0x22b5: 0x0202,",
   "\t0x22b6: 0x0202, 0x22b7: 0x0202, 0x22b8: 0x0202, 0x22b9: 0x0202, 0x22ba: 0x0202, 0x22bb: 0x0202,",
   "\t0x22bc: 0x0202, 0x22bd: 0x0202, 0x22be: 0x0202,",
   "\t// Block 0x8b, offset 0x22c0",
   "\t0x22c0: 0x0202, 0x22c1: 0x0202, 0x22c2: 0x0202, 0x22c3: 0x0202, 0x22c4: 0x0202, 0x22c5: 0x0202,",
   "\t0x22c6: 0x0202, 0x22c7: 0x0202, 0x22c8: 0x0202, 0x22c9: 0x0202, 0x22ca: 0x0202, 0x22cb: 0x0202,",
   "\t0x22cc: 0x0202, 0x22cd: 0x0202, 0x22ce: 0x0202, 0x22cf: 0x0202, 0x22d0: 0x0202, 0x22d1: 0x0202,",
   "\t0x22d2: 0x0202, 0x22d3: 0x0202, 0x22d4: 0x0202, 0x22d5: 0x0202, 0x22d6: 0x0202, 0x22d7: 0x0202,",
   "\t0x22d8: 0x0202, 0x22d9: 0x0202, 0x22da: 0x0202, 0x22db: 0x0202, 0x22dc: 0x0202, 0x22dd: 0x0202,",
   "\t0x22de: 0x0202, 0x22df: 0x0202, 0x22e0: 0x0202, 0x22e1: 0x0202, 0x22e2: 0x0202, 0x22e3: 0x0202,",
   "\t0x22e4: 0x0202, 0x22e5: 0x0202, 0x22e6: 0x0202, 0x22e7: 0x0202, 0x22e8: 0x0202, 0x22e9: 0x0202,",
   "\t0x22ea: 0x0202, 0x22eb: 0x0202, 0x22ec: 0x0202, 0x22ed: 0x0202, 0x22ee: 0x0202, 0x22ef: 0x0202,",
   "\t0x22f0: 0x0202, 0x22f1: 0x0202, 0x22f2: 0x0202, 0x22f3: 0x0202, 0x22f4: 0x0202, 0x22f5: 0x0202,",
   "\t0x22f6: 0x0202, 0x22f7: 0x0202, 0x22f8: 0x0202, 0x22f9: 0x0202, 0x22fa: 0x0202, 0x22fb: 0x0202,",
   "\t0x22fc: 0x0202, 0x22fd: 0x0202, 0x22fe: 0x0202, 0x22ff: 0x0202,",
   "\t// Block 0x8c, offset 0x2300",
   "\t0x2300: 0x0202, 0x2301: 0x0202, 0x2302: 0x0202, 0x2303: 0x0202, 0x2304: 0x0202, 0x2305: 0x0202,",
   "\t0x2306: 0x0202, 0x2307: 0x0202, 0x2308: 0x0202, 0x2309: 0x0202, 0x230a: 0x0202, 0x230b: 0x0202,",
   "\t0x230c: 0x0202, 0x230d: 0x0202, 0x230e: 0x0202, 0x230f: 0x0202, 0x2310: 0x0202, 0x2311: 0x0202,",
   "\t0x2312: 0x0202, 0x2313: 0x0202, 0x2314: 0x0202, 0x2315: 0x0202, 0x2316: 0x0202, 0x2317: 0x0202,",
   "\t// Block 0x8d, offset 0x2340",
   "\t0x2340: 0x0001, 0x2341: 0x0001, 0x2342: 0x0001, 0x2343: 0x0001, 0x2344: 0x0001, 0x2345: 0x0001,",
   "\t0x2346: 0x0001, 0x2347: 0x0001, 0x2348: 0x0001, 0x2349: 0x0001, 0x234a: 0x0001, 0x234b: 0x0001,",
   "\t0x234c: 0x0001,",
   "\t// Block 0x8e, offset 0x2380",
   "\t0x2390: 0x0001, 0x2391: 0x0001,",
   "\t0x2392: 0x0001, 0x2393: 0x0001, 0x2394: 0x0001, 0x2395: 0x0001, 0x2396: 0x0001, 0x2397: 0x0001,",
   "\t0x2398: 0x0001, 0x2399: 0x0001, 0x239a: 0x0001, 0x239b: 0x0001, 0x239c: 0x0001, 0x239d: 0x0001,",
   "\t0x239e: 0x0001, 0x239f: 0x0001, 0x23a0: 0x0001, 0x23a1: 0x0001, 0x23a2: 0x0001, 0x23a3: 0x0001,",
   "\t0x23a4: 0x0001, 0x23a5: 0x0001, 0x23a6: 0x0001, 0x23a7: 0x0001, 0x23a8: 0x0001, 0x23a9: 0x0001,",
   "\t0x23aa: 0x0001, 0x23ab: 0x0001, 0x23ac: 0x0001, 0x23ad: 0x0001, 0x23ae: 0x0001, 0x23af: 0x0001,",
   "\t0x23b0: 0x0001, 0x23b1: 0x0001, 0x23b2: 0x0001, 0x23b3: 0x0001, 0x23b4: 0x0001, 0x23b5: 0x0001,",
   "\t0x23b6: 0x0001, 0x23b7: 0x0001, 0x23b8: 0x0001, 0x23b9: 0x0001, 0x23ba: 0x0001, 0x23bb: 0x0001,",
   "\t0x23bc: 0x0001, 0x23bd: 0x0001,",
   "\t// Block 0x8f, offset 0x23c0",
   "\t0x23c0: 0x0001, 0x23c1: 0x0001, 0x23c2: 0x0001, 0x23c3: 0x0001, 0x23c4: 0x0001, 0x23c5: 0x0001,",
   "\t0x23c6: 0x0001, 0x23c7: 0x0001, 0x23c8: 0x0001, 0x23c9: 0x0001, 0x23ca: 0x0001, 0x23cb: 0x0001,",
   "\t0x23cc: 0x0001, 0x23d0: 0x0001, 0x23d1: 0x0001,",
   "\t0x23d2: 0x0001, 0x23d3: 0x0001, 0x23d4: 0x0001, 0x23d5: 0x0001, 0x23d6: 0x0001, 0x23d7: 0x0001,",
   "\t0x23d8: 0x0001, 0x23d9: 0x0001, 0x23da: 0x0001, 0x23db: 0x0001, 0x23dc: 0x0001, 0x23dd: 0x0001,",
   "\t0x23de: 0x0001, 0x23df: 0x0001, 0x23e0: 0x8000, 0x23e1: 0x8000, 0x23e2: 0x8000, 0x23e3: 0x8000,",
   "\t0x23e4: 0x8000, 0x23e5: 0x8000, 0x23e6: 0x8000, 0x23e7: 0x8000, 0x23e8: 0x8000, 0x23e9: 0x8000,",
   "\t0x23ea: 0x0001, 0x23eb: 0x0001,"]
theorem v8_eq : v8 = (layout 6 4 128 ((Table.Values.blocks.drop 128).take 16)).map String.ofList := by
  kernel_rfl
/-- words/trie.go:1462-1623, `wordsValues` from block 0x90 on. -/
def v9 : List String :=
  ["\t// Block 0x90, offset 0x2400",
   "\t0x2400: 0x0001, 0x2401: 0x0001, 0x2402: 0x0001, 0x2403: 0x0001, 0x2404: 0x0001, 0x2405: 0x0001,",
   "\t0x2406: 0x0001, 0x2407: 0x0001, 0x2408: 0x0001, 0x2409: 0x0001, 0x240a: 0x0001, 0x240b: 0x0001,",
   "\t0x240c: 0x0001, 0x240d: 0x0001, 0x240e: 0x0001, 0x240f: 0x0001, 0x2410: 0x0001, 0x2411: 0x0001,",
   "\t0x2412: 0x0001, 0x2413: 0x0001, 0x2414: 0x0001, 0x2415: 0x0001, 0x2416: 0x0001, 0x2417: 0x0001,",
   "\t0x2418: 0x0001, 0x2419: 0x0001, 0x241a: 0x0001, 0x241b: 0x0001, 0x241c: 0x0001, 0x241d: 0x0001,",
   "\t0x241e: 0x0001, 0x241f: 0x0001, 0x2420: 0x0001, 0x2421: 0x0001, 0x2422: 0x0001, 0x2423: 0x0001,",
   "\t0x2424: 0x0001, 0x2425: 0x0001, 0x2426: 0x0001, 0x2427: 0x0001, 0x2428: 0x0001, 0x2429: 0x0001,",
   "\t0x242a: 0x0001, 0x242b: 0x0001, 0x242c: 0x0001, 0x242d: 0x0001, 0x242e: 0x0001, 0x242f: 0x0010,",
   "\t0x2430: 0x0010, 0x2431: 0x0010, 0x2432: 0x0010, 0x2434: 0x0010, 0x2435: 0x0010,",
   "\t0x2436: 0x0010, 0x2437: 0x0010, 0x2438: 0x0010, 0x2439: 0x0010, 0x243a: 0x0010, 0x243b: 0x0010,",
   "\t0x243c: 0x0010, 0x243d: 0x0010, 0x243f: 0x0001,",
   "\t// Block 0x91, offset 0x2440",
   "\t0x2440: 0x0001, 0x2441: 0x0001, 0x2442: 0x0001, 0x2443: 0x0001, 0x2444: 0x0001, 0x2445: 0x0001,",
   "\t0x2446: 0x0001, 0x2447: 0x0001, 0x2448: 0x0001, 0x2449: 0x0001, 0x244a: 0x0001, 0x244b: 0x0001,",
   "\t0x244c: 0x0001, 0x244d: 0x0001, 0x244e: 0x0001, 0x244f: 0x0001, 0x2450: 0x0001, 0x2451: 0x0001,",
   "\t0x2452: 0x0001, 0x2453: 0x0001, 0x2454: 0x0001, 0x2455: 0x0001, 0x2456: 0x0001, 0x2457: 0x0001,",
   "\t0x2458: 0x0001, 0x2459: 0x0001, 0x245a: 0x0001, 0x245b: 0x0001, 0x245c: 0x0001, 0x245d: 0x0001,",
   "\t0x245e: 0x0010, 0x245f: 0x0010, 0x2460: 0x0001, 0x2461: 0x0001, 0x2462: 0x0001, 0x2463: 0x0001,",
   "\t0x2464: 0x0001, 0x2465: 0x0001, 0x2466: 0x0001, 0x2467: 0x0001, 0x2468: 0x0001, 0x2469: 0x0001,",
   "\t0x246a: 0x0001, 0x246b: 0x0001, 0x246c: 0x0001, 0x246d: 0x0001, 0x246e: 0x0001, 0x246f: 0x0001,",
   "\t0x2470: 0x0001, 0x2471: 0x0001, 0x2472: 0x0001, 0x2473: 0x0001, 0x2474: 0x0001, 0x2475: 0x0001,",
   "\t0x2476: 0x0001, 0x2477: 0x0001, 0x2478: 0x0001, 0x2479: 0x0001, 0x247a: 0x0001, 0x247b: 0x0001,",
   "\t0x247c: 0x0001, 0x247d: 0x0001, 0x247e: 0x0001, 0x247f: 0x0001,",
   "\t// Block 0x92, offset 0x2480",
   "\t0x2480: 0x0001, 0x2481: 0x0001, 0x2482: 0x0001, 0x2483: 0x0001, 0x2484: 0x0001, 0x2485: 0x0001,",
   "\t0x2486: 0x0001, 0x2487: 0x0001, 0x2488: 0x0001, 0x2489: 0x0001, 0x248a: 0x0001, 0x248b: 0x0001,",
   "\t0x248c: 0x0001, 0x248d: 0x0001, 0x248e: 0x0001, 0x248f: 0x0001, 0x2490: 0x0001, 0x2491: 0x0001,",
   "\t0x2492: 0x0001, 0x2493: 0x0001, 0x2494: 0x0001, 0x2495: 0x0001, 0x2496: 0x0001, 0x2497: 0x0001,",
   "\t0x2498: 0x0001, 0x2499: 0x0001, 0x249a: 0x0001, 0x249b: 0x0001, 0x249c: 0x0001, 0x249d: 0x0001,",
   "\t0x249e: 0x0001, 0x249f: 0x0001, 0x24a0: 0x0001, 0x24a1: 0x0001, 0x24a2: 0x0001, 0x24a3: 0x0001,",
   "\t0x24a4: 0x0001, 0x24a5: 0x0001, 0x24a6: 0x0001, 0x24a7: 0x0001, 0x24a8: 0x0001, 0x24a9: 0x0001,",
   "\t0x24aa: 0x0001, 0x24ab: 0x0001, 0x24ac: 0x0001, 0x24ad: 0x0001, 0x24ae: 0x0001, 0x24af: 0x0001,",
   "\t0x24b0: 0x0010, 0x24b1: 0x0010,",
   "\t// Block 0x93, offset 0x24c0",
   "\t0x24c8: 0x0001, 0x24c9: 0x0001, 0x24ca: 0x0001, 0x24cb: 0x0001,",
   "\t0x24cc: 0x0001, 0x24cd: 0x0001, 0x24ce: 0x0001, 0x24cf: 0x0001, 0x24d0: 0x0001, 0x24d1: 0x0001,",
   "\t0x24d2: 0x0001, 0x24d3: 0x0001, 0x24d4: 0x0001, 0x24d5: 0x0001, 0x24d6: 0x0001, 0x24d7: 0x0001,",
   "\t0x24d8: 0x0001, 0x24d9: 0x0001, 0x24da: 0x0001, 0x24db: 0x0001, 0x24dc: 0x0001, 0x24dd: 0x0001,",
   "\t0x24de: 0x0001, 0x24df: 0x0001, 0x24e0: 0x0001, 0x24e1: 0x0001, 0x24e2: 0x0001, 0x24e3: 0x0001,",
   "\t0x24e4: 0x0001, 0x24e5: 0x0001, 0x24e6: 0x0001, 0x24e7: 0x0001, 0x24e8: 0x0001, 0x24e9: 0x0001,",
   "\t0x24ea: 0x0001, 0x24eb: 0x0001, 0x24ec: 0x0001, 0x24ed: 0x0001, 0x24ee: 0x0001, 0x24ef: 0x0001,",
   "\t0x24f0: 0x0001, 0x24f1: 0x0001, 0x24f2: 0x0001, 0x24f3: 0x0001, 0x24f4: 0x0001, 0x24f5: 0x0001,",
   "\t0x24f6: 0x0001, 0x24f7: 0x0001, 0x24f8: 0x0001, 0x24f9: 0x0001, 0x24fa: 0x0001, 0x24fb: 0x0001,",
   "\t0x24fc: 0x0001, 0x24fd: 0x0001, 0x24fe: 0x0001, 0x24ff: 0x0001,",
   "\t// Block 0x94, offset 0x2500",
   "\t0x2500: 0x0001, 0x2501: 0x0001, 0x2502: 0x0001, 0x2503: 0x0001, 0x2504: 0x0001, 0x2505: 0x0001,",
   "\t0x2506: 0x0001, 0x2507: 0x0001, 0x2508: 0x0001, 0x2509: 0x0001, 0x250a: 0x0001, 0x250b: 0x0001,",
   "\t0x250c: 0x0001, 0x250d: 0x0001, 0x250e: 0x0001, 0x250f: 0x0001, 0x2510: 0x0001, 0x2511: 0x0001,",
   "\t0x2512: 0x0001, 0x2513: 0x0001, 0x2514: 0x0001, 0x2515: 0x0001, 0x2516: 0x0001, 0x2517: 0x0001,",
   "\t0x2518: 0x0001, 0x2519: 0x0001, 0x251a: 0x0001, 0x251b: 0x0001, 0x251c: 0x0001,",
   "\t0x2531: 0x0001, 0x2532: 0x0001, 0x2533: 0x0001, 0x2534: 0x0001, 0x2535: 0x0001,",
   "\t0x2536: 0x0001, 0x2537: 0x0001, 0x2538: 0x0001, 0x2539: 0x0001, 0x253a: 0x0001, 0x253b: 0x0001,",
   "\t0x253c: 0x0001, 0x253d: 0x0001, 0x253e: 0x0001, 0x253f: 0x0001,",
   "\t// Block 0x95, offset 0x2540",
   "\t0x2540: 0x0001, 0x2541: 0x0001, 0x2542: 0x0010, 0x2543: 0x0001, 0x2544: 0x0001, 0x2545: 0x0001,",
   "\t0x2546: 0x0010, 0x2547: 0x0001, 0x2548: 0x0001, 0x2549: 0x0001, 0x254a: 0x0001, 0x254b: 0x0010,",
   "\t0x254c: 0x0001, 0x254d: 0x0001, 0x254e: 0x0001, 0x254f: 0x0001, 0x2550: 0x0001, 0x2551: 0x0001,",
   "\t0x2552: 0x0001, 0x2553: 0x0001, 0x2554: 0x0001, 0x2555: 0x0001, 0x2556: 0x0001, 0x2557: 0x0001,",
   "\t0x2558: 0x0001, 0x2559: 0x0001, 0x255a: 0x0001, 0x255b: 0x0001, 0x255c: 0x0001, 0x255d: 0x0001,",
   "\t0x255e: 0x0001, 0x255f: 0x0001, 0x2560: 0x0001, 0x2561: 0x0001, 0x2562: 0x0001, 0x2563: 0x0010,",
   "\t0x2564: 0x0010, 0x2565: 0x0010, 0x2566: 0x0010, 0x2567: 0x0010,",
   "\t0x256c: 0x0010,",
   "\t// Block 0x96, offset 0x2580",
   "\t0x2580: 0x0001, 0x2581: 0x0001, 0x2582: 0x0001, 0x2583: 0x0001, 0x2584: 0x0001, 0x2585: 0x0001,",
   "\t0x2586: 0x0001, 0x2587: 0x0001, 0x2588: 0x0001, 0x2589: 0x0001, 0x258a: 0x0001, 0x258b: 0x0001,",
   "\t0x258c: 0x0001, 0x258d: 0x0001, 0x258e: 0x0001, 0x258f: 0x0001, 0x2590: 0x0001, 0x2591: 0x0001,",
   "\t0x2592: 0x0001, 0x2593: 0x0001, 0x2594: 0x0001, 0x2595: 0x0001, 0x2596: 0x0001, 0x2597: 0x0001,",
   "\t0x2598: 0x0001, 0x2599: 0x0001, 0x259a: 0x0001, 0x259b: 0x0001, 0x259c: 0x0001, 0x259d: 0x0001,",
   "\t0x259e: 0x0001, 0x259f: 0x0001, 0x25a0: 0x0001, 0x25a1: 0x0001, 0x25a2: 0x0001, 0x25a3: 0x0001,",
   "\t0x25a4: 0x0001, 0x25a5: 0x0001, 0x25a6: 0x0001, 0x25a7: 0x0001, 0x25a8: 0x0001, 0x25a9: 0x0001,",
   "\t0x25aa: 0x0001, 0x25ab: 0x0001, 0x25ac: 0x0001, 0x25ad: 0x0001, 0x25ae: 0x0001, 0x25af: 0x0001,",
   "\t0x25b0: 0x0001, 0x25b1: 0x0001, 0x25b2: 0x0001, 0x25b3: 0x0001,",
   "\t// Block 0x97, offset 0x25c0",
   "\t0x25c0: 0x0010, 0x25c1: 0x0010, 0x25c2: 0x0001, 0x25c3: 0x0001, 0x25c4: 0x0001, 0x25c5: 0x0001,",
   "\t0x25c6: 0x0001, 0x25c7: 0x0001, 0x25c8: 0x0001, 0x25c9: 0x0001, 0x25ca: 0x0001, 0x25cb: 0x0001,",
   "\t0x25cc: 0x0001, 0x25cd: 0x0001, 0x25ce: 0x0001, 0x25cf: 0x0001, 0x25d0: 0x0001, 0x25d1: 0x0001,",
   "\t0x25d2: 0x0001, 0x25d3: 0x0001, 0x25d4: 0x0001, 0x25d5: 0x0001, 0x25d6: 0x0001, 0x25d7: 0x0001,",
   "\t0x25d8: 0x0001, 0x25d9: 0x0001, 0x25da: 0x0001, 0x25db: 0x0001, 0x25dc: 0x0001, 0x25dd: 0x0001,",
   "\t0x25de: 0x0001, 0x25df: 0x0001, 0x25e0: 0x0001, 0x25e1: 0x0001, 0x25e2: 0x0001, 0x25e3: 0x0001,",
   "\t0x25e4: 0x0001, 0x25e5: 0x0001, 0x25e6: 0x0001, 0x25e7: 0x0001, 0x25e8: 0x0001, 0x25e9: 0x0001,",
   "\t0x25ea: 0x0001, 0x25eb: 0x0001, 0x25ec: 0x0001, 0x25ed: 0x0001, 0x25ee: 0x0001, 0x25ef: 0x0001,",
   "\t0x25f0: 0x0001, 0x25f1: 0x0001, 0x25f2: 0x0001, 0x25f3: 0x0001, 0x25f4: 0x0010, 0x25f5: 0x0010,",
   "\t0x25f6: 0x0010, 0x25f7: 0x0010, 0x25f8: 0x0010, 0x25f9: 0x0010, 0x25fa: 0x0010, 0x25fb: 0x0010,",
   "\t0x25fc: 0x0010, 0x25fd: 0x0010, 0x25fe: 0x0010, 0x25ff: 0x0010,",
   "\t// Block 0x98, offset 0x2600",
   "\t0x2600: 0x0010, 0x2601: 0x0010, 0x2602: 0x0010, 0x2603: 0x0010, 0x2604: 0x0010, 0x2605: 0x0010,",
   "\t0x2610: 0x8000, 0x2611: 0x8000,",
   "\t0x2612: 0x8000, 0x2613: 0x8000, 0x2614: 0x8000, 0x2615: 0x8000, 0x2616: 0x8000, 0x2617: 0x8000,",
   "\t0x2618: 0x8000, 0x2619: 0x8000,",
   "\t0x2620: 0x0010, 0x2621: 0x0010, 0x2622: 0x0010, 0x2623: 0x0010,",
   "\t0x2624: 0x0010, 0x2625: 0x0010, 0x2626: 0x0010, 0x2627: 0x0010, 0x2628: 0x0010, 0x2629: 0x0010,",
   "\t0x262a: 0x0010, 0x262b: 0x0010, 0x262c: 0x0010, 0x262d: 0x0010, 0x262e: 0x0010, 0x262f: 0x0010,",
   "\t0x2630: 0x0010, 0x2631: 0x0010, 0x2632: 0x0001, 0x2633: 0x0001, 0x2634: 0x0001, 0x2635: 0x0001,",
   "\t0x2636: 0x0001, 0x2637: 0x0001, 0x263b: 0x0001,",
   "\t0x263d: 0x0001, 0x263e: 0x0001, 0x263f: 0x0010,",
   "\t// Block 0x99, offset 0x2640",
   "\t0x2640: 0x8000, 0x2641: 0x8000, 0x2642: 0x8000, 0x2643: 0x8000, 0x2644: 0x8000, 0x2645: 0x8000,",
   "\t0x2646: 0x8000, 0x2647: 0x8000, 0x2648: 0x8000, 0x2649: 0x8000, 0x264a: 0x0001, 0x264b: 0x0001,",
   "\t0x264c: 0x0001, 0x264d: 0x0001, 0x264e: 0x0001, 0x264f: 0x0001, 0x2650: 0x0001, 0x2651: 0x0001,",
   "\t0x2652: 0x0001, 0x2653: 0x0001, 0x2654: 0x0001, 0x2655: 0x0001, 0x2656: 0x0001, 0x2657: 0x0001,",
   "\t0x2658: 0x0001, 0x2659: 0x0001, 0x265a: 0x0001, 0x265b: 0x0001, 0x265c: 0x0001, 0x265d: 0x0001,",
   "\t0x265e: 0x0001, 0x265f: 0x0001, 0x2660: 0x0001, 0x2661: 0x0001, 0x2662: 0x0001, 0x2663: 0x0001,",
   "\t0x2664: 0x0001, 0x2665: 0x0001, 0x2666: 0x0010, 0x2667: 0x0010, 0x2668: 0x0010, 0x2669: 0x0010,",
   "\t0x266a: 0x0010, 0x266b: 0x0010, 0x266c: 0x0010, 0x266d: 0x0010,",
   "\t0x2670: 0x0001, 0x2671: 0x0001, 0x2672: 0x0001, 0x2673: 0x0001, 0x2674: 0x0001, 0x2675: 0x0001,",
   "\t0x2676: 0x0001, 0x2677: 0x0001, 0x2678: 0x0001, 0x2679: 0x0001, 0x267a: 0x0001, 0x267b: 0x0001,",
   "\t0x267c: 0x0001, 0x267d: 0x0001, 0x267e: 0x0001, 0x267f: 0x0001,",
   "\t// Block 0x9a, offset 0x2680",
   "\t0x2680: 0x0001, 0x2681: 0x0001, 0x2682: 0x0001, 0x2683: 0x0001, 0x2684: 0x0001, 0x2685: 0x0001,",
   "\t0x2686: 0x0001, 0x2687: 0x0010, 0x2688: 0x0010, 0x2689: 0x0010, 0x268a: 0x0010, 0x268b: 0x0010,",
   "\t0x268c: 0x0010, 0x268d: 0x0010, 0x268e: 0x0010, 0x268f: 0x0010, 0x2690: 0x0010, 0x2691: 0x0010,",
   "\t0x2692: 0x0010, 0x2693: 0x0010,",
   "\t0x26a0: 0x0001, 0x26a1: 0x0001, 0x26a2: 0x0001, 0x26a3: 0x0001,",
   "\t0x26a4: 0x0001, 0x26a5: 0x0001, 0x26a6: 0x0001, 0x26a7: 0x0001, 0x26a8: 0x0001, 0x26a9: 0x0001,",
   "\t0x26aa: 0x0001, 0x26ab: 0x0001, 0x26ac: 0x0001, 0x26ad: 0x0001, 0x26ae: 0x0001, 0x26af: 0x0001,",
   "\t0x26b0: 0x0001, 0x26b1: 0x0001, 0x26b2: 0x0001, 0x26b3: 0x0001, 0x26b4: 0x0001, 0x26b5: 0x0001,",
   "\t0x26b6: 0x0001, 0x26b7: 0x0001, 0x26b8: 0x0001, 0x26b9: 0x0001, 0x26ba: 0x0001, 0x26bb: 0x0001,",
   "\t0x26bc: 0x0001,",
   "\t// Block 0x9b, offset 0x26c0",
   "\t0x26c0: 0x0010, 0x26c1: 0x0010, 0x26c2: 0x0010, 0x26c3: 0x0010, 0x26c4: 0x0001, 0x26c5: 0x0001,",
   "\t0x26c6: 0x0001, 0x26c7: 0x0001, 0x26c8: 0x0001, 0x26c9: 0x0001, 0x26ca: 0x0001, 0x26cb: 0x0001,",
   "\t0x26cc: 0x0001, 0x26cd: 0x0001, 0x26ce: 0x0001, 0x26cf: 0x0001, 0x26d0: 0x0001, 0x26d1: 0x0001,",
   "\t0x26d2: 0x0001, 0x26d3: 0x0001, 0x26d4: 0x0001, 0x26d5: 0x0001, 0x26d6: 0x0001, 0x26d7: 0x0001,",
   "\t0x26d8: 0x0001, 0x26d9: 0x0001, 0x26da: 0x0001, 0x26db: 0x0001, 0x26dc: 0x0001, 0x26dd: 0x0001,",
   "\t0x26de: 0x0001, 0x26df: 0x0001, 0x26e0: 0x0001, 0x26e1: 0x0001, 0x26e2: 0x0001, 0x26e3: 0x0001,",
   "\t0x26e4: 0x0001, 0x26e5: 0x0001, 0x26e6: 0x0001, 0x26e7: 0x0001, 0x26e8: 0x0001, 0x26e9: 0x0001,",
   "\t0x26ea: 0x0001, 0x26eb: 0x0001, 0x26ec: 0x0001, 0x26ed: 0x0001, 0x26ee: 0x0001, 0x26ef: 0x0001,",
   "\t0x26f0: 0x0001, 0x26f1: 0x0001, 0x26f2: 0x0001, 0x26f3: 0x0010, 0x26f4: 0x0010, 0x26f5: 0x0010,",
   "\t0x26f6: 0x0010, 0x26f7: 0x0010, 0x26f8: 0x0010, 0x26f9: 0x0010, 0x26fa: 0x0010, 0x26fb: 0x0010,",
   "\t0x26fc: 0x0010, 0x26fd: 0x0010, 0x26fe: 0x0010, 0x26ff: 0x0010,",
   "\t// Block 0x9c, offset 0x2700",
   "\t0x2700: 0x0010,",
   "\t0x270f: 0x0001, 0x2710: 0x8000, 0x2711: 0x8000,",
   "\t0x2712: 0x8000, 0x2713: 0x8000, 0x2714: 0x8000, 0x2715: 0x8000, 0x2716: 0x8000, 0x2717: 0x8000,",
   "\t0x2718: 0x8000, 0x2719: 0x8000,",
   "\t0x2725: 0x0010,",
   "\t0x2730: 0x8000, 0x2731: 0x8000, 0x2732: 0x8000, 0x2733: 0x8000, 0x2734: 0x8000, 0x2735: 0x8000,",
   "\t0x2736: 0x8000, 0x2737: 0x8000, 0x2738: 0x8000, 0x2739: 0x8000,",
   "\t// Block 0x9d, offset 0x2740",
   "\t0x2740: 0x0001, 0x2741: 0x0001, 0x2742: 0x0001, 0x2743: 0x0001, 0x2744: 0x0001, 0x2745: 0x0001,",
   "\t0x2746: 0x0001, 0x2747: 0x0001, 0x2748: 0x0001, 0x2749: 0x0001, 0x274a: 0x0001, 0x274b: 0x0001,",
   "\t0x274c: 0x0001, 0x274d: 0x0001, 0x274e: 0x0001, 0x274f: 0x0001, 0x2750: 0x0001, 0x2751: 0x0001,",
   "\t0x2752: 0x0001, 0x2753: 0x0001, 0x2754: 0x0001, 0x2755: 0x0001, 0x2756: 0x0001, 0x2757: 0x0001,",
   "\t0x2758: 0x0001, 0x2759: 0x0001, 0x275a: 0x0001, 0x275b: 0x0001, 0x275c: 0x0001, 0x275d: 0x0001,",
   "\t0x275e: 0x0001, 0x275f: 0x0001, 0x2760: 0x0001, 0x2761: 0x0001, 0x2762: 0x0001, 0x2763: 0x0001,",
   "\t0x2764: 0x0001, 0x2765: 0x0001, 0x2766: 0x0001, 0x2767: 0x0001, 0x2768: 0x0001, 0x2769: 0x0010,",
   "\t0x276a: 0x0010, 0x276b: 0x0010, 0x276c: 0x0010, 0x276d: 0x0010, 0x276e: 0x0010, 0x276f: 0x0010,",
   "\t0x2770: 0x0010, 0x2771: 0x0010, 0x2772: 0x0010, 0x2773: 0x0010, 0x2774: 0x0010, 0x2775: 0x0010,",
   "\t0x2776: 0x0010,",
   "\t// Block 0x9e, offset 0x2780",
   "\t0x2780: 0x0001, 0x2781: 0x0001, 0x2782: 0x0001, 0x2783: 0x0010, 0x2784: 0x0001, 0x2785: 0x0001,",
   "\t0x2786: 0x0001, 0x2787: 0x0001, 0x2788: 0x0001, 0x2789: 0x0001, 0x278a: 0x0001, 0x278b: 0x0001,",
   "\t0x278c: 0x0010, 0x278d: 0x0010, 0x2790: 0x8000, 0x2791: 0x8000,",
   "\t0x2792: 0x8000, 0x2793: 0x8000, 0x2794: 0x8000, 0x2795: 0x8000, 0x2796: 0x8000, 0x2797: 0x8000,",
   "\t0x2798: 0x8000, 0x2799: 0x8000,",
   "\t0x27bb: 0x0010,",
   "\t0x27bc: 0x0010, 0x27bd: 0x0010,",
   "\t// Block 0x9f, offset 0x27c0",
   "\t0x27f0: 0x0010, 0x27f2: 0x0010, 0x27f3: 0x0010, 0x27f4: 0x0010,",
   "\t0x27f7: 0x0010, 0x27f8: 0x0010,",
   "\t0x27fe: 0x0010, 0x27ff: 0x0010,"]
theorem v9_eq : v9 = (layout 6 4 144 ((Table.Values.blocks.drop 144).take 16)).map String.ofList := by
  kernel_rfl
/-- words/trie.go:1624-1783, `wordsValues` from block 0xa0 on. -/
def v10 : List String :=
  ["\t// Block 0xa0, offset 0x2800",
   "\t0x2801: 0x0010,",
   "\t0x2820: 0x0001, 0x2821: 0x0001, 0x2822: 0x0001, 0x2823: 0x0001,",
   "\t0x2824: 0x0001, 0x2825: 0x0001, 0x2826: 0x0001, 0x2827: 0x0001, 0x2828: 0x0001, 0x2829: 0x0001,",
   "\t0x282a: 0x0001, 0x282b: 0x0010, 0x282c: 0x0010, 0x282d: 0x0010, 0x282e: 0x0010, 0x282f: 0x0010,",
   "\t0x2832: 0x0001, 0x2833: 0x0001, 0x2834: 0x0001, 0x2835: 0x0010,",
   "\t0x2836: 0x0010,",
   "\t// Block 0xa1, offset 0x2840",
   "\t0x2841: 0x0001, 0x2842: 0x0001, 0x2843: 0x0001, 0x2844: 0x0001, 0x2845: 0x0001,",
   "\t0x2846: 0x0001, 0x2849: 0x0001, 0x284a: 0x0001, 0x284b: 0x0001,",
   "\t0x284c: 0x0001, 0x284d: 0x0001, 0x284e: 0x0001, 0x2851: 0x0001,",
   "\t0x2852: 0x0001, 0x2853: 0x0001, 0x2854: 0x0001, 0x2855: 0x0001, 0x2856: 0x0001,",
   "\t0x2860: 0x0001, 0x2861: 0x0001, 0x2862: 0x0001, 0x2863: 0x0001,",
   "\t0x2864: 0x0001, 0x2865: 0x0001, 0x2866: 0x0001, 0x2868: 0x0001, 0x2869: 0x0001,",
   "\t0x286a: 0x0001, 0x286b: 0x0001, 0x286c: 0x0001, 0x286d: 0x0001, 0x286e: 0x0001,",
   "\t0x2870: 0x0001, 0x2871: 0x0001, 0x2872: 0x0001, 0x2873: 0x0001, 0x2874: 0x0001, 0x2875: 0x0001,",
   "\t0x2876: 0x0001, 0x2877: 0x0001, 0x2878: 0x0001, 0x2879: 0x0001, 0x287a: 0x0001, 0x287b: 0x0001,",
   "\t0x287c: 0x0001, 0x287d: 0x0001, 0x287e: 0x0001, 0x287f: 0x0001,",
   "\t// Block 0xa2, offset 0x2880",
   "\t0x2880: 0x0001, 0x2881: 0x0001, 0x2882: 0x0001, 0x2883: 0x0001, 0x2884: 0x0001, 0x2885: 0x0001,",
   "\t0x2886: 0x0001, 0x2887: 0x0001, 0x2888: 0x0001, 0x2889: 0x0001, 0x288a: 0x0001, 0x288b: 0x0001,",
   "\t0x288c: 0x0001, 0x288d: 0x0001, 0x288e: 0x0001, 0x288f: 0x0001, 0x2890: 0x0001, 0x2891: 0x0001,",
   "\t0x2892: 0x0001, 0x2893: 0x0001, 0x2894: 0x0001, 0x2895: 0x0001, 0x2896: 0x0001, 0x2897: 0x0001,",
   "\t0x2898: 0x0001, 0x2899: 0x0001, 0x289a: 0x0001, 0x289b: 0x0001, 0x289c: 0x0001, 0x289d: 0x0001,",
   "\t0x289e: 0x0001, 0x289f: 0x0001, 0x28a0: 0x0001, 0x28a1: 0x0001, 0x28a2: 0x0001, 0x28a3: 0x0001,",
   "\t0x28a4: 0x0001, 0x28a5: 0x0001, 0x28a6: 0x0001, 0x28a7: 0x0001, 0x28a8: 0x0001, 0x28a9: 0x0001,",
   "\t0x28b0: 0x0001, 0x28b1: 0x0001, 0x28b2: 0x0001, 0x28b3: 0x0001, 0x28b4: 0x0001, 0x28b5: 0x0001,",
   "\t0x28b6: 0x0001, 0x28b7: 0x0001, 0x28b8: 0x0001, 0x28b9: 0x0001, 0x28ba: 0x0001, 0x28bb: 0x0001,",
   "\t0x28bc: 0x0001, 0x28bd: 0x0001, 0x28be: 0x0001, 0x28bf: 0x0001,",
   "\t// Block 0xa3, offset 0x28c0",
   "\t0x28c0: 0x0001, 0x28c1: 0x0001, 0x28c2: 0x0001, 0x28c3: 0x0001, 0x28c4: 0x0001, 0x28c5: 0x0001,",
   "\t0x28c6: 0x0001, 0x28c7: 0x0001, 0x28c8: 0x0001, 0x28c9: 0x0001, 0x28ca: 0x0001, 0x28cb: 0x0001,",
   "\t0x28cc: 0x0001, 0x28cd: 0x0001, 0x28ce: 0x0001, 0x28cf: 0x0001, 0x28d0: 0x0001, 0x28d1: 0x0001,",
   "\t0x28d2: 0x0001, 0x28d3: 0x0001, 0x28d4: 0x0001, 0x28d5: 0x0001, 0x28d6: 0x0001, 0x28d7: 0x0001,",
   "\t0x28d8: 0x0001, 0x28d9: 0x0001, 0x28da: 0x0001, 0x28db: 0x0001, 0x28dc: 0x0001, 0x28dd: 0x0001,",
   "\t0x28de: 0x0001, 0x28df: 0x0001, 0x28e0: 0x0001, 0x28e1: 0x0001, 0x28e2: 0x0001, 0x28e3: 0x0010,",
   "\t0x28e4: 0x0010, 0x28e5: 0x0010, 0x28e6: 0x0010, 0x28e7: 0x0010, 0x28e8: 0x0010, 0x28e9: 0x0010,",
   "\t0x28ea: 0x0010, 0x28ec: 0x0010, 0x28ed: 0x0010,",
   "\t0x28f0: 0x8000, 0x28f1: 0x8000, 0x28f2: 0x8000, 0x28f3: 0x8000, 0x28f4: 0x8000, 0x28f5: 0x8000,",
   "\t0x28f6: 0x8000, 0x28f7: 0x8000, 0x28f8: 0x8000, 0x28f9: 0x8000,",
   "\t// Block 0xa4, offset 0x2900",
   "\t0x2900: 0x0001, 0x2901: 0x0001, 0x2902: 0x0001, 0x2903: 0x0001, 0x2904: 0x0001, 0x2905: 0x0001,",
   "\t0x2906: 0x0001, 0x2907: 0x0001, 0x2908: 0x0001, 0x2909: 0x0001, 0x290a: 0x0001, 0x290b: 0x0001,",
   "\t0x290c: 0x0001, 0x290d: 0x0001, 0x290e: 0x0001, 0x290f: 0x0001, 0x2910: 0x0001, 0x2911: 0x0001,",
   "\t0x2912: 0x0001, 0x2913: 0x0001, 0x2914: 0x0001, 0x2915: 0x0001, 0x2916: 0x0001, 0x2917: 0x0001,",
   "\t0x2918: 0x0001, 0x2919: 0x0001, 0x291a: 0x0001, 0x291b: 0x0001, 0x291c: 0x0001, 0x291d: 0x0001,",
   "\t0x291e: 0x0001, 0x291f: 0x0001, 0x2920: 0x0001, 0x2921: 0x0001, 0x2922: 0x0001, 0x2923: 0x0001,",
   "\t0x2930: 0x0001, 0x2931: 0x0001, 0x2932: 0x0001, 0x2933: 0x0001, 0x2934: 0x0001, 0x2935: 0x0001,",
   "\t0x2936: 0x0001, 0x2937: 0x0001, 0x2938: 0x0001, 0x2939: 0x0001, 0x293a: 0x0001, 0x293b: 0x0001,",
   "\t0x293c: 0x0001, 0x293d: 0x0001, 0x293e: 0x0001, 0x293f: 0x0001,",
   "\t// Block 0xa5, offset 0x2940",
   "\t0x2940: 0x0001, 0x2941: 0x0001, 0x2942: 0x0001, 0x2943: 0x0001, 0x2944: 0x0001, 0x2945: 0x0001,",
   "\t0x2946: 0x0001, 0x294b: 0x0001,",
   "\t0x294c: 0x0001, 0x294d: 0x0001, 0x294e: 0x0001, 0x294f: 0x0001, 0x2950: 0x0001, 0x2951: 0x0001,",
   "\t0x2952: 0x0001, 0x2953: 0x0001, 0x2954: 0x0001, 0x2955: 0x0001, 0x2956: 0x0001, 0x2957: 0x0001,",
   "\t0x2958: 0x0001, 0x2959: 0x0001, 0x295a: 0x0001, 0x295b: 0x0001, 0x295c: 0x0001, 0x295d: 0x0001,",
   "\t0x295e: 0x0001, 0x295f: 0x0001, 0x2960: 0x0001, 0x2961: 0x0001, 0x2962: 0x0001, 0x2963: 0x0001,",
   "\t0x2964: 0x0001, 0x2965: 0x0001, 0x2966: 0x0001, 0x2967: 0x0001, 0x2968: 0x0001, 0x2969: 0x0001,",
   "\t0x296a: 0x0001, 0x296b: 0x0001, 0x296c: 0x0001, 0x296d: 0x0001, 0x296e: 0x0001, 0x296f: 0x0001,",
   "\t0x2970: 0x0001, 0x2971: 0x0001, 0x2972: 0x0001, 0x2973: 0x0001, 0x2974: 0x0001, 0x2975: 0x0001,",
   "\t0x2976: 0x0001, 0x2977: 0x0001, 0x2978: 0x0001, 0x2979: 0x0001, 0x297a: 0x0001, 0x297b: 0x0001,",
   "\t// Block 0xa6, offset 0x2980",
   "\t0x2980: 0x0002, 0x2981: 0x0002, 0x2982: 0x0002, 0x2983: 0x0002, 0x2984: 0x0002, 0x2985: 0x0002,",
   "\t0x2986: 0x0002, 0x2987: 0x0002, 0x2988: 0x0002, 0x2989: 0x0002, 0x298a: 0x0002, 0x298b: 0x0002,",
   "\t0x298c: 0x0002, 0x298d: 0x0002, 0x298e: 0x0002, 0x298f: 0x0002, 0x2990: 0x0002, 0x2991: 0x0002,",
   "\t0x2992: 0x0002, 0x2993: 0x0002, 0x2994: 0x0002, 0x2995: 0x0002, 0x2996: 0x0002, 0x2997: 0x0002,",
   "\t0x2998: 0x0002, 0x2999: 0x0002, 0x299a: 0x0002, 0x299b: 0x0002, 0x299c: 0x0002, 0x299d: 0x0002,",
   "\t0x299e: 0x0002, 0x299f: 0x0002, 0x29a0: 0x0002, 0x29a1: 0x0002, 0x29a2: 0x0002, 0x29a3: 0x0002,",
   "\t0x29a4: 0x0002, 0x29a5: 0x0002, 0x29a6: 0x0002, 0x29a7: 0x0002, 0x29a8: 0x0002, 0x29a9: 0x0002,",
   "\t0x29aa: 0x0002, 0x29ab: 0x0002, 0x29ac: 0x0002, 0x29ad: 0x0002,",
   "\t0x29b0: 0x0002, 0x29b1: 0x0002, 0x29b2: 0x0002, 0x29b3: 0x0002, 0x29b4: 0x0002, 0x29b5: 0x0002,",
   "\t0x29b6: 0x0002, 0x29b7: 0x0002, 0x29b8: 0x0002, 0x29b9: 0x0002, 0x29ba: 0x0002, 0x29bb: 0x0002,",
   "\t0x29bc: 0x0002, 0x29bd: 0x0002, 0x29be: 0x0002, 0x29bf: 0x0002,",
   "\t// Block 0xa7, offset 0x29c0",
   "\t0x29c0: 0x0002, 0x29c1: 0x0002, 0x29c2: 0x0002, 0x29c3: 0x0002, 0x29c4: 0x0002, 0x29c5: 0x0002,",
   "\t0x29c6: 0x0002, 0x29c7: 0x0002, 0x29c8: 0x0002, 0x29c9: 0x0002, 0x29ca: 0x0002, 0x29cb: 0x0002,",
   "\t0x29cc: 0x0002, 0x29cd: 0x0002, 0x29ce: 0x0002, 0x29cf: 0x0002, 0x29d0: 0x0002, 0x29d1: 0x0002,",
   "\t0x29d2: 0x0002, 0x29d3: 0x0002, 0x29d4: 0x0002, 0x29d5: 0x0002, 0x29d6: 0x0002, 0x29d7: 0x0002,",
   "\t0x29d8: 0x0002, 0x29d9: 0x0002,",
   "\t// Block 0xa8, offset 0x2a00",
   "\t0x2a00: 0x0001, 0x2a01: 0x0001, 0x2a02: 0x0001, 0x2a03: 0x0001, 0x2a04: 0x0001, 0x2a05: 0x0001,",
   "\t0x2a06: 0x0001,",
   "\t0x2a13: 0x0001, 0x2a14: 0x0001, 0x2a15: 0x0001, 0x2a16: 0x0001, 0x2a17: 0x0001,",
   "\t0x2a1d: 0x0100,",
   "\t0x2a1e: 0x0010, 0x2a1f: 0x0100, 0x2a20: 0x0100, 0x2a21: 0x0100, 0x2a22: 0x0100, 0x2a23: 0x0100,",
   "\t0x2a24: 0x0100, 0x2a25: 0x0100, 0x2a26: 0x0100, 0x2a27: 0x0100, 0x2a28: 0x0100,",
   "\t0x2a2a: 0x0100, 0x2a2b: 0x0100, 0x2a2c: 0x0100, 0x2a2d: 0x0100, 0x2a2e: 0x0100, 0x2a2f: 0x0100,",
   "\t0x2a30: 0x0100, 0x2a31: 0x0100, 0x2a32: 0x0100, 0x2a33: 0x0100, 0x2a34: 0x0100, 0x2a35: 0x0100,",
   "\t0x2a36: 0x0100, 0x2a38: 0x0100, 0x2a39: 0x0100, 0x2a3a: 0x0100, 0x2a3b: 0x0100,",
   "\t0x2a3c: 0x0100, 0x2a3e: 0x0100,",
   "\t// Block 0xa9, offset 0x2a40",
   "\t0x2a40: 0x0100, 0x2a41: 0x0100, 0x2a43: 0x0100, 0x2a44: 0x0100,",
   "\t0x2a46: 0x0100, 0x2a47: 0x0100, 0x2a48: 0x0100, 0x2a49: 0x0100, 0x2a4a: 0x0100, 0x2a4b: 0x0100,",
   "\t0x2a4c: 0x0100, 0x2a4d: 0x0100, 0x2a4e: 0x0100, 0x2a4f: 0x0100, 0x2a50: 0x0001, 0x2a51: 0x0001,",
   "\t0x2a52: 0x0001, 0x2a53: 0x0001, 0x2a54: 0x0001, 0x2a55: 0x0001, 0x2a56: 0x0001, 0x2a57: 0x0001,",
   "\t0x2a58: 0x0001, 0x2a59: 0x0001, 0x2a5a: 0x0001, 0x2a5b: 0x0001, 0x2a5c: 0x0001, 0x2a5d: 0x0001,",
   "\t0x2a5e: 0x0001, 0x2a5f: 0x0001, 0x2a60: 0x0001, 0x2a61: 0x0001, 0x2a62: 0x0001, 0x2a63: 0x0001,",
   "\t0x2a64: 0x0001, 0x2a65: 0x0001, 0x2a66: 0x0001, 0x2a67: 0x0001, 0x2a68: 0x0001, 0x2a69: 0x0001,",
   "\t0x2a6a: 0x0001, 0x2a6b: 0x0001, 0x2a6c: 0x0001, 0x2a6d: 0x0001, 0x2a6e: 0x0001, 0x2a6f: 0x0001,",
   "\t0x2a70: 0x0001, 0x2a71: 0x0001, 0x2a72: 0x0001, 0x2a73: 0x0001, 0x2a74: 0x0001, 0x2a75: 0x0001,",
   "\t0x2a76: 0x0001, 0x2a77: 0x0001, 0x2a78: 0x0001, 0x2a79: 0x0001, 0x2a7a: 0x0001, 0x2a7b: 0x0001,",
   "\t0x2a7c: 0x0001, 0x2a7d: 0x0001, 0x2a7e: 0x0001, 0x2a7f: 0x0001,",
   "\t// Block 0xaa, offset 0x2a80",
   "\t0x2a80: 0x0001, 0x2a81: 0x0001, 0x2a82: 0x0001, 0x2a83: 0x0001, 0x2a84: 0x0001, 0x2a85: 0x0001,",
   "\t0x2a86: 0x0001, 0x2a87: 0x0001, 0x2a88: 0x0001, 0x2a89: 0x0001, 0x2a8a: 0x0001, 0x2a8b: 0x0001,",
   "\t0x2a8c: 0x0001, 0x2a8d: 0x0001, 0x2a8e: 0x0001, 0x2a8f: 0x0001, 0x2a90: 0x0001, 0x2a91: 0x0001,",
   "\t0x2a92: 0x0001, 0x2a93: 0x0001, 0x2a94: 0x0001, 0x2a95: 0x0001, 0x2a96: 0x0001, 0x2a97: 0x0001,",
   "\t0x2a98: 0x0001, 0x2a99: 0x0001, 0x2a9a: 0x0001, 0x2a9b: 0x0001, 0x2a9c: 0x0001, 0x2a9d: 0x0001,",
   "\t0x2a9e: 0x0001, 0x2a9f: 0x0001, 0x2aa0: 0x0001, 0x2aa1: 0x0001, 0x2aa2: 0x0001, 0x2aa3: 0x0001,",
   "\t0x2aa4: 0x0001, 0x2aa5: 0x0001, 0x2aa6: 0x0001, 0x2aa7: 0x0001, 0x2aa8: 0x0001, 0x2aa9: 0x0001,",
   "\t0x2aaa: 0x0001, 0x2aab: 0x0001, 0x2aac: 0x0001, 0x2aad: 0x0001, 0x2aae: 0x0001, 0x2aaf: 0x0001,",
   "\t0x2ab0: 0x0001, 0x2ab1: 0x0001,",
   "\t// Block 0xab, offset 0x2ac0",
   "\t0x2ad3: 0x0001, 0x2ad4: 0x0001, 0x2ad5: 0x0001, 0x2ad6: 0x0001, 0x2ad7: 0x0001,",
   "\t0x2ad8: 0x0001, 0x2ad9: 0x0001, 0x2ada: 0x0001, 0x2adb: 0x0001, 0x2adc: 0x0001, 0x2add: 0x0001,",
   "\t0x2ade: 0x0001, 0x2adf: 0x0001, 0x2ae0: 0x0001, 0x2ae1: 0x0001, 0x2ae2: 0x0001, 0x2ae3: 0x0001,",
   "\t0x2ae4: 0x0001, 0x2ae5: 0x0001, 0x2ae6: 0x0001, 0x2ae7: 0x0001, 0x2ae8: 0x0001, 0x2ae9: 0x0001,",
   "\t0x2aea: 0x0001, 0x2aeb: 0x0001, 0x2aec: 0x0001, 0x2aed: 0x0001, 0x2aee: 0x0001, 0x2aef: 0x0001,",
   "\t0x2af0: 0x0001, 0x2af1: 0x0001, 0x2af2: 0x0001, 0x2af3: 0x0001, 0x2af4: 0x0001, 0x2af5: 0x0001,",
   "\t0x2af6: 0x0001, 0x2af7: 0x0001, 0x2af8: 0x0001, 0x2af9: 0x0001, 0x2afa: 0x0001, 0x2afb: 0x0001,",
   "\t0x2afc: 0x0001, 0x2afd: 0x0001, 0x2afe: 0x0001, 0x2aff: 0x0001,",
   "\t// Block 0xac, offset 0x2b00",
   "\t0x2b00: 0x0001, 0x2b01: 0x0001, 0x2b02: 0x0001, 0x2b03: 0x0001, 0x2b04: 0x0001, 0x2b05: 0x0001,",
   "\t0x2b06: 0x0001, 0x2b07: 0x0001, 0x2b08: 0x0001, 0x2b09: 0x0001, 0x2b0a: 0x0001, 0x2b0b: 0x0001,",
   "\t0x2b0c: 0x0001, 0x2b0d: 0x0001, 0x2b0e: 0x0001, 0x2b0f: 0x0001, 0x2b10: 0x0001, 0x2b11: 0x0001,",
   "\t0x2b12: 0x0001, 0x2b13: 0x0001, 0x2b14: 0x0001, 0x2b15: 0x0001, 0x2b16: 0x0001, 0x2b17: 0x0001,",
   "\t0x2b18: 0x0001, 0x2b19: 0x0001, 0x2b1a: 0x0001, 0x2b1b: 0x0001, 0x2b1c: 0x0001, 0x2b1d: 0x0001,",
   "\t0x2b1e: 0x0001, 0x2b1f: 0x0001, 0x2b20: 0x0001, 0x2b21: 0x0001, 0x2b22: 0x0001, 0x2b23: 0x0001,",
   "\t0x2b24: 0x0001, 0x2b25: 0x0001, 0x2b26: 0x0001, 0x2b27: 0x0001, 0x2b28: 0x0001, 0x2b29: 0x0001,",
   "\t0x2b2a: 0x0001, 0x2b2b: 0x0001, 0x2b2c: 0x0001, 0x2b2d: 0x0001, 0x2b2e: 0x0001, 0x2b2f: 0x0001,",
   "\t0x2b30: 0x0001, 0x2b31: 0x0001, 0x2b32: 0x0001, 0x2b33: 0x0001, 0x2b34: 0x0001, 0x2b35: 0x0001,",
   "\t0x2b36: 0x0001, 0x2b37: 0x0001, 0x2b38: 0x0001, 0x2b39: 0x0001, 0x2b3a: 0x0001, 0x2b3b: 0x0001,",
   "\t0x2b3c: 0x0001, 0x2b3d: 0x0001,",
   "\t// Block 0xad, offset 0x2b40",
   "\t0x2b50: 0x0001, 0x2b51: 0x0001,",
   "\t0x2b52: 0x0001, 0x2b53: 0x0001, 0x2b54: 0x0001, 0x2b55: 0x0001, 0x2b56: 0x0001, 0x2b57: 0x0001,",
   "\t0x2b58: 0x0001, 0x2b59: 0x0001, 0x2b5a: 0x0001, 0x2b5b: 0x0001, 0x2b5c: 0x0001, 0x2b5d: 0x0001,",
   "\t0x2b5e: 0x0001, 0x2b5f: 0x0001, 0x2b60: 0x0001, 0x2b61: 0x0001, 0x2b62: 0x0001, 0x2b63: 0x0001,",
   "\t0x2b64: 0x0001, 0x2b65: 0x0001, 0x2b66: 0x0001, 0x2b67: 0x0001, 0x2b68: 0x0001, 0x2b69: 0x0001,",
   "\t0x2b6a: 0x0001, 0x2b6b: 0x0001, 0x2b6c: 0x0001, 0x2b6d: 0x0001, 0x2b6e: 0x0001, 0x2b6f: 0x0001,",
   "\t0x2b70: 0x0001, 0x2b71: 0x0001, 0x2b72: 0x0001, 0x2b73: 0x0001, 0x2b74: 0x0001, 0x2b75: 0x0001,",
   "\t0x2b76: 0x0001, 0x2b77: 0x0001, 0x2b78: 0x0001, 0x2b79: 0x0001, 0x2b7a: 0x0001, 0x2b7b: 0x0001,",
   "\t0x2b7c: 0x0001, 0x2b7d: 0x0001, 0x2b7e: 0x0001, 0x2b7f: 0x0001,",
   "\t// Block 0xae, offset 0x2b80",
   "\t0x2b80: 0x0001, 0x2b81: 0x0001, 0x2b82: 0x0001, 0x2b83: 0x0001, 0x2b84: 0x0001, 0x2b85: 0x0001,",
   "\t0x2b86: 0x0001, 0x2b87: 0x0001, 0x2b88: 0x0001, 0x2b89: 0x0001, 0x2b8a: 0x0001, 0x2b8b: 0x0001,",
   "\t0x2b8c: 0x0001, 0x2b8d: 0x0001, 0x2b8e: 0x0001, 0x2b8f: 0x0001,",
   "\t0x2b92: 0x0001, 0x2b93: 0x0001, 0x2b94: 0x0001, 0x2b95: 0x0001, 0x2b96: 0x0001, 0x2b97: 0x0001,",
   "\t0x2b98: 0x0001, 0x2b99: 0x0001, 0x2b9a: 0x0001, 0x2b9b: 0x0001, 0x2b9c: 0x0001, 0x2b9d: 0x0001,",
   "\t0x2b9e: 0x0001, 0x2b9f: 0x0001, 0x2ba0: 0x0001, 0x2ba1: 0x0001, 0x2ba2: 0x0001, 0x2ba3: 0x0001,",
   "\t0x2ba4: 0x0001, 0x2ba5: 0x0001, 0x2ba6: 0x0001, 0x2ba7: 0x0001, 0x2ba8: 0x0001, 0x2ba9: 0x0001,",
   "\t0x2baa: 0x0001, 0x2bab: 0x0001, 0x2bac: 0x0001, 0x2bad: 0x0001, 0x2bae: 0x0001, 0x2baf: 0x0001,",
   "\t0x2bb0: 0x0001, 0x2bb1: 0x0001, 0x2bb2: 0x0001, 0x2bb3: 0x0001, 0x2bb4: 0x0001, 0x2bb5: 0x0001,",
   "\t0x2bb6: 0x0001, 0x2bb7: 0x0001, 0x2bb8: 0x0001, 0x2bb9: 0x0001, 0x2bba: 0x0001, 0x2bbb: 0x0001,",
   "\t0x2bbc: 0x0001, 0x2bbd: 0x0001, 0x2bbe: 0x0001, 0x2bbf: 0x0001,",
   "\t// Block 0xaf, offset 0x2bc0",
   "\t0x2bc0: 0x0001, 0x2bc1: 0x0001, 0x2bc2: 0x0001, 0x2bc3: 0x0001, 0x2bc4: 0x0001, 0x2bc5: 0x0001,",
   "\t0x2bc6: 0x0001, 0x2bc7: 0x0001,",
   "\t0x2bf0: 0x0001, 0x2bf1: 0x0001, 0x2bf2: 0x0001, 0x2bf3: 0x0001, 0x2bf4: 0x0001, 0x2bf5: 0x0001,",
   "\t0x2bf6: 0x0001, 0x2bf7: 0x0001, 0x2bf8: 0x0001, 0x2bf9: 0x0001, 0x2bfa: 0x0001, 0x2bfb: 0x0001,"]
theorem v10_eq : v10 = (layout 6 4 160 ((Table.Values.blocks.drop 160).take 16)).map String.ofList := by
  kernel_rfl
/-- words/trie.go:1784-1931, `wordsValues` from block 0xb0 on. -/
def v11 : List String :=
  ["\t// Block 0xb0, offset 0x2c00",
   "\t0x2c00: 0x0010, 0x2c01: 0x0010, 0x2c02: 0x0010, 0x2c03: 0x0010, 0x2c04: 0x0010, 0x2c05: 0x0010,",
   "\t0x2c06: 0x0010, 0x2c07: 0x0010, 0x2c08: 0x0010, 0x2c09: 0x0010, 0x2c0a: 0x0010, 0x2c0b: 0x0010,",
   "\t0x2c0c: 0x0010, 0x2c0d: 0x0010, 0x2c0e: 0x0010, 0x2c0f: 0x0010,",
   "\t0x2c13: 0x0800,",
   "\t0x2c20: 0x0010, 0x2c21: 0x0010, 0x2c22: 0x0010, 0x2c23: 0x0010,",
   "\t0x2c24: 0x0010, 0x2c25: 0x0010, 0x2c26: 0x0010, 0x2c27: 0x0010, 0x2c28: 0x0010, 0x2c29: 0x0010,",
   "\t0x2c2a: 0x0010, 0x2c2b: 0x0010, 0x2c2c: 0x0010, 0x2c2d: 0x0010, 0x2c2e: 0x0010, 0x2c2f: 0x0010,",
   "\t0x2c33: 0x0020, 0x2c34: 0x0020,",
   "\t// Block 0xb1, offset 0x2c40",
   "\t0x2c4d: 0x0020, 0x2c4e: 0x0020, 0x2c4f: 0x0020, 0x2c50: 0x1000,",
   "\t0x2c52: 0x2000, 0x2c54: 0x1000, 0x2c55: 0x0800,",
   "\t0x2c70: 0x0001, 0x2c71: 0x0001, 0x2c72: 0x0001, 0x2c73: 0x0001, 0x2c74: 0x0001,",
   "\t0x2c76: 0x0001, 0x2c77: 0x0001, 0x2c78: 0x0001, 0x2c79: 0x0001, 0x2c7a: 0x0001, 0x2c7b: 0x0001,",
   "\t0x2c7c: 0x0001, 0x2c7d: 0x0001, 0x2c7e: 0x0001, 0x2c7f: 0x0001,",
   "\t// Block 0xb2, offset 0x2c80",
   "\t0x2c80: 0x0001, 0x2c81: 0x0001, 0x2c82: 0x0001, 0x2c83: 0x0001, 0x2c84: 0x0001, 0x2c85: 0x0001,",
   "\t0x2c86: 0x0001, 0x2c87: 0x0001, 0x2c88: 0x0001, 0x2c89: 0x0001, 0x2c8a: 0x0001, 0x2c8b: 0x0001,",
   "\t0x2c8c: 0x0001, 0x2c8d: 0x0001, 0x2c8e: 0x0001, 0x2c8f: 0x0001, 0x2c90: 0x0001, 0x2c91: 0x0001,",
   "\t0x2c92: 0x0001, 0x2c93: 0x0001, 0x2c94: 0x0001, 0x2c95: 0x0001, 0x2c96: 0x0001, 0x2c97: 0x0001,",
   "\t0x2c98: 0x0001, 0x2c99: 0x0001, 0x2c9a: 0x0001, 0x2c9b: 0x0001, 0x2c9c: 0x0001, 0x2c9d: 0x0001,",
   "\t0x2c9e: 0x0001, 0x2c9f: 0x0001, 0x2ca0: 0x0001, 0x2ca1: 0x0001, 0x2ca2: 0x0001, 0x2ca3: 0x0001,",
   "\t0x2ca4: 0x0001, 0x2ca5: 0x0001, 0x2ca6: 0x0001, 0x2ca7: 0x0001, 0x2ca8: 0x0001, 0x2ca9: 0x0001,",
   "\t0x2caa: 0x0001, 0x2cab: 0x0001, 0x2cac: 0x0001, 0x2cad: 0x0001, 0x2cae: 0x0001, 0x2caf: 0x0001,",
   "\t0x2cb0: 0x0001, 0x2cb1: 0x0001, 0x2cb2: 0x0001, 0x2cb3: 0x0001, 0x2cb4: 0x0001, 0x2cb5: 0x0001,",
   "\t0x2cb6: 0x0001, 0x2cb7: 0x0001, 0x2cb8: 0x0001, 0x2cb9: 0x0001, 0x2cba: 0x0001, 0x2cbb: 0x0001,",
   "\t0x2cbc: 0x0001, 0x2cbf: 0x0080,",
   "\t// Block 0xb3, offset 0x2cc0",
   "\t0x2cc7: 0x2000,",
   "\t0x2ccc: 0x1000, 0x2cce: 0x2000, 0x2cd0: 0x8000, 0x2cd1: 0x8000,",
   "\t0x2cd2: 0x8000, 0x2cd3: 0x8000, 0x2cd4: 0x8000, 0x2cd5: 0x8000, 0x2cd6: 0x8000, 0x2cd7: 0x8000,",
   "\t0x2cd8: 0x8000, 0x2cd9: 0x8000, 0x2cda: 0x0800, 0x2cdb: 0x1000,",
   "\t0x2ce1: 0x0001, 0x2ce2: 0x0001, 0x2ce3: 0x0001,",
   "\t0x2ce4: 0x0001, 0x2ce5: 0x0001, 0x2ce6: 0x0001, 0x2ce7: 0x0001, 0x2ce8: 0x0001, 0x2ce9: 0x0001,",
   "\t0x2cea: 0x0001, 0x2ceb: 0x0001, 0x2cec: 0x0001, 0x2ced: 0x0001, 0x2cee: 0x0001, 0x2cef: 0x0001,",
   "\t0x2cf0: 0x0001, 0x2cf1: 0x0001, 0x2cf2: 0x0001, 0x2cf3: 0x0001, 0x2cf4: 0x0001, 0x2cf5: 0x0001,",
   "\t0x2cf6: 0x0001, 0x2cf7: 0x0001, 0x2cf8: 0x0001, 0x2cf9: 0x0001, 0x2cfa: 0x0001,",
   "\t0x2cff: 0x0020,",
   "\t// Block 0xb4, offset 0x2d00",
   "\t0x2d01: 0x0001, 0x2d02: 0x0001, 0x2d03: 0x0001, 0x2d04: 0x0001, 0x2d05: 0x0001,",
   "\t0x2d06: 0x0001, 0x2d07: 0x0001, 0x2d08: 0x0001, 0x2d09: 0x0001, 0x2d0a: 0x0001, 0x2d0b: 0x0001,",
   "\t0x2d0c: 0x0001, 0x2d0d: 0x0001, 0x2d0e: 0x0001, 0x2d0f: 0x0001, 0x2d10: 0x0001, 0x2d11: 0x0001,",
   "\t0x2d12: 0x0001, 0x2d13: 0x0001, 0x2d14: 0x0001, 0x2d15: 0x0001, 0x2d16: 0x0001, 0x2d17: 0x0001,",
   "\t0x2d18: 0x0001, 0x2d19: 0x0001, 0x2d1a: 0x0001,",
   "\t0x2d26: 0x0202, 0x2d27: 0x0202, 0x2d28: 0x0202, 0x2d29: 0x0202,",
   "\t0x2d2a: 0x0202, 0x2d2b: 0x0202, 0x2d2c: 0x0202, 0x2d2d: 0x0202, 0x2d2e: 0x0202, 0x2d2f: 0x0202,",
   "\t0x2d30: 0x0202, 0x2d31: 0x0202, 0x2d32: 0x0202, 0x2d33: 0x0202, 0x2d34: 0x0202, 0x2d35: 0x0202,",
   "\t0x2d36: 0x0202, 0x2d37: 0x0202, 0x2d38: 0x0202, 0x2d39: 0x0202, 0x2d3a: 0x0202, 0x2d3b: 0x0202,",
   "\t0x2d3c: 0x0202, 0x2d3d: 0x0202, 0x2d3e: 0x0202, 0x2d3f: 0x0202,",
   "\t// Block 0xb5, offset 0x2d40",
   "\t0x2d40: 0x0202, 0x2d41: 0x0202, 0x2d42: 0x0202, 0x2d43: 0x0202, 0x2d44: 0x0202, 0x2d45: 0x0202,",
   "\t0x2d46: 0x0202, 0x2d47: 0x0202, 0x2d48: 0x0202, 0x2d49: 0x0202, 0x2d4a: 0x0202, 0x2d4b: 0x0202,",
   "\t0x2d4c: 0x0202, 0x2d4d: 0x0202, 0x2d4e: 0x0202, 0x2d4f: 0x0202, 0x2d50: 0x0202, 0x2d51: 0x0202,",
   "\t0x2d52: 0x0202, 0x2d53: 0x0202, 0x2d54: 0x0202, 0x2d55: 0x0202, 0x2d56: 0x0202, 0x2d57: 0x0202,",
   "\t0x2d58: 0x0202, 0x2d59: 0x0202, 0x2d5a: 0x0202, 0x2d5b: 0x0202, 0x2d5c: 0x0202, 0x2d5d: 0x0202,",
   "\t0x2d5e: 0x0010, 0x2d5f: 0x0010, 0x2d60: 0x0001, 0x2d61: 0x0001, 0x2d62: 0x0001, 0x2d63: 0x0001,",
   "\t0x2d64: 0x0001, 0x2d65: 0x0001, 0x2d66: 0x0001, 0x2d67: 0x0001, 0x2d68: 0x0001, 0x2d69: 0x0001,",
   "\t0x2d6a: 0x0001, 0x2d6b: 0x0001, 0x2d6c: 0x0001, 0x2d6d: 0x0001, 0x2d6e: 0x0001, 0x2d6f: 0x0001,",
   "\t0x2d70: 0x0001, 0x2d71: 0x0001, 0x2d72: 0x0001, 0x2d73: 0x0001, 0x2d74: 0x0001, 0x2d75: 0x0001,",
   "\t0x2d76: 0x0001, 0x2d77: 0x0001, 0x2d78: 0x0001, 0x2d79: 0x0001, 0x2d7a: 0x0001, 0x2d7b: 0x0001,",
   "\t0x2d7c: 0x0001, 0x2d7d: 0x0001, 0x2d7e: 0x0001,",
   "\t// Block 0xb6, offset 0x2d80",
   "\t0x2d82: 0x0001, 0x2d83: 0x0001, 0x2d84: 0x0001, 0x2d85: 0x0001,",
   "\t0x2d86: 0x0001, 0x2d87: 0x0001, 0x2d8a: 0x0001, 0x2d8b: 0x0001,",
   "\t0x2d8c: 0x0001, 0x2d8d: 0x0001, 0x2d8e: 0x0001, 0x2d8f: 0x0001,",
   "\t0x2d92: 0x0001, 0x2d93: 0x0001, 0x2d94: 0x0001, 0x2d95: 0x0001, 0x2d96: 0x0001, 0x2d97: 0x0001,",
   "\t0x2d9a: 0x0001, 0x2d9b: 0x0001, 0x2d9c: 0x0001,",
   "\t0x2db9: 0x0080, 0x2dba: 0x0080, 0x2dbb: 0x0080,",
   "\t// Block 0xb7, offset 0x2dc0",
   "\t0x2dc0: 0x0001, 0x2dc1: 0x0001, 0x2dc2: 0x0001, 0x2dc3: 0x0001, 0x2dc4: 0x0001, 0x2dc5: 0x0001,",
   "\t0x2dc6: 0x0001, 0x2dc7: 0x0001, 0x2dc8: 0x0001, 0x2dc9: 0x0001, 0x2dca: 0x0001, 0x2dcb: 0x0001,",
   "\t0x2dcd: 0x0001, 0x2dce: 0x0001, 0x2dcf: 0x0001, 0x2dd0: 0x0001, 0x2dd1: 0x0001,",
   "\t0x2dd2: 0x0001, 0x2dd3: 0x0001, 0x2dd4: 0x0001, 0x2dd5: 0x0001, 0x2dd6: 0x0001, 0x2dd7: 0x0001,",
   "\t0x2dd8: 0x0001, 0x2dd9: 0x0001, 0x2dda: 0x0001, 0x2ddb: 0x0001, 0x2ddc: 0x0001, 0x2ddd: 0x0001,",
   "\t0x2dde: 0x0001, 0x2ddf: 0x0001, 0x2de0: 0x0001, 0x2de1: 0x0001, 0x2de2: 0x0001, 0x2de3: 0x0001,",
   "\t0x2de4: 0x0001, 0x2de5: 0x0001, 0x2de6: 0x0001, 0x2de8: 0x0001, 0x2de9: 0x0001,",
   "\t0x2dea: 0x0001, 0x2deb: 0x0001, 0x2dec: 0x0001, 0x2ded: 0x0001, 0x2dee: 0x0001, 0x2def: 0x0001,",
   "\t0x2df0: 0x0001, 0x2df1: 0x0001, 0x2df2: 0x0001, 0x2df3: 0x0001, 0x2df4: 0x0001, 0x2df5: 0x0001,",
   "\t0x2df6: 0x0001, 0x2df7: 0x0001, 0x2df8: 0x0001, 0x2df9: 0x0001, 0x2dfa: 0x0001,",
   "\t0x2dfc: 0x0001, 0x2dfd: 0x0001, 0x2dff: 0x0001,",
   "\t// Block 0xb8, offset 0x2e00",
   "\t0x2e00: 0x0001, 0x2e01: 0x0001, 0x2e02: 0x0001, 0x2e03: 0x0001, 0x2e04: 0x0001, 0x2e05: 0x0001,",
   "\t0x2e06: 0x0001, 0x2e07: 0x0001, 0x2e08: 0x0001, 0x2e09: 0x0001, 0x2e0a: 0x0001, 0x2e0b: 0x0001,",
   "\t0x2e0c: 0x0001, 0x2e0d: 0x0001, 0x2e10: 0x0001, 0x2e11: 0x0001,",
   "\t0x2e12: 0x0001, 0x2e13: 0x0001, 0x2e14: 0x0001, 0x2e15: 0x0001, 0x2e16: 0x0001, 0x2e17: 0x0001,",
   "\t0x2e18: 0x0001, 0x2e19: 0x0001, 0x2e1a: 0x0001, 0x2e1b: 0x0001, 0x2e1c: 0x0001, 0x2e1d: 0x0001,",
   "\t// Block 0xb9, offset 0x2e40",
   "\t0x2e40: 0x0001, 0x2e41: 0x0001, 0x2e42: 0x0001, 0x2e43: 0x0001, 0x2e44: 0x0001, 0x2e45: 0x0001,",
   "\t0x2e46: 0x0001, 0x2e47: 0x0001, 0x2e48: 0x0001, 0x2e49: 0x0001, 0x2e4a: 0x0001, 0x2e4b: 0x0001,",
   "\t0x2e4c: 0x0001, 0x2e4d: 0x0001, 0x2e4e: 0x0001, 0x2e4f: 0x0001, 0x2e50: 0x0001, 0x2e51: 0x0001,",
   "\t0x2e52: 0x0001, 0x2e53: 0x0001, 0x2e54: 0x0001, 0x2e55: 0x0001, 0x2e56: 0x0001, 0x2e57: 0x0001,",
   "\t0x2e58: 0x0001, 0x2e59: 0x0001, 0x2e5a: 0x0001, 0x2e5b: 0x0001, 0x2e5c: 0x0001, 0x2e5d: 0x0001,",
   "\t0x2e5e: 0x0001, 0x2e5f: 0x0001, 0x2e60: 0x0001, 0x2e61: 0x0001, 0x2e62: 0x0001, 0x2e63: 0x0001,",
   "\t0x2e64: 0x0001, 0x2e65: 0x0001, 0x2e66: 0x0001, 0x2e67: 0x0001, 0x2e68: 0x0001, 0x2e69: 0x0001,",
   "\t0x2e6a: 0x0001, 0x2e6b: 0x0001, 0x2e6c: 0x0001, 0x2e6d: 0x0001, 0x2e6e: 0x0001, 0x2e6f: 0x0001,",
   "\t0x2e70: 0x0001, 0x2e71: 0x0001, 0x2e72: 0x0001, 0x2e73: 0x0001, 0x2e74: 0x0001, 0x2e75: 0x0001,",
   "\t0x2e76: 0x0001, 0x2e77: 0x0001, 0x2e78: 0x0001, 0x2e79: 0x0001, 0x2e7a: 0x0001,",
   "\t// Block 0xba, offset 0x2e80",
   "\t0x2e80: 0x0001, 0x2e81: 0x0001, 0x2e82: 0x0001, 0x2e83: 0x0001, 0x2e84: 0x0001, 0x2e85: 0x0001,",
   "\t0x2e86: 0x0001, 0x2e87: 0x0001, 0x2e88: 0x0001, 0x2e89: 0x0001, 0x2e8a: 0x0001, 0x2e8b: 0x0001,",
   "\t0x2e8c: 0x0001, 0x2e8d: 0x0001, 0x2e8e: 0x0001, 0x2e8f: 0x0001, 0x2e90: 0x0001, 0x2e91: 0x0001,",
   "\t0x2e92: 0x0001, 0x2e93: 0x0001, 0x2e94: 0x0001, 0x2e95: 0x0001, 0x2e96: 0x0001, 0x2e97: 0x0001,",
   "\t0x2e98: 0x0001, 0x2e99: 0x0001, 0x2e9a: 0x0001, 0x2e9b: 0x0001, 0x2e9c: 0x0001, 0x2e9d: 0x0001,",
   "\t0x2e9e: 0x0001, 0x2e9f: 0x0001, 0x2ea0: 0x0001, 0x2ea1: 0x0001, 0x2ea2: 0x0001, 0x2ea3: 0x0001,",
   "\t0x2ea4: 0x0001, 0x2ea5: 0x0001, 0x2ea6: 0x0001, 0x2ea7: 0x0001, 0x2ea8: 0x0001, 0x2ea9: 0x0001,",
   "\t0x2eaa: 0x0001, 0x2eab: 0x0001, 0x2eac: 0x0001, 0x2ead: 0x0001, 0x2eae: 0x0001, 0x2eaf: 0x0001,",
   "\t0x2eb0: 0x0001, 0x2eb1: 0x0001, 0x2eb2: 0x0001, 0x2eb3: 0x0001, 0x2eb4: 0x0001,",
   "\t// Block 0xbb, offset 0x2ec0",
   "\t0x2efd: 0x0010,",
   "\t// Block 0xbc, offset 0x2f00",
   "\t0x2f00: 0x0001, 0x2f01: 0x0001, 0x2f02: 0x0001, 0x2f03: 0x0001, 0x2f04: 0x0001, 0x2f05: 0x0001,",
   "\t0x2f06: 0x0001, 0x2f07: 0x0001, 0x2f08: 0x0001, 0x2f09: 0x0001, 0x2f0a: 0x0001, 0x2f0b: 0x0001,",
   "\t0x2f0c: 0x0001, 0x2f0d: 0x0001, 0x2f0e: 0x0001, 0x2f0f: 0x0001, 0x2f10: 0x0001, 0x2f11: 0x0001,",
   "\t0x2f12: 0x0001, 0x2f13: 0x0001, 0x2f14: 0x0001, 0x2f15: 0x0001, 0x2f16: 0x0001, 0x2f17: 0x0001,",
   "\t0x2f18: 0x0001, 0x2f19: 0x0001, 0x2f1a: 0x0001, 0x2f1b: 0x0001, 0x2f1c: 0x0001,",
   "\t0x2f20: 0x0001, 0x2f21: 0x0001, 0x2f22: 0x0001, 0x2f23: 0x0001,",
   "\t0x2f24: 0x0001, 0x2f25: 0x0001, 0x2f26: 0x0001, 0x2f27: 0x0001, 0x2f28: 0x0001, 0x2f29: 0x0001,",
   "\t0x2f2a: 0x0001, 0x2f2b: 0x0001, 0x2f2c: 0x0001, 0x2f2d: 0x0001, 0x2f2e: 0x0001, 0x2f2f: 0x0001,",
   "\t0x2f30: 0x0001, 0x2f31: 0x0001, 0x2f32: 0x0001, 0x2f33: 0x0001, 0x2f34: 0x0001, 0x2f35: 0x0001,",
   "\t0x2f36: 0x0001, 0x2f37: 0x0001, 0x2f38: 0x0001, 0x2f39: 0x0001, 0x2f3a: 0x0001, 0x2f3b: 0x0001,",
   "\t0x2f3c: 0x0001, 0x2f3d: 0x0001, 0x2f3e: 0x0001, 0x2f3f: 0x0001,",
   "\t// Block 0xbd, offset 0x2f40",
   "\t0x2f40: 0x0001, 0x2f41: 0x0001, 0x2f42: 0x0001, 0x2f43: 0x0001, 0x2f44: 0x0001, 0x2f45: 0x0001,",
   "\t0x2f46: 0x0001, 0x2f47: 0x0001, 0x2f48: 0x0001, 0x2f49: 0x0001, 0x2f4a: 0x0001, 0x2f4b: 0x0001,",
   "\t0x2f4c: 0x0001, 0x2f4d: 0x0001, 0x2f4e: 0x0001, 0x2f4f: 0x0001, 0x2f50: 0x0001,",
   "\t0x2f60: 0x0010,",
   "\t// Block 0xbe, offset 0x2f80",
   "\t0x2f80: 0x0001, 0x2f81: 0x0001, 0x2f82: 0x0001, 0x2f83: 0x0001, 0x2f84: 0x0001, 0x2f85: 0x0001,",
   "\t0x2f86: 0x0001, 0x2f87: 0x0001, 0x2f88: 0x0001, 0x2f89: 0x0001, 0x2f8a: 0x0001, 0x2f8b: 0x0001,",
   "\t0x2f8c: 0x0001, 0x2f8d: 0x0001, 0x2f8e: 0x0001, 0x2f8f: 0x0001, 0x2f90: 0x0001, 0x2f91: 0x0001,",
   "\t0x2f92: 0x0001, 0x2f93: 0x0001, 0x2f94: 0x0001, 0x2f95: 0x0001, 0x2f96: 0x0001, 0x2f97: 0x0001,",
   "\t0x2f98: 0x0001, 0x2f99: 0x0001, 0x2f9a: 0x0001, 0x2f9b: 0x0001, 0x2f9c: 0x0001, 0x2f9d: 0x0001,",
   "\t0x2f9e: 0x0001, 0x2f9f: 0x0001,",
   "\t0x2fad: 0x0001, 0x2fae: 0x0001, 0x2faf: 0x0001,",
   "\t0x2fb0: 0x0001, 0x2fb1: 0x0001, 0x2fb2: 0x0001, 0x2fb3: 0x0001, 0x2fb4: 0x0001, 0x2fb5: 0x0001,",
   "\t0x2fb6: 0x0001, 0x2fb7: 0x0001, 0x2fb8: 0x0001, 0x2fb9: 0x0001, 0x2fba: 0x0001, 0x2fbb: 0x0001,",
   "\t0x2fbc: 0x0001, 0x2fbd: 0x0001, 0x2fbe: 0x0001, 0x2fbf: 0x0001,",
   "\t// Block 0xbf, offset 0x2fc0",
   "\t0x2fc0: 0x0001, 0x2fc1: 0x0001, 0x2fc2: 0x0001, 0x2fc3: 0x0001, 0x2fc4: 0x0001, 0x2fc5: 0x0001,",
   "\t0x2fc6: 0x0001, 0x2fc7: 0x0001, 0x2fc8: 0x0001, 0x2fc9: 0x0001, 0x2fca: 0x0001,",
   "\t0x2fd0: 0x0001, 0x2fd1: 0x0001,",
   "\t0x2fd2: 0x0001, 0x2fd3: 0x0001, 0x2fd4: 0x0001, 0x2fd5: 0x0001, 0x2fd6: 0x0001, 0x2fd7: 0x0001,",
   "\t0x2fd8: 0x0001, 0x2fd9: 0x0001, 0x2fda: 0x0001, 0x2fdb: 0x0001, 0x2fdc: 0x0001, 0x2fdd: 0x0001,",
   "\t0x2fde: 0x0001, 0x2fdf: 0x0001, 0x2fe0: 0x0001, 0x2fe1: 0x0001, 0x2fe2: 0x0001, 0x2fe3: 0x0001,",
   "\t0x2fe4: 0x0001, 0x2fe5: 0x0001, 0x2fe6: 0x0001, 0x2fe7: 0x0001, 0x2fe8: 0x0001, 0x2fe9: 0x0001,",
   "\t0x2fea: 0x0001, 0x2feb: 0x0001, 0x2fec: 0x0001, 0x2fed: 0x0001, 0x2fee: 0x0001, 0x2fef: 0x0001,",
   "\t0x2ff0: 0x0001, 0x2ff1: 0x0001, 0x2ff2: 0x0001, 0x2ff3: 0x0001, 0x2ff4: 0x0001, 0x2ff5: 0x0001,",
   "\t0x2ff6: 0x0010, 0x2ff7: 0x0010, 0x2ff8: 0x0010, 0x2ff9: 0x0010, 0x2ffa: 0x0010,"]
theorem v11_eq : v11 = (layout 6 4 176 ((Table.Values.blocks.drop 176).take 16)).map String.ofList := by
  kernel_rfl
/-- words/trie.go:1932-2082, `wordsValues` from block 0xc0 on. -/
def v12 : List String :=
  ["\t// Block 0xc0, offset 0x3000",
   "\t0x3000: 0x0001, 0x3001: 0x0001, 0x3002: 0x0001, 0x3003: 0x0001, 0x3004: 0x0001, 0x3005: 0x0001,",
   "\t0x3006: 0x0001, 0x3007: 0x0001, 0x3008: 0x0001, 0x3009: 0x0001, 0x300a: 0x0001, 0x300b: 0x0001,",
   "\t0x300c: 0x0001, 0x300d: 0x0001, 0x300e: 0x0001, 0x300f: 0x0001, 0x3010: 0x0001, 0x3011: 0x0001,",
   "\t0x3012: 0x0001, 0x3013: 0x0001, 0x3014: 0x0001, 0x3015: 0x0001, 0x3016: 0x0001, 0x3017: 0x0001,",
   "\t0x3018: 0x0001, 0x3019: 0x0001, 0x301a: 0x0001, 0x301b: 0x0001, 0x301c: 0x0001, 0x301d: 0x0001,",
   "\t0x3020: 0x0001, 0x3021: 0x0001, 0x3022: 0x0001, 0x3023: 0x0001,",
   "\t0x3024: 0x0001, 0x3025: 0x0001, 0x3026: 0x0001, 0x3027: 0x0001, 0x3028: 0x0001, 0x3029: 0x0001,",
   "\t0x302a: 0x0001, 0x302b: 0x0001, 0x302c: 0x0001, 0x302d: 0x0001, 0x302e: 0x0001, 0x302f: 0x0001,",
   "\t0x3030: 0x0001, 0x3031: 0x0001, 0x3032: 0x0001, 0x3033: 0x0001, 0x3034: 0x0001, 0x3035: 0x0001,",
   "\t0x3036: 0x0001, 0x3037: 0x0001, 0x3038: 0x0001, 0x3039: 0x0001, 0x303a: 0x0001, 0x303b: 0x0001,",
   "\t0x303c: 0x0001, 0x303d: 0x0001, 0x303e: 0x0001, 0x303f: 0x0001,",
   "\t// Block 0xc1, offset 0x3040",
   "\t0x3040: 0x0001, 0x3041: 0x0001, 0x3042: 0x0001, 0x3043: 0x0001,",
   "\t0x3048: 0x0001, 0x3049: 0x0001, 0x304a: 0x0001, 0x304b: 0x0001,",
   "\t0x304c: 0x0001, 0x304d: 0x0001, 0x304e: 0x0001, 0x304f: 0x0001, 0x3051: 0x0001,",
   "\t0x3052: 0x0001, 0x3053: 0x0001, 0x3054: 0x0001, 0x3055: 0x0001,",
   "\t// Block 0xc2, offset 0x3080",
   "\t0x3080: 0x0001, 0x3081: 0x0001, 0x3082: 0x0001, 0x3083: 0x0001, 0x3084: 0x0001, 0x3085: 0x0001,",
   "\t0x3086: 0x0001, 0x3087: 0x0001, 0x3088: 0x0001, 0x3089: 0x0001, 0x308a: 0x0001, 0x308b: 0x0001,",
   "\t0x308c: 0x0001, 0x308d: 0x0001, 0x308e: 0x0001, 0x308f: 0x0001, 0x3090: 0x0001, 0x3091: 0x0001,",
   "\t0x3092: 0x0001, 0x3093: 0x0001, 0x3094: 0x0001, 0x3095: 0x0001, 0x3096: 0x0001, 0x3097: 0x0001,",
   "\t0x3098: 0x0001, 0x3099: 0x0001, 0x309a: 0x0001, 0x309b: 0x0001, 0x309c: 0x0001, 0x309d: 0x0001,",
   "\t0x30a0: 0x8000, 0x30a1: 0x8000, 0x30a2: 0x8000, 0x30a3: 0x8000,",
   "\t0x30a4: 0x8000, 0x30a5: 0x8000, 0x30a6: 0x8000, 0x30a7: 0x8000, 0x30a8: 0x8000, 0x30a9: 0x8000,",
   "\t0x30b0: 0x0001, 0x30b1: 0x0001, 0x30b2: 0x0001, 0x30b3: 0x0001, 0x30b4: 0x0001, 0x30b5: 0x0001,",
   "\t0x30b6: 0x0001, 0x30b7: 0x0001, 0x30b8: 0x0001, 0x30b9: 0x0001, 0x30ba: 0x0001, 0x30bb: 0x0001,",
   "\t0x30bc: 0x0001, 0x30bd: 0x0001, 0x30be: 0x0001, 0x30bf: 0x0001,",
   "\t// Block 0xc3, offset 0x30c0",
   "\t0x30c0: 0x0001, 0x30c1: 0x0001, 0x30c2: 0x0001, 0x30c3: 0x0001, 0x30c4: 0x0001, 0x30c5: 0x0001,",
   "\t0x30c6: 0x0001, 0x30c7: 0x0001, 0x30c8: 0x0001, 0x30c9: 0x0001, 0x30ca: 0x0001, 0x30cb: 0x0001,",
   "\t0x30cc: 0x0001, 0x30cd: 0x0001, 0x30ce: 0x0001, 0x30cf: 0x0001, 0x30d0: 0x0001, 0x30d1: 0x0001,",
   "\t0x30d2: 0x0001, 0x30d3: 0x0001,",
   "\t0x30d8: 0x0001, 0x30d9: 0x0001, 0x30da: 0x0001, 0x30db: 0x0001, 0x30dc: 0x0001, 0x30dd: 0x0001,",
   "\t0x30de: 0x0001, 0x30df: 0x0001, 0x30e0: 0x0001, 0x30e1: 0x0001, 0x30e2: 0x0001, 0x30e3: 0x0001,",
   "\t0x30e4: 0x0001, 0x30e5: 0x0001, 0x30e6: 0x0001, 0x30e7: 0x0001, 0x30e8: 0x0001, 0x30e9: 0x0001,",
   "\t0x30ea: 0x0001, 0x30eb: 0x0001, 0x30ec: 0x0001, 0x30ed: 0x0001, 0x30ee: 0x0001, 0x30ef: 0x0001,",
   "\t0x30f0: 0x0001, 0x30f1: 0x0001, 0x30f2: 0x0001, 0x30f3: 0x0001, 0x30f4: 0x0001, 0x30f5: 0x0001,",
   "\t0x30f6: 0x0001, 0x30f7: 0x0001, 0x30f8: 0x0001, 0x30f9: 0x0001, 0x30fa: 0x0001, 0x30fb: 0x0001,",
   "\t// Block 0xc4, offset 0x3100",
   "\t0x3100: 0x0001, 0x3101: 0x0001, 0x3102: 0x0001, 0x3103: 0x0001, 0x3104: 0x0001, 0x3105: 0x0001,",
   "\t0x3106: 0x0001, 0x3107: 0x0001, 0x3108: 0x0001, 0x3109: 0x0001, 0x310a: 0x0001, 0x310b: 0x0001,",
   "\t0x310c: 0x0001, 0x310d: 0x0001, 0x310e: 0x0001, 0x310f: 0x0001, 0x3110: 0x0001, 0x3111: 0x0001,",
   "\t0x3112: 0x0001, 0x3113: 0x0001, 0x3114: 0x0001, 0x3115: 0x0001, 0x3116: 0x0001, 0x3117: 0x0001,",
   "\t0x3118: 0x0001, 0x3119: 0x0001, 0x311a: 0x0001, 0x311b: 0x0001, 0x311c: 0x0001, 0x311d: 0x0001,",
   "\t0x311e: 0x0001, 0x311f: 0x0001, 0x3120: 0x0001, 0x3121: 0x0001, 0x3122: 0x0001, 0x3123: 0x0001,",
   "\t0x3124: 0x0001, 0x3125: 0x0001, 0x3126: 0x0001, 0x3127: 0x0001,",
   "\t0x3130: 0x0001, 0x3131: 0x0001, 0x3132: 0x0001, 0x3133: 0x0001, 0x3134: 0x0001, 0x3135: 0x0001,",
   "\t0x3136: 0x0001, 0x3137: 0x0001, 0x3138: 0x0001, 0x3139: 0x0001, 0x313a: 0x0001, 0x313b: 0x0001,",
   "\t0x313c: 0x0001, 0x313d: 0x0001, 0x313e: 0x0001, 0x313f: 0x0001,",
   "\t// Block 0xc5, offset 0x3140",
   "\t0x3140: 0x0001, 0x3141: 0x0001, 0x3142: 0x0001, 0x3143: 0x0001, 0x3144: 0x0001, 0x3145: 0x0001,",
   "\t0x3146: 0x0001, 0x3147: 0x0001, 0x3148: 0x0001, 0x3149: 0x0001, 0x314a: 0x0001, 0x314b: 0x0001,",
   "\t0x314c: 0x0001, 0x314d: 0x0001, 0x314e: 0x0001, 0x314f: 0x0001, 0x3150: 0x0001, 0x3151: 0x0001,",
   "\t0x3152: 0x0001, 0x3153: 0x0001, 0x3154: 0x0001, 0x3155: 0x0001, 0x3156: 0x0001, 0x3157: 0x0001,",
   "\t0x3158: 0x0001, 0x3159: 0x0001, 0x315a: 0x0001, 0x315b: 0x0001, 0x315c: 0x0001, 0x315d: 0x0001,",
   "\t0x315e: 0x0001, 0x315f: 0x0001, 0x3160: 0x0001, 0x3161: 0x0001, 0x3162: 0x0001, 0x3163: 0x0001,",
   "\t0x3170: 0x0001, 0x3171: 0x0001, 0x3172: 0x0001, 0x3173: 0x0001, 0x3174: 0x0001, 0x3175: 0x0001,",
   "\t0x3176: 0x0001, 0x3177: 0x0001, 0x3178: 0x0001, 0x3179: 0x0001, 0x317a: 0x0001,",
   "\t0x317c: 0x0001, 0x317d: 0x0001, 0x317e: 0x0001, 0x317f: 0x0001,",
   "\t// Block 0xc6, offset 0x3180",
   "\t0x3180: 0x0001, 0x3181: 0x0001, 0x3182: 0x0001, 0x3183: 0x0001, 0x3184: 0x0001, 0x3185: 0x0001,",
   "\t0x3186: 0x0001, 0x3187: 0x0001, 0x3188: 0x0001, 0x3189: 0x0001, 0x318a: 0x0001,",
   "\t0x318c: 0x0001, 0x318d: 0x0001, 0x318e: 0x0001, 0x318f: 0x0001, 0x3190: 0x0001, 0x3191: 0x0001,",
   "\t0x3192: 0x0001, 0x3194: 0x0001, 0x3195: 0x0001, 0x3197: 0x0001,",
   "\t0x3198: 0x0001, 0x3199: 0x0001, 0x319a: 0x0001, 0x319b: 0x0001, 0x319c: 0x0001, 0x319d: 0x0001,",
   "\t0x319e: 0x0001, 0x319f: 0x0001, 0x31a0: 0x0001, 0x31a1: 0x0001, 0x31a3: 0x0001,",
   "\t0x31a4: 0x0001, 0x31a5: 0x0001, 0x31a6: 0x0001, 0x31a7: 0x0001, 0x31a8: 0x0001, 0x31a9: 0x0001,",
   "\t0x31aa: 0x0001, 0x31ab: 0x0001, 0x31ac: 0x0001, 0x31ad: 0x0001, 0x31ae: 0x0001, 0x31af: 0x0001,",
   "\t0x31b0: 0x0001, 0x31b1: 0x0001, 0x31b3: 0x0001, 0x31b4: 0x0001, 0x31b5: 0x0001,",
   "\t0x31b6: 0x0001, 0x31b7: 0x0001, 0x31b8: 0x0001, 0x31b9: 0x0001, 0x31bb: 0x0001,",
   "\t0x31bc: 0x0001,",
   "\t// Block 0xc7, offset 0x31c0",
   "\t0x31c0: 0x0001, 0x31c1: 0x0001, 0x31c2: 0x0001, 0x31c3: 0x0001, 0x31c4: 0x0001, 0x31c5: 0x0001,",
   "\t0x31c6: 0x0001, 0x31c7: 0x0001, 0x31c8: 0x0001, 0x31c9: 0x0001, 0x31ca: 0x0001, 0x31cb: 0x0001,",
   "\t0x31cc: 0x0001, 0x31cd: 0x0001, 0x31ce: 0x0001, 0x31cf: 0x0001, 0x31d0: 0x0001, 0x31d1: 0x0001,",
   "\t0x31d2: 0x0001, 0x31d3: 0x0001, 0x31d4: 0x0001, 0x31d5: 0x0001, 0x31d6: 0x0001, 0x31d7: 0x0001,",
   "\t0x31d8: 0x0001, 0x31d9: 0x0001, 0x31da: 0x0001, 0x31db: 0x0001, 0x31dc: 0x0001, 0x31dd: 0x0001,",
   "\t0x31de: 0x0001, 0x31df: 0x0001, 0x31e0: 0x0001, 0x31e1: 0x0001, 0x31e2: 0x0001, 0x31e3: 0x0001,",
   "\t0x31e4: 0x0001, 0x31e5: 0x0001, 0x31e6: 0x0001, 0x31e7: 0x0001, 0x31e8: 0x0001, 0x31e9: 0x0001,",
   "\t0x31ea: 0x0001, 0x31eb: 0x0001, 0x31ec: 0x0001, 0x31ed: 0x0001, 0x31ee: 0x0001, 0x31ef: 0x0001,",
   "\t0x31f0: 0x0001, 0x31f1: 0x0001, 0x31f2: 0x0001, 0x31f3: 0x0001, 0x31f4: 0x0001, 0x31f5: 0x0001,",
   "\t0x31f6: 0x0001,",
   "\t// Block 0xc8, offset 0x3200",
   "\t0x3200: 0x0001, 0x3201: 0x0001, 0x3202: 0x0001, 0x3203: 0x0001, 0x3204: 0x0001, 0x3205: 0x0001,",
   "\t0x3206: 0x0001, 0x3207: 0x0001, 0x3208: 0x0001, 0x3209: 0x0001, 0x320a: 0x0001, 0x320b: 0x0001,",
   "\t0x320c: 0x0001, 0x320d: 0x0001, 0x320e: 0x0001, 0x320f: 0x0001, 0x3210: 0x0001, 0x3211: 0x0001,",
   "\t0x3212: 0x0001, 0x3213: 0x0001, 0x3214: 0x0001, 0x3215: 0x0001,",
   "\t0x3220: 0x0001, 0x3221: 0x0001, 0x3222: 0x0001, 0x3223: 0x0001,",
   "\t0x3224: 0x0001, 0x3225: 0x0001, 0x3226: 0x0001, 0x3227: 0x0001,",
   "\t// Block 0xc9, offset 0x3240",
   "\t0x3240: 0x0001, 0x3241: 0x0001, 0x3242: 0x0001, 0x3243: 0x0001, 0x3244: 0x0001, 0x3245: 0x0001,",
   "\t0x3247: 0x0001, 0x3248: 0x0001, 0x3249: 0x0001, 0x324a: 0x0001, 0x324b: 0x0001,",
   "\t0x324c: 0x0001, 0x324d: 0x0001, 0x324e: 0x0001, 0x324f: 0x0001, 0x3250: 0x0001, 0x3251: 0x0001,",
   "\t0x3252: 0x0001, 0x3253: 0x0001, 0x3254: 0x0001, 0x3255: 0x0001, 0x3256: 0x0001, 0x3257: 0x0001,",
   "\t0x3258: 0x0001, 0x3259: 0x0001, 0x325a: 0x0001, 0x325b: 0x0001, 0x325c: 0x0001, 0x325d: 0x0001,",
   "\t0x325e: 0x0001, 0x325f: 0x0001, 0x3260: 0x0001, 0x3261: 0x0001, 0x3262: 0x0001, 0x3263: 0x0001,",
   "\t0x3264: 0x0001, 0x3265: 0x0001, 0x3266: 0x0001, 0x3267: 0x0001, 0x3268: 0x0001, 0x3269: 0x0001,",
   "\t0x326a: 0x0001, 0x326b: 0x0001, 0x326c: 0x0001, 0x326d: 0x0001, 0x326e: 0x0001, 0x326f: 0x0001,",
   "\t0x3270: 0x0001, 0x3272: 0x0001, 0x3273: 0x0001, 0x3274: 0x0001, 0x3275: 0x0001,",
   "\t0x3276: 0x0001, 0x3277: 0x0001, 0x3278: 0x0001, 0x3279: 0x0001, 0x327a: 0x0001,",
   "\t// Block 0xca, offset 0x3280",
   "\t0x3280: 0x0001, 0x3281: 0x0001, 0x3282: 0x0001, 0x3283: 0x0001, 0x3284: 0x0001, 0x3285: 0x0001,",
   "\t0x3288: 0x0001, 0x328a: 0x0001, 0x328b: 0x0001,",
   "\t0x328c: 0x0001, 0x328d: 0x0001, 0x328e: 0x0001, 0x328f: 0x0001, 0x3290: 0x0001, 0x3291: 0x0001,",
   "\t0x3292: 0x0001, 0x3293: 0x0001, 0x3294: 0x0001, 0x3295: 0x0001, 0x3296: 0x0001, 0x3297: 0x0001,",
   "\t0x3298: 0x0001, 0x3299: 0x0001, 0x329a: 0x0001, 0x329b: 0x0001, 0x329c: 0x0001, 0x329d: 0x0001,",
   "\t0x329e: 0x0001, 0x329f: 0x0001, 0x32a0: 0x0001, 0x32a1: 0x0001, 0x32a2: 0x0001, 0x32a3: 0x0001,",
   "\t0x32a4: 0x0001, 0x32a5: 0x0001, 0x32a6: 0x0001, 0x32a7: 0x0001, 0x32a8: 0x0001, 0x32a9: 0x0001,",
   "\t0x32aa: 0x0001, 0x32ab: 0x0001, 0x32ac: 0x0001, 0x32ad: 0x0001, 0x32ae: 0x0001, 0x32af: 0x0001,",
   "\t0x32b0: 0x0001, 0x32b1: 0x0001, 0x32b2: 0x0001, 0x32b3: 0x0001, 0x32b4: 0x0001, 0x32b5: 0x0001,",
   "\t0x32b7: 0x0001, 0x32b8: 0x0001,",
   "\t0x32bc: 0x0001, 0x32bf: 0x0001,",
   "\t// Block 0xcb, offset 0x32c0",
   "\t0x32c0: 0x0001, 0x32c1: 0x0001, 0x32c2: 0x0001, 0x32c3: 0x0001, 0x32c4: 0x0001, 0x32c5: 0x0001,",
   "\t0x32c6: 0x0001, 0x32c7: 0x0001, 0x32c8: 0x0001, 0x32c9: 0x0001, 0x32ca: 0x0001, 0x32cb: 0x0001,",
   "\t0x32cc: 0x0001, 0x32cd: 0x0001, 0x32ce: 0x0001, 0x32cf: 0x0001, 0x32d0: 0x0001, 0x32d1: 0x0001,",
   "\t0x32d2: 0x0001, 0x32d3: 0x0001, 0x32d4: 0x0001, 0x32d5: 0x0001,",
   "\t0x32e0: 0x0001, 0x32e1: 0x0001, 0x32e2: 0x0001, 0x32e3: 0x0001,",
   "\t0x32e4: 0x0001, 0x32e5: 0x0001, 0x32e6: 0x0001, 0x32e7: 0x0001, 0x32e8: 0x0001, 0x32e9: 0x0001,",
   "\t0x32ea: 0x0001, 0x32eb: 0x0001, 0x32ec: 0x0001, 0x32ed: 0x0001, 0x32ee: 0x0001, 0x32ef: 0x0001,",
   "\t0x32f0: 0x0001, 0x32f1: 0x0001, 0x32f2: 0x0001, 0x32f3: 0x0001, 0x32f4: 0x0001, 0x32f5: 0x0001,",
   "\t0x32f6: 0x0001,",
   "\t// Block 0xcc, offset 0x3300",
   "\t0x3300: 0x0001, 0x3301: 0x0001, 0x3302: 0x0001, 0x3303: 0x0001, 0x3304: 0x0001, 0x3305: 0x0001,",
   "\t0x3306: 0x0001, 0x3307: 0x0001, 0x3308: 0x0001, 0x3309: 0x0001, 0x330a: 0x0001, 0x330b: 0x0001,",
   "\t0x330c: 0x0001, 0x330d: 0x0001, 0x330e: 0x0001, 0x330f: 0x0001, 0x3310: 0x0001, 0x3311: 0x0001,",
   "\t0x3312: 0x0001, 0x3313: 0x0001, 0x3314: 0x0001, 0x3315: 0x0001, 0x3316: 0x0001, 0x3317: 0x0001,",
   "\t0x3318: 0x0001, 0x3319: 0x0001, 0x331a: 0x0001, 0x331b: 0x0001, 0x331c: 0x0001, 0x331d: 0x0001,",
   "\t0x331e: 0x0001,",
   "\t// Block 0xcd, offset 0x3340",
   "\t0x3360: 0x0001, 0x3361: 0x0001, 0x3362: 0x0001, 0x3363: 0x0001,",
   "\t0x3364: 0x0001, 0x3365: 0x0001, 0x3366: 0x0001, 0x3367: 0x0001, 0x3368: 0x0001, 0x3369: 0x0001,",
   "\t0x336a: 0x0001, 0x336b: 0x0001, 0x336c: 0x0001, 0x336d: 0x0001, 0x336e: 0x0001, 0x336f: 0x0001,",
   "\t0x3370: 0x0001, 0x3371: 0x0001, 0x3372: 0x0001, 0x3374: 0x0001, 0x3375: 0x0001,",
   "\t// Block 0xce, offset 0x3380",
   "\t0x3380: 0x0001, 0x3381: 0x0001, 0x3382: 0x0001, 0x3383: 0x0001, 0x3384: 0x0001, 0x3385: 0x0001,",
   "\t0x3386: 0x0001, 0x3387: 0x0001, 0x3388: 0x0001, 0x3389: 0x0001, 0x338a: 0x0001, 0x338b: 0x0001,",
   "\t0x338c: 0x0001, 0x338d: 0x0001, 0x338e: 0x0001, 0x338f: 0x0001, 0x3390: 0x0001, 0x3391: 0x0001,",
   "\t0x3392: 0x0001, 0x3393: 0x0001, 0x3394: 0x0001, 0x3395: 0x0001,",
   "\t0x33a0: 0x0001, 0x33a1: 0x0001, 0x33a2: 0x0001, 0x33a3: 0x0001,",
   "\t0x33a4: 0x0001, 0x33a5: 0x0001, 0x33a6: 0x0001, 0x33a7: 0x0001, 0x33a8: 0x0001, 0x33a9: 0x0001,",
   "\t0x33aa: 0x0001, 0x33ab: 0x0001, 0x33ac: 0x0001, 0x33ad: 0x0001, 0x33ae: 0x0001, 0x33af: 0x0001,",
   "\t0x33b0: 0x0001, 0x33b1: 0x0001, 0x33b2: 0x0001, 0x33b3: 0x0001, 0x33b4: 0x0001, 0x33b5: 0x0001,",
   "\t0x33b6: 0x0001, 0x33b7: 0x0001, 0x33b8: 0x0001, 0x33b9: 0x0001,",
   "\t// Block 0xcf, offset 0x33c0",
   "\t0x33c0: 0x0001, 0x33c1: 0x0001, 0x33c2: 0x0001, 0x33c3: 0x0001, 0x33c4: 0x0001, 0x33c5: 0x0001,",
   "\t0x33c6: 0x0001, 0x33c7: 0x0001, 0x33c8: 0x0001, 0x33c9: 0x0001, 0x33ca: 0x0001, 0x33cb: 0x0001,",
   "\t0x33cc: 0x0001, 0x33cd: 0x0001, 0x33ce: 0x0001, 0x33cf: 0x0001, 0x33d0: 0x0001, 0x33d1: 0x0001,",
   "\t0x33d2: 0x0001, 0x33d3: 0x0001, 0x33d4: 0x0001, 0x33d5: 0x0001, 0x33d6: 0x0001, 0x33d7: 0x0001,",
   "\t0x33d8: 0x0001, 0x33d9: 0x0001,"]
theorem v12_eq : v12 = (layout 6 4 192 ((Table.Values.blocks.drop 192).take 16)).map String.ofList := by
  kernel_rfl
/-- words/trie.go:2083-2209, `wordsValues` from block 0xd0 on. -/
def v13 : List String :=
  ["\t// Block 0xd0, offset 0x3400",
   "\t0x3400: 0x0001, 0x3401: 0x0001, 0x3402: 0x0001, 0x3403: 0x0001, 0x3404: 0x0001, 0x3405: 0x0001,",
   "\t0x3406: 0x0001, 0x3407: 0x0001, 0x3408: 0x0001, 0x3409: 0x0001, 0x340a: 0x0001, 0x340b: 0x0001,",
   "\t0x340c: 0x0001, 0x340d: 0x0001, 0x340e: 0x0001, 0x340f: 0x0001, 0x3410: 0x0001, 0x3411: 0x0001,",
   "\t0x3412: 0x0001, 0x3413: 0x0001, 0x3414: 0x0001, 0x3415: 0x0001, 0x3416: 0x0001, 0x3417: 0x0001,",
   "\t0x3418: 0x0001, 0x3419: 0x0001, 0x341a: 0x0001, 0x341b: 0x0001, 0x341c: 0x0001, 0x341d: 0x0001,",
   "\t0x341e: 0x0001, 0x341f: 0x0001, 0x3420: 0x0001, 0x3421: 0x0001, 0x3422: 0x0001, 0x3423: 0x0001,",
   "\t0x3424: 0x0001, 0x3425: 0x0001, 0x3426: 0x0001, 0x3427: 0x0001, 0x3428: 0x0001, 0x3429: 0x0001,",
   "\t0x342a: 0x0001, 0x342b: 0x0001, 0x342c: 0x0001, 0x342d: 0x0001, 0x342e: 0x0001, 0x342f: 0x0001,",
   "\t0x3430: 0x0001, 0x3431: 0x0001, 0x3432: 0x0001, 0x3433: 0x0001, 0x3434: 0x0001, 0x3435: 0x0001,",
   "\t0x3436: 0x0001, 0x3437: 0x0001,",
   "\t0x343e: 0x0001, 0x343f: 0x0001,",
   "\t// Block 0xd1, offset 0x3440",
   "\t0x3440: 0x0001, 0x3441: 0x0010, 0x3442: 0x0010, 0x3443: 0x0010, 0x3445: 0x0010,",
   "\t0x3446: 0x0010,",
   "\t0x344c: 0x0010, 0x344d: 0x0010, 0x344e: 0x0010, 0x344f: 0x0010, 0x3450: 0x0001, 0x3451: 0x0001,",
   "\t0x3452: 0x0001, 0x3453: 0x0001, 0x3455: 0x0001, 0x3456: 0x0001, 0x3457: 0x0001,",
   "\t0x3459: 0x0001, 0x345a: 0x0001, 0x345b: 0x0001, 0x345c: 0x0001, 0x345d: 0x0001,",
   "\t0x345e: 0x0001, 0x345f: 0x0001, 0x3460: 0x0001, 0x3461: 0x0001, 0x3462: 0x0001, 0x3463: 0x0001,",
   "\t0x3464: 0x0001, 0x3465: 0x0001, 0x3466: 0x0001, 0x3467: 0x0001, 0x3468: 0x0001, 0x3469: 0x0001,",
   "\t0x346a: 0x0001, 0x346b: 0x0001, 0x346c: 0x0001, 0x346d: 0x0001, 0x346e: 0x0001, 0x346f: 0x0001,",
   "\t0x3470: 0x0001, 0x3471: 0x0001, 0x3472: 0x0001, 0x3473: 0x0001, 0x3474: 0x0001, 0x3475: 0x0001,",
   "\t0x3478: 0x0010, 0x3479: 0x0010, 0x347a: 0x0010,",
   "\t0x347f: 0x0010,",
   "\t// Block 0xd2, offset 0x3480",
   "\t0x34a0: 0x0001, 0x34a1: 0x0001, 0x34a2: 0x0001, 0x34a3: 0x0001,",
   "\t0x34a4: 0x0001, 0x34a5: 0x0001, 0x34a6: 0x0001, 0x34a7: 0x0001, 0x34a8: 0x0001, 0x34a9: 0x0001,",
   "\t0x34aa: 0x0001, 0x34ab: 0x0001, 0x34ac: 0x0001, 0x34ad: 0x0001, 0x34ae: 0x0001, 0x34af: 0x0001,",
   "\t0x34b0: 0x0001, 0x34b1: 0x0001, 0x34b2: 0x0001, 0x34b3: 0x0001, 0x34b4: 0x0001, 0x34b5: 0x0001,",
   "\t0x34b6: 0x0001, 0x34b7: 0x0001, 0x34b8: 0x0001, 0x34b9: 0x0001, 0x34ba: 0x0001, 0x34bb: 0x0001,",
   "\t0x34bc: 0x0001,",
   "\t// Block 0xd3, offset 0x34c0",
   "\t0x34c0: 0x0001, 0x34c1: 0x0001, 0x34c2: 0x0001, 0x34c3: 0x0001, 0x34c4: 0x0001, 0x34c5: 0x0001,",
   "\t0x34c6: 0x0001, 0x34c7: 0x0001, 0x34c8: 0x0001, 0x34c9: 0x0001, 0x34ca: 0x0001, 0x34cb: 0x0001,",
   "\t0x34cc: 0x0001, 0x34cd: 0x0001, 0x34ce: 0x0001, 0x34cf: 0x0001, 0x34d0: 0x0001, 0x34d1: 0x0001,",
   "\t0x34d2: 0x0001, 0x34d3: 0x0001, 0x34d4: 0x0001, 0x34d5: 0x0001, 0x34d6: 0x0001, 0x34d7: 0x0001,",
   "\t0x34d8: 0x0001, 0x34d9: 0x0001, 0x34da: 0x0001, 0x34db: 0x0001, 0x34dc: 0x0001,",
   "\t// Block 0xd4, offset 0x3500",
   "\t0x3500: 0x0001, 0x3501: 0x0001, 0x3502: 0x0001, 0x3503: 0x0001, 0x3504: 0x0001, 0x3505: 0x0001,",
   "\t0x3506: 0x0001, 0x3507: 0x0001, 0x3509: 0x0001, 0x350a: 0x0001, 0x350b: 0x0001,",
   "\t0x350c: 0x0001, 0x350d: 0x0001, 0x350e: 0x0001, 0x350f: 0x0001, 0x3510: 0x0001, 0x3511: 0x0001,",
   "\t0x3512: 0x0001, 0x3513: 0x0001, 0x3514: 0x0001, 0x3515: 0x0001, 0x3516: 0x0001, 0x3517: 0x0001,",
   "\t0x3518: 0x0001, 0x3519: 0x0001, 0x351a: 0x0001, 0x351b: 0x0001, 0x351c: 0x0001, 0x351d: 0x0001,",
   "\t0x351e: 0x0001, 0x351f: 0x0001, 0x3520: 0x0001, 0x3521: 0x0001, 0x3522: 0x0001, 0x3523: 0x0001,",
   "\t0x3524: 0x0001, 0x3525: 0x0010, 0x3526: 0x0010,",
   "\t// Block 0xd5, offset 0x3540",
   "\t0x3540: 0x0001, 0x3541: 0x0001, 0x3542: 0x0001, 0x3543: 0x0001, 0x3544: 0x0001, 0x3545: 0x0001,",
   "\t0x3546: 0x0001, 0x3547: 0x0001, 0x3548: 0x0001, 0x3549: 0x0001, 0x354a: 0x0001, 0x354b: 0x0001,",
   "\t0x354c: 0x0001, 0x354d: 0x0001, 0x354e: 0x0001, 0x354f: 0x0001, 0x3550: 0x0001, 0x3551: 0x0001,",
   "\t0x3552: 0x0001, 0x3553: 0x0001, 0x3554: 0x0001, 0x3555: 0x0001,",
   "\t0x3560: 0x0001, 0x3561: 0x0001, 0x3562: 0x0001, 0x3563: 0x0001,",
   "\t0x3564: 0x0001, 0x3565: 0x0001, 0x3566: 0x0001, 0x3567: 0x0001, 0x3568: 0x0001, 0x3569: 0x0001,",
   "\t0x356a: 0x0001, 0x356b: 0x0001, 0x356c: 0x0001, 0x356d: 0x0001, 0x356e: 0x0001, 0x356f: 0x0001,",
   "\t0x3570: 0x0001, 0x3571: 0x0001, 0x3572: 0x0001,",
   "\t// Block 0xd6, offset 0x3580",
   "\t0x3580: 0x0001, 0x3581: 0x0001, 0x3582: 0x0001, 0x3583: 0x0001, 0x3584: 0x0001, 0x3585: 0x0001,",
   "\t0x3586: 0x0001, 0x3587: 0x0001, 0x3588: 0x0001, 0x3589: 0x0001, 0x358a: 0x0001, 0x358b: 0x0001,",
   "\t0x358c: 0x0001, 0x358d: 0x0001, 0x358e: 0x0001, 0x358f: 0x0001, 0x3590: 0x0001, 0x3591: 0x0001,",
   "\t// Block 0xd7, offset 0x35c0",
   "\t0x35c0: 0x0001, 0x35c1: 0x0001, 0x35c2: 0x0001, 0x35c3: 0x0001, 0x35c4: 0x0001, 0x35c5: 0x0001,",
   "\t0x35c6: 0x0001, 0x35c7: 0x0001, 0x35c8: 0x0001,",
   "\t// Block 0xd8, offset 0x3600",
   "\t0x3600: 0x0001, 0x3601: 0x0001, 0x3602: 0x0001, 0x3603: 0x0001, 0x3604: 0x0001, 0x3605: 0x0001,",
   "\t0x3606: 0x0001, 0x3607: 0x0001, 0x3608: 0x0001, 0x3609: 0x0001, 0x360a: 0x0001, 0x360b: 0x0001,",
   "\t0x360c: 0x0001, 0x360d: 0x0001, 0x360e: 0x0001, 0x360f: 0x0001, 0x3610: 0x0001, 0x3611: 0x0001,",
   "\t0x3612: 0x0001, 0x3613: 0x0001, 0x3614: 0x0001, 0x3615: 0x0001, 0x3616: 0x0001, 0x3617: 0x0001,",
   "\t0x3618: 0x0001, 0x3619: 0x0001, 0x361a: 0x0001, 0x361b: 0x0001, 0x361c: 0x0001, 0x361d: 0x0001,",
   "\t0x361e: 0x0001, 0x361f: 0x0001, 0x3620: 0x0001, 0x3621: 0x0001, 0x3622: 0x0001, 0x3623: 0x0001,",
   "\t0x3624: 0x0001, 0x3625: 0x0001, 0x3626: 0x0001, 0x3627: 0x0001, 0x3628: 0x0001, 0x3629: 0x0001,",
   "\t0x362a: 0x0001, 0x362b: 0x0001, 0x362c: 0x0001, 0x362d: 0x0001, 0x362e: 0x0001, 0x362f: 0x0001,",
   "\t0x3630: 0x0001, 0x3631: 0x0001, 0x3632: 0x0001,",
   "\t// Block 0xd9, offset 0x3640",
   "\t0x3640: 0x0001, 0x3641: 0x0001, 0x3642: 0x0001, 0x3643: 0x0001, 0x3644: 0x0001, 0x3645: 0x0001,",
   "\t0x3646: 0x0001, 0x3647: 0x0001, 0x3648: 0x0001, 0x3649: 0x0001, 0x364a: 0x0001, 0x364b: 0x0001,",
   "\t0x364c: 0x0001, 0x364d: 0x0001, 0x364e: 0x0001, 0x364f: 0x0001, 0x3650: 0x0001, 0x3651: 0x0001,",
   "\t0x3652: 0x0001, 0x3653: 0x0001, 0x3654: 0x0001, 0x3655: 0x0001, 0x3656: 0x0001, 0x3657: 0x0001,",
   "\t0x3658: 0x0001, 0x3659: 0x0001, 0x365a: 0x0001, 0x365b: 0x0001, 0x365c: 0x0001, 0x365d: 0x0001,",
   "\t0x365e: 0x0001, 0x365f: 0x0001, 0x3660: 0x0001, 0x3661: 0x0001, 0x3662: 0x0001, 0x3663: 0x0001,",
   "\t0x3664: 0x0010, 0x3665: 0x0010, 0x3666: 0x0010, 0x3667: 0x0010,",
   "\t0x3670: 0x8000, 0x3671: 0x8000, 0x3672: 0x8000, 0x3673: 0x8000, 0x3674: 0x8000, 0x3675: 0x8000,",
   "\t0x3676: 0x8000, 0x3677: 0x8000, 0x3678: 0x8000, 0x3679: 0x8000,",
   "\t// Block 0xda, offset 0x3680",
   "\t0x3680: 0x8000, 0x3681: 0x8000, 0x3682: 0x8000, 0x3683: 0x8000, 0x3684: 0x8000, 0x3685: 0x8000,",
   "\t0x3686: 0x8000, 0x3687: 0x8000, 0x3688: 0x8000, 0x3689: 0x8000, 0x368a: 0x0001, 0x368b: 0x0001,",
   "\t0x368c: 0x0001, 0x368d: 0x0001, 0x368e: 0x0001, 0x368f: 0x0001, 0x3690: 0x0001, 0x3691: 0x0001,",
   "\t0x3692: 0x0001, 0x3693: 0x0001, 0x3694: 0x0001, 0x3695: 0x0001, 0x3696: 0x0001, 0x3697: 0x0001,",
   "\t0x3698: 0x0001, 0x3699: 0x0001, 0x369a: 0x0001, 0x369b: 0x0001, 0x369c: 0x0001, 0x369d: 0x0001,",
   "\t0x369e: 0x0001, 0x369f: 0x0001, 0x36a0: 0x0001, 0x36a1: 0x0001, 0x36a2: 0x0001, 0x36a3: 0x0001,",
   "\t0x36a4: 0x0001, 0x36a5: 0x0001, 0x36a9: 0x0010,",
   "\t0x36aa: 0x0010, 0x36ab: 0x0010, 0x36ac: 0x0010, 0x36ad: 0x0010, 0x36af: 0x0001,",
   "\t0x36b0: 0x0001, 0x36b1: 0x0001, 0x36b2: 0x0001, 0x36b3: 0x0001, 0x36b4: 0x0001, 0x36b5: 0x0001,",
   "\t0x36b6: 0x0001, 0x36b7: 0x0001, 0x36b8: 0x0001, 0x36b9: 0x0001, 0x36ba: 0x0001, 0x36bb: 0x0001,",
   "\t0x36bc: 0x0001, 0x36bd: 0x0001, 0x36be: 0x0001, 0x36bf: 0x0001,",
   "\t// Block 0xdb, offset 0x36c0",
   "\t0x36c0: 0x0001, 0x36c1: 0x0001, 0x36c2: 0x0001, 0x36c3: 0x0001, 0x36c4: 0x0001, 0x36c5: 0x0001,",
   "\t// Block 0xdc, offset 0x3700",
   "\t0x3700: 0x0001, 0x3701: 0x0001, 0x3702: 0x0001, 0x3703: 0x0001, 0x3704: 0x0001, 0x3705: 0x0001,",
   "\t0x3706: 0x0001, 0x3707: 0x0001, 0x3708: 0x0001, 0x3709: 0x0001, 0x370a: 0x0001, 0x370b: 0x0001,",
   "\t0x370c: 0x0001, 0x370d: 0x0001, 0x370e: 0x0001, 0x370f: 0x0001, 0x3710: 0x0001, 0x3711: 0x0001,",
   "\t0x3712: 0x0001, 0x3713: 0x0001, 0x3714: 0x0001, 0x3715: 0x0001, 0x3716: 0x0001, 0x3717: 0x0001,",
   "\t0x3718: 0x0001, 0x3719: 0x0001, 0x371a: 0x0001, 0x371b: 0x0001, 0x371c: 0x0001, 0x371d: 0x0001,",
   "\t0x371e: 0x0001, 0x371f: 0x0001, 0x3720: 0x0001, 0x3721: 0x0001, 0x3722: 0x0001, 0x3723: 0x0001,",
   "\t0x3724: 0x0001, 0x3725: 0x0001, 0x3726: 0x0001, 0x3727: 0x0001, 0x3728: 0x0001, 0x3729: 0x0001,",
   "\t0x372b: 0x0010, 0x372c: 0x0010,",
   "\t0x3730: 0x0001, 0x3731: 0x0001,",
   "\t// Block 0xdd, offset 0x3740",
   "\t0x3742: 0x0001, 0x3743: 0x0001, 0x3744: 0x0001, 0x3745: 0x0001,",
   "\t0x3746: 0x0001, 0x3747: 0x0001,",
   "\t0x377a: 0x0010, 0x377b: 0x0010,",
   "\t0x377c: 0x0010, 0x377d: 0x0010, 0x377e: 0x0010, 0x377f: 0x0010,",
   "\t// Block 0xde, offset 0x3780",
   "\t0x3780: 0x0001, 0x3781: 0x0001, 0x3782: 0x0001, 0x3783: 0x0001, 0x3784: 0x0001, 0x3785: 0x0001,",
   "\t0x3786: 0x0001, 0x3787: 0x0001, 0x3788: 0x0001, 0x3789: 0x0001, 0x378a: 0x0001, 0x378b: 0x0001,",
   "\t0x378c: 0x0001, 0x378d: 0x0001, 0x378e: 0x0001, 0x378f: 0x0001, 0x3790: 0x0001, 0x3791: 0x0001,",
   "\t0x3792: 0x0001, 0x3793: 0x0001, 0x3794: 0x0001, 0x3795: 0x0001, 0x3796: 0x0001, 0x3797: 0x0001,",
   "\t0x3798: 0x0001, 0x3799: 0x0001, 0x379a: 0x0001, 0x379b: 0x0001, 0x379c: 0x0001,",
   "\t0x37a7: 0x0001,",
   "\t0x37b0: 0x0001, 0x37b1: 0x0001, 0x37b2: 0x0001, 0x37b3: 0x0001, 0x37b4: 0x0001, 0x37b5: 0x0001,",
   "\t0x37b6: 0x0001, 0x37b7: 0x0001, 0x37b8: 0x0001, 0x37b9: 0x0001, 0x37ba: 0x0001, 0x37bb: 0x0001,",
   "\t0x37bc: 0x0001, 0x37bd: 0x0001, 0x37be: 0x0001, 0x37bf: 0x0001,",
   "\t// Block 0xdf, offset 0x37c0",
   "\t0x37c0: 0x0001, 0x37c1: 0x0001, 0x37c2: 0x0001, 0x37c3: 0x0001, 0x37c4: 0x0001, 0x37c5: 0x0001,",
   "\t0x37c6: 0x0010, 0x37c7: 0x0010, 0x37c8: 0x0010, 0x37c9: 0x0010, 0x37ca: 0x0010, 0x37cb: 0x0010,",
   "\t0x37cc: 0x0010, 0x37cd: 0x0010, 0x37ce: 0x0010, 0x37cf: 0x0010, 0x37d0: 0x0010,",
   "\t0x37f0: 0x0001, 0x37f1: 0x0001, 0x37f2: 0x0001, 0x37f3: 0x0001, 0x37f4: 0x0001, 0x37f5: 0x0001,",
   "\t0x37f6: 0x0001, 0x37f7: 0x0001, 0x37f8: 0x0001, 0x37f9: 0x0001, 0x37fa: 0x0001, 0x37fb: 0x0001,",
   "\t0x37fc: 0x0001, 0x37fd: 0x0001, 0x37fe: 0x0001, 0x37ff: 0x0001,"]
theorem v13_eq : v13 = (layout 6 4 208 ((Table.Values.blocks.drop 208).take 16)).map String.ofList := by
  kernel_rfl
/-- words/trie.go:2210-2360, `wordsValues` from block 0xe0 on. -/
def v14 : List String :=
  ["\t// Block 0xe0, offset 0x3800",
   "\t0x3800: 0x0001, 0x3801: 0x0001, 0x3802: 0x0010, 0x3803: 0x0010, 0x3804: 0x0010, 0x3805: 0x0010,",
   "\t0x3830: 0x0001, 0x3831: 0x0001, 0x3832: 0x0001, 0x3833: 0x0001, 0x3834: 0x0001, 0x3835: 0x0001,",
   "\t0x3836: 0x0001, 0x3837: 0x0001, 0x3838: 0x0001, 0x3839: 0x0001, 0x383a: 0x0001, 0x383b: 0x0001,",
   "\t0x383c: 0x0001, 0x383d: 0x0001, 0x383e: 0x0001, 0x383f: 0x0001,",
   "\t// Block 0xe1, offset 0x3840",
   "\t0x3840: 0x0001, 0x3841: 0x0001, 0x3842: 0x0001, 0x3843: 0x0001, 0x3844: 0x0001,",
   "\t0x3860: 0x0001, 0x3861: 0x0001, 0x3862: 0x0001, 0x3863: 0x0001,",
   "\t0x3864: 0x0001, 0x3865: 0x0001, 0x3866: 0x0001, 0x3867: 0x0001, 0x3868: 0x0001, 0x3869: 0x0001,",
   "\t0x386a: 0x0001, 0x386b: 0x0001, 0x386c: 0x0001, 0x386d: 0x0001, 0x386e: 0x0001, 0x386f: 0x0001,",
   "\t0x3870: 0x0001, 0x3871: 0x0001, 0x3872: 0x0001, 0x3873: 0x0001, 0x3874: 0x0001, 0x3875: 0x0001,",
   "\t0x3876: 0x0001,",
   "\t// Block 0xe2, offset 0x3880",
   "\t0x3880: 0x0010, 0x3881: 0x0010, 0x3882: 0x0010, 0x3883: 0x0001, 0x3884: 0x0001, 0x3885: 0x0001,",
   "\t0x3886: 0x0001, 0x3887: 0x0001, 0x3888: 0x0001, 0x3889: 0x0001, 0x388a: 0x0001, 0x388b: 0x0001,",
   "\t0x388c: 0x0001, 0x388d: 0x0001, 0x388e: 0x0001, 0x388f: 0x0001, 0x3890: 0x0001, 0x3891: 0x0001,",
   "\t0x3892: 0x0001, 0x3893: 0x0001, 0x3894: 0x0001, 0x3895: 0x0001, 0x3896: 0x0001, 0x3897: 0x0001,",
   "\t0x3898: 0x0001, 0x3899: 0x0001, 0x389a: 0x0001, 0x389b: 0x0001, 0x389c: 0x0001, 0x389d: 0x0001,",
   "\t0x389e: 0x0001, 0x389f: 0x0001, 0x38a0: 0x0001, 0x38a1: 0x0001, 0x38a2: 0x0001, 0x38a3: 0x0001,",
   "\t0x38a4: 0x0001, 0x38a5: 0x0001, 0x38a6: 0x0001, 0x38a7: 0x0001, 0x38a8: 0x0001, 0x38a9: 0x0001,",
   "\t0x38aa: 0x0001, 0x38ab: 0x0001, 0x38ac: 0x0001, 0x38ad: 0x0001, 0x38ae: 0x0001, 0x38af: 0x0001,",
   "\t0x38b0: 0x0001, 0x38b1: 0x0001, 0x38b2: 0x0001, 0x38b3: 0x0001, 0x38b4: 0x0001, 0x38b5: 0x0001,",
   "\t0x38b6: 0x0001, 0x38b7: 0x0001, 0x38b8: 0x0010, 0x38b9: 0x0010, 0x38ba: 0x0010, 0x38bb: 0x0010,",
   "\t0x38bc: 0x0010, 0x38bd: 0x0010, 0x38be: 0x0010, 0x38bf: 0x0010,",
   "\t// Block 0xe3, offset 0x38c0",
   "\t0x38c0: 0x0010, 0x38c1: 0x0010, 0x38c2: 0x0010, 0x38c3: 0x0010, 0x38c4: 0x0010, 0x38c5: 0x0010,",
   "\t0x38c6: 0x0010,",
   "\t0x38e6: 0x8000, 0x38e7: 0x8000, 0x38e8: 0x8000, 0x38e9: 0x8000,",
   "\t0x38ea: 0x8000, 0x38eb: 0x8000, 0x38ec: 0x8000, 0x38ed: 0x8000, 0x38ee: 0x8000, 0x38ef: 0x8000,",
   "\t0x38f0: 0x0010, 0x38f1: 0x0001, 0x38f2: 0x0001, 0x38f3: 0x0010, 0x38f4: 0x0010, 0x38f5: 0x0001,",
   "\t0x38ff: 0x0010,",
   "\t// Block 0xe4, offset 0x3900",
   "\t0x3900: 0x0010, 0x3901: 0x0010, 0x3902: 0x0010, 0x3903: 0x0001, 0x3904: 0x0001, 0x3905: 0x0001,",
   "\t0x3906: 0x0001, 0x3907: 0x0001, 0x3908: 0x0001, 0x3909: 0x0001, 0x390a: 0x0001, 0x390b: 0x0001,",
   "\t0x390c: 0x0001, 0x390d: 0x0001, 0x390e: 0x0001, 0x390f: 0x0001, 0x3910: 0x0001, 0x3911: 0x0001,",
   "\t0x3912: 0x0001, 0x3913: 0x0001, 0x3914: 0x0001, 0x3915: 0x0001, 0x3916: 0x0001, 0x3917: 0x0001,",
   "\t0x3918: 0x0001, 0x3919: 0x0001, 0x391a: 0x0001, 0x391b: 0x0001, 0x391c: 0x0001, 0x391d: 0x0001,",
   "\t0x391e: 0x0001, 0x391f: 0x0001, 0x3920: 0x0001, 0x3921: 0x0001, 0x3922: 0x0001, 0x3923: 0x0001,",
   "\t0x3924: 0x0001, 0x3925: 0x0001, 0x3926: 0x0001, 0x3927: 0x0001, 0x3928: 0x0001, 0x3929: 0x0001,",
   "\t0x392a: 0x0001, 0x392b: 0x0001, 0x392c: 0x0001, 0x392d: 0x0001, 0x392e: 0x0001, 0x392f: 0x0001,",
   "\t0x3930: 0x0010, 0x3931: 0x0010, 0x3932: 0x0010, 0x3933: 0x0010, 0x3934: 0x0010, 0x3935: 0x0010,",
   "\t0x3936: 0x0010, 0x3937: 0x0010, 0x3938: 0x0010, 0x3939: 0x0010, 0x393a: 0x0010,",
   "\t0x393d: 0x8000,",
   "\t// Block 0xe5, offset 0x3940",
   "\t0x3942: 0x0010,",
   "\t0x394d: 0x8000, 0x3950: 0x0001, 0x3951: 0x0001,",
   "\t0x3952: 0x0001, 0x3953: 0x0001, 0x3954: 0x0001, 0x3955: 0x0001, 0x3956: 0x0001, 0x3957: 0x0001,",
   "\t0x3958: 0x0001, 0x3959: 0x0001, 0x395a: 0x0001, 0x395b: 0x0001, 0x395c: 0x0001, 0x395d: 0x0001,",
   "\t0x395e: 0x0001, 0x395f: 0x0001, 0x3960: 0x0001, 0x3961: 0x0001, 0x3962: 0x0001, 0x3963: 0x0001,",
   "\t0x3964: 0x0001, 0x3965: 0x0001, 0x3966: 0x0001, 0x3967: 0x0001, 0x3968: 0x0001,",
   "\t0x3970: 0x8000, 0x3971: 0x8000, 0x3972: 0x8000, 0x3973: 0x8000, 0x3974: 0x8000, 0x3975: 0x8000,",
   "\t0x3976: 0x8000, 0x3977: 0x8000, 0x3978: 0x8000, 0x3979: 0x8000,",
   "\t// Block 0xe6, offset 0x3980",
   "\t0x3980: 0x0010, 0x3981: 0x0010, 0x3982: 0x0010, 0x3983: 0x0001, 0x3984: 0x0001, 0x3985: 0x0001,",
   "\t0x3986: 0x0001, 0x3987: 0x0001, 0x3988: 0x0001, 0x3989: 0x0001, 0x398a: 0x0001, 0x398b: 0x0001,",
   "\t0x398c: 0x0001, 0x398d: 0x0001, 0x398e: 0x0001, 0x398f: 0x0001, 0x3990: 0x0001, 0x3991: 0x0001,",
   "\t0x3992: 0x0001, 0x3993: 0x0001, 0x3994: 0x0001, 0x3995: 0x0001, 0x3996: 0x0001, 0x3997: 0x0001,",
   "\t0x3998: 0x0001, 0x3999: 0x0001, 0x399a: 0x0001, 0x399b: 0x0001, 0x399c: 0x0001, 0x399d: 0x0001,",
   "\t0x399e: 0x0001, 0x399f: 0x0001, 0x39a0: 0x0001, 0x39a1: 0x0001, 0x39a2: 0x0001, 0x39a3: 0x0001,",
   "\t0x39a4: 0x0001, 0x39a5: 0x0001, 0x39a6: 0x0001, 0x39a7: 0x0010, 0x39a8: 0x0010, 0x39a9: 0x0010,",
   "\t0x39aa: 0x0010, 0x39ab: 0x0010, 0x39ac: 0x0010, 0x39ad: 0x0010, 0x39ae: 0x0010, 0x39af: 0x0010,",
   "\t0x39b0: 0x0010, 0x39b1: 0x0010, 0x39b2: 0x0010, 0x39b3: 0x0010, 0x39b4: 0x0010,",
   "\t0x39b6: 0x8000, 0x39b7: 0x8000, 0x39b8: 0x8000, 0x39b9: 0x8000, 0x39ba: 0x8000, 0x39bb: 0x8000,",
   "\t0x39bc: 0x8000, 0x39bd: 0x8000, 0x39be: 0x8000, 0x39bf: 0x8000,",
   "\t// Block 0xe7, offset 0x39c0",
   "\t0x39c4: 0x0001, 0x39c5: 0x0010,",
   "\t0x39c6: 0x0010, 0x39c7: 0x0001,",
   "\t0x39d0: 0x0001, 0x39d1: 0x0001,",
   "\t0x39d2: 0x0001, 0x39d3: 0x0001, 0x39d4: 0x0001, 0x39d5: 0x0001, 0x39d6: 0x0001, 0x39d7: 0x0001,",
   "\t0x39d8: 0x0001, 0x39d9: 0x0001, 0x39da: 0x0001, 0x39db: 0x0001, 0x39dc: 0x0001, 0x39dd: 0x0001,",
   "\t0x39de: 0x0001, 0x39df: 0x0001, 0x39e0: 0x0001, 0x39e1: 0x0001, 0x39e2: 0x0001, 0x39e3: 0x0001,",
   "\t0x39e4: 0x0001, 0x39e5: 0x0001, 0x39e6: 0x0001, 0x39e7: 0x0001, 0x39e8: 0x0001, 0x39e9: 0x0001,",
   "\t0x39ea: 0x0001, 0x39eb: 0x0001, 0x39ec: 0x0001, 0x39ed: 0x0001, 0x39ee: 0x0001, 0x39ef: 0x0001,",
   "\t0x39f0: 0x0001, 0x39f1: 0x0001, 0x39f2: 0x0001, 0x39f3: 0x0010,",
   "\t0x39f6: 0x0001,",
   "\t// Block 0xe8, offset 0x3a00",
   "\t0x3a00: 0x0010, 0x3a01: 0x0010, 0x3a02: 0x0010, 0x3a03: 0x0001, 0x3a04: 0x0001, 0x3a05: 0x0001,",
   "\t0x3a06: 0x0001, 0x3a07: 0x0001, 0x3a08: 0x0001, 0x3a09: 0x0001, 0x3a0a: 0x0001, 0x3a0b: 0x0001,",
   "\t0x3a0c: 0x0001, 0x3a0d: 0x0001, 0x3a0e: 0x0001, 0x3a0f: 0x0001, 0x3a10: 0x0001, 0x3a11: 0x0001,",
   "\t0x3a12: 0x0001, 0x3a13: 0x0001, 0x3a14: 0x0001, 0x3a15: 0x0001, 0x3a16: 0x0001, 0x3a17: 0x0001,",
   "\t0x3a18: 0x0001, 0x3a19: 0x0001, 0x3a1a: 0x0001, 0x3a1b: 0x0001, 0x3a1c: 0x0001, 0x3a1d: 0x0001,",
   "\t0x3a1e: 0x0001, 0x3a1f: 0x0001, 0x3a20: 0x0001, 0x3a21: 0x0001, 0x3a22: 0x0001, 0x3a23: 0x0001,",
   "\t0x3a24: 0x0001, 0x3a25: 0x0001, 0x3a26: 0x0001, 0x3a27: 0x0001, 0x3a28: 0x0001, 0x3a29: 0x0001,",
   "\t0x3a2a: 0x0001, 0x3a2b: 0x0001, 0x3a2c: 0x0001, 0x3a2d: 0x0001, 0x3a2e: 0x0001, 0x3a2f: 0x0001,",
   "\t0x3a30: 0x0001, 0x3a31: 0x0001, 0x3a32: 0x0001, 0x3a33: 0x0010, 0x3a34: 0x0010, 0x3a35: 0x0010,",
   "\t0x3a36: 0x0010, 0x3a37: 0x0010, 0x3a38: 0x0010, 0x3a39: 0x0010, 0x3a3a: 0x0010, 0x3a3b: 0x0010,",
   "\t0x3a3c: 0x0010, 0x3a3d: 0x0010, 0x3a3e: 0x0010, 0x3a3f: 0x0010,",
   "\t// Block 0xe9, offset 0x3a40",
   "\t0x3a40: 0x0010, 0x3a41: 0x0001, 0x3a42: 0x0001, 0x3a43: 0x0001, 0x3a44: 0x0001,",
   "\t0x3a49: 0x0010, 0x3a4a: 0x0010, 0x3a4b: 0x0010,",
   "\t0x3a4c: 0x0010, 0x3a4e: 0x0010, 0x3a4f: 0x0010, 0x3a50: 0x8000, 0x3a51: 0x8000,",
   "\t0x3a52: 0x8000, 0x3a53: 0x8000, 0x3a54: 0x8000, 0x3a55: 0x8000, 0x3a56: 0x8000, 0x3a57: 0x8000,",
   "\t0x3a58: 0x8000, 0x3a59: 0x8000, 0x3a5a: 0x0001, 0x3a5c: 0x0001,",
   "\t// Block 0xea, offset 0x3a80",
   "\t0x3a80: 0x0001, 0x3a81: 0x0001, 0x3a82: 0x0001, 0x3a83: 0x0001, 0x3a84: 0x0001, 0x3a85: 0x0001,",
   "\t0x3a86: 0x0001, 0x3a87: 0x0001, 0x3a88: 0x0001, 0x3a89: 0x0001, 0x3a8a: 0x0001, 0x3a8b: 0x0001,",
   "\t0x3a8c: 0x0001, 0x3a8d: 0x0001, 0x3a8e: 0x0001, 0x3a8f: 0x0001, 0x3a90: 0x0001, 0x3a91: 0x0001,",
   "\t0x3a93: 0x0001, 0x3a94: 0x0001, 0x3a95: 0x0001, 0x3a96: 0x0001, 0x3a97: 0x0001,",
   "\t0x3a98: 0x0001, 0x3a99: 0x0001, 0x3a9a: 0x0001, 0x3a9b: 0x0001, 0x3a9c: 0x0001, 0x3a9d: 0x0001,",
   "\t0x3a9e: 0x0001, 0x3a9f: 0x0001, 0x3aa0: 0x0001, 0x3aa1: 0x0001, 0x3aa2: 0x0001, 0x3aa3: 0x0001,",
   "\t0x3aa4: 0x0001, 0x3aa5: 0x0001, 0x3aa6: 0x0001, 0x3aa7: 0x0001, 0x3aa8: 0x0001, 0x3aa9: 0x0001,",
   "\t0x3aaa: 0x0001, 0x3aab: 0x0001, 0x3aac: 0x0010, 0x3aad: 0x0010, 0x3aae: 0x0010, 0x3aaf: 0x0010,",
   "\t0x3ab0: 0x0010, 0x3ab1: 0x0010, 0x3ab2: 0x0010, 0x3ab3: 0x0010, 0x3ab4: 0x0010, 0x3ab5: 0x0010,",
   "\t0x3ab6: 0x0010, 0x3ab7: 0x0010,",
   "\t0x3abe: 0x0010, 0x3abf: 0x0001,",
   "\t// Block 0xeb, offset 0x3ac0",
   "\t0x3ac0: 0x0001, 0x3ac1: 0x0010,",
   "\t// Block 0xec, offset 0x3b00",
   "\t0x3b00: 0x0001, 0x3b01: 0x0001, 0x3b02: 0x0001, 0x3b03: 0x0001, 0x3b04: 0x0001, 0x3b05: 0x0001,",
   "\t0x3b06: 0x0001, 0x3b08: 0x0001, 0x3b0a: 0x0001, 0x3b0b: 0x0001,",
   "\t0x3b0c: 0x0001, 0x3b0d: 0x0001, 0x3b0f: 0x0001, 0x3b10: 0x0001, 0x3b11: 0x0001,",
   "\t0x3b12: 0x0001, 0x3b13: 0x0001, 0x3b14: 0x0001, 0x3b15: 0x0001, 0x3b16: 0x0001, 0x3b17: 0x0001,",
   "\t0x3b18: 0x0001, 0x3b19: 0x0001, 0x3b1a: 0x0001, 0x3b1b: 0x0001, 0x3b1c: 0x0001, 0x3b1d: 0x0001,",
   "\t0x3b1f: 0x0001, 0x3b20: 0x0001, 0x3b21: 0x0001, 0x3b22: 0x0001, 0x3b23: 0x0001,",
   "\t0x3b24: 0x0001, 0x3b25: 0x0001, 0x3b26: 0x0001, 0x3b27: 0x0001, 0x3b28: 0x0001,",
   "\t0x3b30: 0x0001, 0x3b31: 0x0001, 0x3b32: 0x0001, 0x3b33: 0x0001, 0x3b34: 0x0001, 0x3b35: 0x0001,",
   "\t0x3b36: 0x0001, 0x3b37: 0x0001, 0x3b38: 0x0001, 0x3b39: 0x0001, 0x3b3a: 0x0001, 0x3b3b: 0x0001,",
   "\t0x3b3c: 0x0001, 0x3b3d: 0x0001, 0x3b3e: 0x0001, 0x3b3f: 0x0001,",
   "\t// Block 0xed, offset 0x3b40",
   "\t0x3b40: 0x0001, 0x3b41: 0x0001, 0x3b42: 0x0001, 0x3b43: 0x0001, 0x3b44: 0x0001, 0x3b45: 0x0001,",
   "\t0x3b46: 0x0001, 0x3b47: 0x0001, 0x3b48: 0x0001, 0x3b49: 0x0001, 0x3b4a: 0x0001, 0x3b4b: 0x0001,",
   "\t0x3b4c: 0x0001, 0x3b4d: 0x0001, 0x3b4e: 0x0001, 0x3b4f: 0x0001, 0x3b50: 0x0001, 0x3b51: 0x0001,",
   "\t0x3b52: 0x0001, 0x3b53: 0x0001, 0x3b54: 0x0001, 0x3b55: 0x0001, 0x3b56: 0x0001, 0x3b57: 0x0001,",
   "\t0x3b58: 0x0001, 0x3b59: 0x0001, 0x3b5a: 0x0001, 0x3b5b: 0x0001, 0x3b5c: 0x0001, 0x3b5d: 0x0001,",
   "\t0x3b5e: 0x0001, 0x3b5f: 0x0010, 0x3b60: 0x0010, 0x3b61: 0x0010, 0x3b62: 0x0010, 0x3b63: 0x0010,",
   "\t0x3b64: 0x0010, 0x3b65: 0x0010, 0x3b66: 0x0010, 0x3b67: 0x0010, 0x3b68: 0x0010, 0x3b69: 0x0010,",
   "\t0x3b6a: 0x0010,",
   "\t0x3b70: 0x8000, 0x3b71: 0x8000, 0x3b72: 0x8000, 0x3b73: 0x8000, 0x3b74: 0x8000, 0x3b75: 0x8000,",
   "\t0x3b76: 0x8000, 0x3b77: 0x8000, 0x3b78: 0x8000, 0x3b79: 0x8000,",
   "\t// Block 0xee, offset 0x3b80",
   "\t0x3b80: 0x0010, 0x3b81: 0x0010, 0x3b82: 0x0010, 0x3b83: 0x0010, 0x3b85: 0x0001,",
   "\t0x3b86: 0x0001, 0x3b87: 0x0001, 0x3b88: 0x0001, 0x3b89: 0x0001, 0x3b8a: 0x0001, 0x3b8b: 0x0001,",
   "\t0x3b8c: 0x0001, 0x3b8f: 0x0001, 0x3b90: 0x0001,",
   "\t0x3b93: 0x0001, 0x3b94: 0x0001, 0x3b95: 0x0001, 0x3b96: 0x0001, 0x3b97: 0x0001,",
   "\t0x3b98: 0x0001, 0x3b99: 0x0001, 0x3b9a: 0x0001, 0x3b9b: 0x0001, 0x3b9c: 0x0001, 0x3b9d: 0x0001,",
   "\t0x3b9e: 0x0001, 0x3b9f: 0x0001, 0x3ba0: 0x0001, 0x3ba1: 0x0001, 0x3ba2: 0x0001, 0x3ba3: 0x0001,",
   "\t0x3ba4: 0x0001, 0x3ba5: 0x0001, 0x3ba6: 0x0001, 0x3ba7: 0x0001, 0x3ba8: 0x0001,",
   "\t0x3baa: 0x0001, 0x3bab: 0x0001, 0x3bac: 0x0001, 0x3bad: 0x0001, 0x3bae: 0x0001, 0x3baf: 0x0001,",
   "\t0x3bb0: 0x0001, 0x3bb2: 0x0001, 0x3bb3: 0x0001, 0x3bb5: 0x0001,",
   "\t0x3bb6: 0x0001, 0x3bb7: 0x0001, 0x3bb8: 0x0001, 0x3bb9: 0x0001, 0x3bbb: 0x0010,",
   "\t0x3bbc: 0x0010, 0x3bbd: 0x0001, 0x3bbe: 0x0010, 0x3bbf: 0x0010,",
   "\t// Block 0xef, offset 0x3bc0",
   "\t0x3bc0: 0x0010, 0x3bc1: 0x0010, 0x3bc2: 0x0010, 0x3bc3: 0x0010, 0x3bc4: 0x0010,",
   "\t0x3bc7: 0x0010, 0x3bc8: 0x0010, 0x3bcb: 0x0010,",
   "\t0x3bcc: 0x0010, 0x3bcd: 0x0010, 0x3bd0: 0x0001,",
   "\t0x3bd7: 0x0010,",
   "\t0x3bdd: 0x0001,",
   "\t0x3bde: 0x0001, 0x3bdf: 0x0001, 0x3be0: 0x0001, 0x3be1: 0x0001, 0x3be2: 0x0010, 0x3be3: 0x0010,",
   "\t0x3be6: 0x0010, 0x3be7: 0x0010, 0x3be8: 0x0010, 0x3be9: 0x0010,",
   "\t0x3bea: 0x0010, 0x3beb: 0x0010, 0x3bec: 0x0010,",
   "\t0x3bf0: 0x0010, 0x3bf1: 0x0010, 0x3bf2: 0x0010, 0x3bf3: 0x0010, 0x3bf4: 0x0010,"]
theorem v14_eq : v14 = (layout 6 4 224 ((Table.Values.blocks.drop 224).take 16)).map String.ofList := by
  kernel_rfl
/-- words/trie.go:2361-2499, `wordsValues` from block 0xf0 on. -/
def v15 : List String :=
  ["\t// Block 0xf0, offset 0x3c00",
   "\t0x3c00: 0x0001, 0x3c01: 0x0001, 0x3c02: 0x0001, 0x3c03: 0x0001, 0x3c04: 0x0001, 0x3c05: 0x0001,",
   "\t0x3c06: 0x0001, 0x3c07: 0x0001, 0x3c08: 0x0001, 0x3c09: 0x0001, 0x3c0b: 0x0001,",
   "\t0x3c0e: 0x0001, 0x3c10: 0x0001, 0x3c11: 0x0001,",
   "\t0x3c12: 0x0001, 0x3c13: 0x0001, 0x3c14: 0x0001, 0x3c15: 0x0001, 0x3c16: 0x0001, 0x3c17: 0x0001,",
   "\t0x3c18: 0x0001, 0x3c19: 0x0001, 0x3c1a: 0x0001, 0x3c1b: 0x0001, 0x3c1c: 0x0001, 0x3c1d: 0x0001,",
   "\t0x3c1e: 0x0001, 0x3c1f: 0x0001, 0x3c20: 0x0001, 0x3c21: 0x0001, 0x3c22: 0x0001, 0x3c23: 0x0001,",
   "\t0x3c24: 0x0001, 0x3c25: 0x0001, 0x3c26: 0x0001, 0x3c27: 0x0001, 0x3c28: 0x0001, 0x3c29: 0x0001,",
   "\t0x3c2a: 0x0001, 0x3c2b: 0x0001, 0x3c2c: 0x0001, 0x3c2d: 0x0001, 0x3c2e: 0x0001, 0x3c2f: 0x0001,",
   "\t0x3c30: 0x0001, 0x3c31: 0x0001, 0x3c32: 0x0001, 0x3c33: 0x0001, 0x3c34: 0x0001, 0x3c35: 0x0001,",
   "\t0x3c37: 0x0001, 0x3c38: 0x0010, 0x3c39: 0x0010, 0x3c3a: 0x0010, 0x3c3b: 0x0010,",
   "\t0x3c3c: 0x0010, 0x3c3d: 0x0010, 0x3c3e: 0x0010, 0x3c3f: 0x0010,",
   "\t// Block 0xf1, offset 0x3c40",
   "\t0x3c40: 0x0010, 0x3c42: 0x0010, 0x3c45: 0x0010,",
   "\t0x3c47: 0x0010, 0x3c48: 0x0010, 0x3c49: 0x0010, 0x3c4a: 0x0010,",
   "\t0x3c4c: 0x0010, 0x3c4d: 0x0010, 0x3c4e: 0x0010, 0x3c4f: 0x0010, 0x3c50: 0x0010, 0x3c51: 0x0001,",
   "\t0x3c52: 0x0010, 0x3c53: 0x0001,",
   "\t0x3c61: 0x0010, 0x3c62: 0x0010,",
   "\t// Block 0xf2, offset 0x3c80",
   "\t0x3c80: 0x0001, 0x3c81: 0x0001, 0x3c82: 0x0001, 0x3c83: 0x0001, 0x3c84: 0x0001, 0x3c85: 0x0001,",
   "\t0x3c86: 0x0001, 0x3c87: 0x0001, 0x3c88: 0x0001, 0x3c89: 0x0001, 0x3c8a: 0x0001, 0x3c8b: 0x0001,",
   "\t0x3c8c: 0x0001, 0x3c8d: 0x0001, 0x3c8e: 0x0001, 0x3c8f: 0x0001, 0x3c90: 0x0001, 0x3c91: 0x0001,",
   "\t0x3c92: 0x0001, 0x3c93: 0x0001, 0x3c94: 0x0001, 0x3c95: 0x0001, 0x3c96: 0x0001, 0x3c97: 0x0001,",
   "\t0x3c98: 0x0001, 0x3c99: 0x0001, 0x3c9a: 0x0001, 0x3c9b: 0x0001, 0x3c9c: 0x0001, 0x3c9d: 0x0001,",
   "\t0x3c9e: 0x0001, 0x3c9f: 0x0001, 0x3ca0: 0x0001, 0x3ca1: 0x0001, 0x3ca2: 0x0001, 0x3ca3: 0x0001,",
   "\t0x3ca4: 0x0001, 0x3ca5: 0x0001, 0x3ca6: 0x0001, 0x3ca7: 0x0001, 0x3ca8: 0x0001, 0x3ca9: 0x0001,",
   "\t0x3caa: 0x0001, 0x3cab: 0x0001, 0x3cac: 0x0001, 0x3cad: 0x0001, 0x3cae: 0x0001, 0x3caf: 0x0001,",
   "\t0x3cb0: 0x0001, 0x3cb1: 0x0001, 0x3cb2: 0x0001, 0x3cb3: 0x0001, 0x3cb4: 0x0001, 0x3cb5: 0x0010,",
   "\t0x3cb6: 0x0010, 0x3cb7: 0x0010, 0x3cb8: 0x0010, 0x3cb9: 0x0010, 0x3cba: 0x0010, 0x3cbb: 0x0010,",
   "\t0x3cbc: 0x0010, 0x3cbd: 0x0010, 0x3cbe: 0x0010, 0x3cbf: 0x0010,",
   "\t// Block 0xf3, offset 0x3cc0",
   "\t0x3cc0: 0x0010, 0x3cc1: 0x0010, 0x3cc2: 0x0010, 0x3cc3: 0x0010, 0x3cc4: 0x0010, 0x3cc5: 0x0010,",
   "\t0x3cc6: 0x0010, 0x3cc7: 0x0001, 0x3cc8: 0x0001, 0x3cc9: 0x0001, 0x3cca: 0x0001,",
   "\t0x3cd0: 0x8000, 0x3cd1: 0x8000,",
   "\t0x3cd2: 0x8000, 0x3cd3: 0x8000, 0x3cd4: 0x8000, 0x3cd5: 0x8000, 0x3cd6: 0x8000, 0x3cd7: 0x8000,",
   "\t0x3cd8: 0x8000, 0x3cd9: 0x8000,",
   "\t0x3cde: 0x0010, 0x3cdf: 0x0001, 0x3ce0: 0x0001, 0x3ce1: 0x0001,",
   "\t// Block 0xf4, offset 0x3d00",
   "\t0x3d00: 0x0001, 0x3d01: 0x0001, 0x3d02: 0x0001, 0x3d03: 0x0001, 0x3d04: 0x0001, 0x3d05: 0x0001,",
   "\t0x3d06: 0x0001, 0x3d07: 0x0001, 0x3d08: 0x0001, 0x3d09: 0x0001, 0x3d0a: 0x0001, 0x3d0b: 0x0001,",
   "\t0x3d0c: 0x0001, 0x3d0d: 0x0001, 0x3d0e: 0x0001, 0x3d0f: 0x0001, 0x3d10: 0x0001, 0x3d11: 0x0001,",
   "\t0x3d12: 0x0001, 0x3d13: 0x0001, 0x3d14: 0x0001, 0x3d15: 0x0001, 0x3d16: 0x0001, 0x3d17: 0x0001,",
   "\t0x3d18: 0x0001, 0x3d19: 0x0001, 0x3d1a: 0x0001, 0x3d1b: 0x0001, 0x3d1c: 0x0001, 0x3d1d: 0x0001,",
   "\t0x3d1e: 0x0001, 0x3d1f: 0x0001, 0x3d20: 0x0001, 0x3d21: 0x0001, 0x3d22: 0x0001, 0x3d23: 0x0001,",
   "\t0x3d24: 0x0001, 0x3d25: 0x0001, 0x3d26: 0x0001, 0x3d27: 0x0001, 0x3d28: 0x0001, 0x3d29: 0x0001,",
   "\t0x3d2a: 0x0001, 0x3d2b: 0x0001, 0x3d2c: 0x0001, 0x3d2d: 0x0001, 0x3d2e: 0x0001, 0x3d2f: 0x0001,",
   "\t0x3d30: 0x0010, 0x3d31: 0x0010, 0x3d32: 0x0010, 0x3d33: 0x0010, 0x3d34: 0x0010, 0x3d35: 0x0010,",
   "\t0x3d36: 0x0010, 0x3d37: 0x0010, 0x3d38: 0x0010, 0x3d39: 0x0010, 0x3d3a: 0x0010, 0x3d3b: 0x0010,",
   "\t0x3d3c: 0x0010, 0x3d3d: 0x0010, 0x3d3e: 0x0010, 0x3d3f: 0x0010,",
   "\t// Block 0xf5, offset 0x3d40",
   "\t0x3d40: 0x0010, 0x3d41: 0x0010, 0x3d42: 0x0010, 0x3d43: 0x0010, 0x3d44: 0x0001, 0x3d45: 0x0001,",
   "\t0x3d47: 0x0001,",
   "\t0x3d50: 0x8000, 0x3d51: 0x8000,",
   "\t0x3d52: 0x8000, 0x3d53: 0x8000, 0x3d54: 0x8000, 0x3d55: 0x8000, 0x3d56: 0x8000, 0x3d57: 0x8000,",
   "\t0x3d58: 0x8000, 0x3d59: 0x8000,",
   "\t// Block 0xf6, offset 0x3d80",
   "\t0x3d80: 0x0001, 0x3d81: 0x0001, 0x3d82: 0x0001, 0x3d83: 0x0001, 0x3d84: 0x0001, 0x3d85: 0x0001,",
   "\t0x3d86: 0x0001, 0x3d87: 0x0001, 0x3d88: 0x0001, 0x3d89: 0x0001, 0x3d8a: 0x0001, 0x3d8b: 0x0001,",
   "\t0x3d8c: 0x0001, 0x3d8d: 0x0001, 0x3d8e: 0x0001, 0x3d8f: 0x0001, 0x3d90: 0x0001, 0x3d91: 0x0001,",
   "\t0x3d92: 0x0001, 0x3d93: 0x0001, 0x3d94: 0x0001, 0x3d95: 0x0001, 0x3d96: 0x0001, 0x3d97: 0x0001,",
   "\t0x3d98: 0x0001, 0x3d99: 0x0001, 0x3d9a: 0x0001, 0x3d9b: 0x0001, 0x3d9c: 0x0001, 0x3d9d: 0x0001,",
   "\t0x3d9e: 0x0001, 0x3d9f: 0x0001, 0x3da0: 0x0001, 0x3da1: 0x0001, 0x3da2: 0x0001, 0x3da3: 0x0001,",
   "\t0x3da4: 0x0001, 0x3da5: 0x0001, 0x3da6: 0x0001, 0x3da7: 0x0001, 0x3da8: 0x0001, 0x3da9: 0x0001,",
   "\t0x3daa: 0x0001, 0x3dab: 0x0001, 0x3dac: 0x0001, 0x3dad: 0x0001, 0x3dae: 0x0001, 0x3daf: 0x0010,",
   "\t0x3db0: 0x0010, 0x3db1: 0x0010, 0x3db2: 0x0010, 0x3db3: 0x0010, 0x3db4: 0x0010, 0x3db5: 0x0010,",
   "\t0x3db8: 0x0010, 0x3db9: 0x0010, 0x3dba: 0x0010, 0x3dbb: 0x0010,",
   "\t0x3dbc: 0x0010, 0x3dbd: 0x0010, 0x3dbe: 0x0010, 0x3dbf: 0x0010,",
   "\t// Block 0xf7, offset 0x3dc0",
   "\t0x3dc0: 0x0010,",
   "\t0x3dd8: 0x0001, 0x3dd9: 0x0001, 0x3dda: 0x0001, 0x3ddb: 0x0001, 0x3ddc: 0x0010, 0x3ddd: 0x0010,",
   "\t// Block 0xf8, offset 0x3e00",
   "\t0x3e00: 0x0010, 0x3e04: 0x0001,",
   "\t0x3e10: 0x8000, 0x3e11: 0x8000,",
   "\t0x3e12: 0x8000, 0x3e13: 0x8000, 0x3e14: 0x8000, 0x3e15: 0x8000, 0x3e16: 0x8000, 0x3e17: 0x8000,",
   "\t0x3e18: 0x8000, 0x3e19: 0x8000,",
   "\t// Block 0xf9, offset 0x3e40",
   "\t0x3e40: 0x0001, 0x3e41: 0x0001, 0x3e42: 0x0001, 0x3e43: 0x0001, 0x3e44: 0x0001, 0x3e45: 0x0001,",
   "\t0x3e46: 0x0001, 0x3e47: 0x0001, 0x3e48: 0x0001, 0x3e49: 0x0001, 0x3e4a: 0x0001, 0x3e4b: 0x0001,",
   "\t0x3e4c: 0x0001, 0x3e4d: 0x0001, 0x3e4e: 0x0001, 0x3e4f: 0x0001, 0x3e50: 0x0001, 0x3e51: 0x0001,",
   "\t0x3e52: 0x0001, 0x3e53: 0x0001, 0x3e54: 0x0001, 0x3e55: 0x0001, 0x3e56: 0x0001, 0x3e57: 0x0001,",
   "\t0x3e58: 0x0001, 0x3e59: 0x0001, 0x3e5a: 0x0001, 0x3e5b: 0x0001, 0x3e5c: 0x0001, 0x3e5d: 0x0001,",
   "\t0x3e5e: 0x0001, 0x3e5f: 0x0001, 0x3e60: 0x0001, 0x3e61: 0x0001, 0x3e62: 0x0001, 0x3e63: 0x0001,",
   "\t0x3e64: 0x0001, 0x3e65: 0x0001, 0x3e66: 0x0001, 0x3e67: 0x0001, 0x3e68: 0x0001, 0x3e69: 0x0001,",
   "\t0x3e6a: 0x0001, 0x3e6b: 0x0010, 0x3e6c: 0x0010, 0x3e6d: 0x0010, 0x3e6e: 0x0010, 0x3e6f: 0x0010,",
   "\t0x3e70: 0x0010, 0x3e71: 0x0010, 0x3e72: 0x0010, 0x3e73: 0x0010, 0x3e74: 0x0010, 0x3e75: 0x0010,",
   "\t0x3e76: 0x0010, 0x3e77: 0x0010, 0x3e78: 0x0001,",
   "\t// Block 0xfa, offset 0x3e80",
   "\t0x3e80: 0x8000, 0x3e81: 0x8000, 0x3e82: 0x8000, 0x3e83: 0x8000, 0x3e84: 0x8000, 0x3e85: 0x8000,",
   "\t0x3e86: 0x8000, 0x3e87: 0x8000, 0x3e88: 0x8000, 0x3e89: 0x8000,",
   "\t0x3e90: 0x8000, 0x3e91: 0x8000,",
   "\t0x3e92: 0x8000, 0x3e93: 0x8000, 0x3e94: 0x8000, 0x3e95: 0x8000, 0x3e96: 0x8000, 0x3e97: 0x8000,",
   "\t0x3e98: 0x8000, 0x3e99: 0x8000, 0x3e9a: 0x8000, 0x3e9b: 0x8000, 0x3e9c: 0x8000, 0x3e9d: 0x8000,",
   "\t0x3e9e: 0x8000, 0x3e9f: 0x8000, 0x3ea0: 0x8000, 0x3ea1: 0x8000, 0x3ea2: 0x8000, 0x3ea3: 0x8000,",
   "\t// Block 0xfb, offset 0x3ec0",
   "\t0x3edd: 0x0010,",
   "\t0x3ede: 0x0010, 0x3edf: 0x0010, 0x3ee0: 0x0010, 0x3ee1: 0x0010, 0x3ee2: 0x0010, 0x3ee3: 0x0010,",
   "\t0x3ee4: 0x0010, 0x3ee5: 0x0010, 0x3ee6: 0x0010, 0x3ee7: 0x0010, 0x3ee8: 0x0010, 0x3ee9: 0x0010,",
   "\t0x3eea: 0x0010, 0x3eeb: 0x0010,",
   "\t0x3ef0: 0x8000, 0x3ef1: 0x8000, 0x3ef2: 0x8000, 0x3ef3: 0x8000, 0x3ef4: 0x8000, 0x3ef5: 0x8000,",
   "\t0x3ef6: 0x8000, 0x3ef7: 0x8000, 0x3ef8: 0x8000, 0x3ef9: 0x8000,",
   "\t// Block 0xfc, offset 0x3f00",
   "\t0x3f00: 0x0001, 0x3f01: 0x0001, 0x3f02: 0x0001, 0x3f03: 0x0001, 0x3f04: 0x0001, 0x3f05: 0x0001,",
   "\t0x3f06: 0x0001, 0x3f07: 0x0001, 0x3f08: 0x0001, 0x3f09: 0x0001, 0x3f0a: 0x0001, 0x3f0b: 0x0001,",
   "\t0x3f0c: 0x0001, 0x3f0d: 0x0001, 0x3f0e: 0x0001, 0x3f0f: 0x0001, 0x3f10: 0x0001, 0x3f11: 0x0001,",
   "\t0x3f12: 0x0001, 0x3f13: 0x0001, 0x3f14: 0x0001, 0x3f15: 0x0001, 0x3f16: 0x0001, 0x3f17: 0x0001,",
   "\t0x3f18: 0x0001, 0x3f19: 0x0001, 0x3f1a: 0x0001, 0x3f1b: 0x0001, 0x3f1c: 0x0001, 0x3f1d: 0x0001,",
   "\t0x3f1e: 0x0001, 0x3f1f: 0x0001, 0x3f20: 0x0001, 0x3f21: 0x0001, 0x3f22: 0x0001, 0x3f23: 0x0001,",
   "\t0x3f24: 0x0001, 0x3f25: 0x0001, 0x3f26: 0x0001, 0x3f27: 0x0001, 0x3f28: 0x0001, 0x3f29: 0x0001,",
   "\t0x3f2a: 0x0001, 0x3f2b: 0x0001, 0x3f2c: 0x0010, 0x3f2d: 0x0010, 0x3f2e: 0x0010, 0x3f2f: 0x0010,",
   "\t0x3f30: 0x0010, 0x3f31: 0x0010, 0x3f32: 0x0010, 0x3f33: 0x0010, 0x3f34: 0x0010, 0x3f35: 0x0010,",
   "\t0x3f36: 0x0010, 0x3f37: 0x0010, 0x3f38: 0x0010, 0x3f39: 0x0010, 0x3f3a: 0x0010,",
   "\t// Block 0xfd, offset 0x3f40",
   "\t0x3f60: 0x0001, 0x3f61: 0x0001, 0x3f62: 0x0001, 0x3f63: 0x0001,",
   "\t0x3f64: 0x0001, 0x3f65: 0x0001, 0x3f66: 0x0001, 0x3f67: 0x0001, 0x3f68: 0x0001, 0x3f69: 0x0001,",
   "\t0x3f6a: 0x0001, 0x3f6b: 0x0001, 0x3f6c: 0x0001, 0x3f6d: 0x0001, 0x3f6e: 0x0001, 0x3f6f: 0x0001,",
   "\t0x3f70: 0x0001, 0x3f71: 0x0001, 0x3f72: 0x0001, 0x3f73: 0x0001, 0x3f74: 0x0001, 0x3f75: 0x0001,",
   "\t0x3f76: 0x0001, 0x3f77: 0x0001, 0x3f78: 0x0001, 0x3f79: 0x0001, 0x3f7a: 0x0001, 0x3f7b: 0x0001,",
   "\t0x3f7c: 0x0001, 0x3f7d: 0x0001, 0x3f7e: 0x0001, 0x3f7f: 0x0001,",
   "\t// Block 0xfe, offset 0x3f80",
   "\t0x3f80: 0x0001, 0x3f81: 0x0001, 0x3f82: 0x0001, 0x3f83: 0x0001, 0x3f84: 0x0001, 0x3f85: 0x0001,",
   "\t0x3f86: 0x0001, 0x3f87: 0x0001, 0x3f88: 0x0001, 0x3f89: 0x0001, 0x3f8a: 0x0001, 0x3f8b: 0x0001,",
   "\t0x3f8c: 0x0001, 0x3f8d: 0x0001, 0x3f8e: 0x0001, 0x3f8f: 0x0001, 0x3f90: 0x0001, 0x3f91: 0x0001,",
   "\t0x3f92: 0x0001, 0x3f93: 0x0001, 0x3f94: 0x0001, 0x3f95: 0x0001, 0x3f96: 0x0001, 0x3f97: 0x0001,",
   "\t0x3f98: 0x0001, 0x3f99: 0x0001, 0x3f9a: 0x0001, 0x3f9b: 0x0001, 0x3f9c: 0x0001, 0x3f9d: 0x0001,",
   "\t0x3f9e: 0x0001, 0x3f9f: 0x0001, 0x3fa0: 0x8000, 0x3fa1: 0x8000, 0x3fa2: 0x8000, 0x3fa3: 0x8000,",
   "\t0x3fa4: 0x8000, 0x3fa5: 0x8000, 0x3fa6: 0x8000, 0x3fa7: 0x8000, 0x3fa8: 0x8000, 0x3fa9: 0x8000,",
   "\t0x3fbf: 0x0001,",
   "\t// Block 0xff, offset 0x3fc0",
   "\t0x3fc0: 0x0001, 0x3fc1: 0x0001, 0x3fc2: 0x0001, 0x3fc3: 0x0001, 0x3fc4: 0x0001, 0x3fc5: 0x0001,",
   "\t0x3fc6: 0x0001, 0x3fc9: 0x0001,",
   "\t0x3fcc: 0x0001, 0x3fcd: 0x0001, 0x3fce: 0x0001, 0x3fcf: 0x0001, 0x3fd0: 0x0001, 0x3fd1: 0x0001,",
   "\t0x3fd2: 0x0001, 0x3fd3: 0x0001, 0x3fd5: 0x0001, 0x3fd6: 0x0001,",
   "\t0x3fd8: 0x0001, 0x3fd9: 0x0001, 0x3fda: 0x0001, 0x3fdb: 0x0001, 0x3fdc: 0x0001, 0x3fdd: 0x0001,",
   "\t0x3fde: 0x0001, 0x3fdf: 0x0001, 0x3fe0: 0x0001, 0x3fe1: 0x0001, 0x3fe2: 0x0001, 0x3fe3: 0x0001,",
   "\t0x3fe4: 0x0001, 0x3fe5: 0x0001, 0x3fe6: 0x0001, 0x3fe7: 0x0001, 0x3fe8: 0x0001, 0x3fe9: 0x0001,",
   "\t0x3fea: 0x0001, 0x3feb: 0x0001, 0x3fec: 0x0001, 0x3fed: 0x0001, 0x3fee: 0x0001, 0x3fef: 0x0001,",
   "\t0x3ff0: 0x0010, 0x3ff1: 0x0010, 0x3ff2: 0x0010, 0x3ff3: 0x0010, 0x3ff4: 0x0010, 0x3ff5: 0x0010,",
   "\t0x3ff7: 0x0010, 0x3ff8: 0x0010, 0x3ffb: 0x0010,",
   "\t0x3ffc: 0x0010, 0x3ffd: 0x0010, 0x3ffe: 0x0010, 0x3fff: 0x0001,"]
theorem v15_eq : v15 = (layout 6 4 240 ((Table.Values.blocks.drop 240).take 16)).map String.ofList := by
  kernel_rfl
/-- words/trie.go:2500-2643, `wordsValues` from block 0x100 on. -/
def v16 : List String :=
  ["\t// Block 0x100, offset 0x4000",
   "\t0x4000: 0x0010, 0x4001: 0x0001, 0x4002: 0x0010, 0x4003: 0x0010,",
   "\t0x4010: 0x8000, 0x4011: 0x8000,",
   "\t0x4012: 0x8000, 0x4013: 0x8000, 0x4014: 0x8000, 0x4015: 0x8000, 0x4016: 0x8000, 0x4017: 0x8000,",
   "\t0x4018: 0x8000, 0x4019: 0x8000,",
   "\t// Block 0x101, offset 0x4040",
   "\t0x4060: 0x0001, 0x4061: 0x0001, 0x4062: 0x0001, 0x4063: 0x0001,",
   "\t0x4064: 0x0001, 0x4065: 0x0001, 0x4066: 0x0001, 0x4067: 0x0001,",
   "\t0x406a: 0x0001, 0x406b: 0x0001, 0x406c: 0x0001, 0x406d: 0x0001, 0x406e: 0x0001, 0x406f: 0x0001,",
   "\t0x4070: 0x0001, 0x4071: 0x0001, 0x4072: 0x0001, 0x4073: 0x0001, 0x4074: 0x0001, 0x4075: 0x0001,",
   "\t0x4076: 0x0001, 0x4077: 0x0001, 0x4078: 0x0001, 0x4079: 0x0001, 0x407a: 0x0001, 0x407b: 0x0001,",
   "\t0x407c: 0x0001, 0x407d: 0x0001, 0x407e: 0x0001, 0x407f: 0x0001,",
   "\t// Block 0x102, offset 0x4080",
   "\t0x4080: 0x0001, 0x4081: 0x0001, 0x4082: 0x0001, 0x4083: 0x0001, 0x4084: 0x0001, 0x4085: 0x0001,",
   "\t0x4086: 0x0001, 0x4087: 0x0001, 0x4088: 0x0001, 0x4089: 0x0001, 0x408a: 0x0001, 0x408b: 0x0001,",
   "\t0x408c: 0x0001, 0x408d: 0x0001, 0x408e: 0x0001, 0x408f: 0x0001, 0x4090: 0x0001, 0x4091: 0x0010,",
   "\t0x4092: 0x0010, 0x4093: 0x0010, 0x4094: 0x0010, 0x4095: 0x0010, 0x4096: 0x0010, 0x4097: 0x0010,",
   "\t0x409a: 0x0010, 0x409b: 0x0010, 0x409c: 0x0010, 0x409d: 0x0010,",
   "\t0x409e: 0x0010, 0x409f: 0x0010, 0x40a0: 0x0010, 0x40a1: 0x0001, 0x40a3: 0x0001,",
   "\t0x40a4: 0x0010,",
   "\t// Block 0x103, offset 0x40c0",
   "\t0x40c0: 0x0001, 0x40c1: 0x0010, 0x40c2: 0x0010, 0x40c3: 0x0010, 0x40c4: 0x0010, 0x40c5: 0x0010,",
   "\t0x40c6: 0x0010, 0x40c7: 0x0010, 0x40c8: 0x0010, 0x40c9: 0x0010, 0x40ca: 0x0010, 0x40cb: 0x0001,",
   "\t0x40cc: 0x0001, 0x40cd: 0x0001, 0x40ce: 0x0001, 0x40cf: 0x0001, 0x40d0: 0x0001, 0x40d1: 0x0001,",
   "\t0x40d2: 0x0001, 0x40d3: 0x0001, 0x40d4: 0x0001, 0x40d5: 0x0001, 0x40d6: 0x0001, 0x40d7: 0x0001,",
   "\t0x40d8: 0x0001, 0x40d9: 0x0001, 0x40da: 0x0001, 0x40db: 0x0001, 0x40dc: 0x0001, 0x40dd: 0x0001,",
   "\t0x40de: 0x0001, 0x40df: 0x0001, 0x40e0: 0x0001, 0x40e1: 0x0001, 0x40e2: 0x0001, 0x40e3: 0x0001,",
   "\t0x40e4: 0x0001, 0x40e5: 0x0001, 0x40e6: 0x0001, 0x40e7: 0x0001, 0x40e8: 0x0001, 0x40e9: 0x0001,",
   "\t0x40ea: 0x0001, 0x40eb: 0x0001, 0x40ec: 0x0001, 0x40ed: 0x0001, 0x40ee: 0x0001, 0x40ef: 0x0001,",
   "\t0x40f0: 0x0001, 0x40f1: 0x0001, 0x40f2: 0x0001, 0x40f3: 0x0010, 0x40f4: 0x0010, 0x40f5: 0x0010,",
   "\t0x40f6: 0x0010, 0x40f7: 0x0010, 0x40f8: 0x0010, 0x40f9: 0x0010, 0x40fa: 0x0001, 0x40fb: 0x0010,",
   "\t0x40fc: 0x0010, 0x40fd: 0x0010, 0x40fe: 0x0010,",
   "\t// Block 0x104, offset 0x4100",
   "\t0x4107: 0x0010,",
   "\t0x4110: 0x0001, 0x4111: 0x0010,",
   "\t0x4112: 0x0010, 0x4113: 0x0010, 0x4114: 0x0010, 0x4115: 0x0010, 0x4116: 0x0010, 0x4117: 0x0010,",
   "\t0x4118: 0x0010, 0x4119: 0x0010, 0x411a: 0x0010, 0x411b: 0x0010, 0x411c: 0x0001, 0x411d: 0x0001,",
   "\t0x411e: 0x0001, 0x411f: 0x0001, 0x4120: 0x0001, 0x4121: 0x0001, 0x4122: 0x0001, 0x4123: 0x0001,",
   "\t0x4124: 0x0001, 0x4125: 0x0001, 0x4126: 0x0001, 0x4127: 0x0001, 0x4128: 0x0001, 0x4129: 0x0001,",
   "\t0x412a: 0x0001, 0x412b: 0x0001, 0x412c: 0x0001, 0x412d: 0x0001, 0x412e: 0x0001, 0x412f: 0x0001,",
   "\t0x4130: 0x0001, 0x4131: 0x0001, 0x4132: 0x0001, 0x4133: 0x0001, 0x4134: 0x0001, 0x4135: 0x0001,",
   "\t0x4136: 0x0001, 0x4137: 0x0001, 0x4138: 0x0001, 0x4139: 0x0001, 0x413a: 0x0001, 0x413b: 0x0001,",
   "\t0x413c: 0x0001, 0x413d: 0x0001, 0x413e: 0x0001, 0x413f: 0x0001,",
   "\t// Block 0x105, offset 0x4140",
   "\t0x4140: 0x0001, 0x4141: 0x0001, 0x4142: 0x0001, 0x4143: 0x0001, 0x4144: 0x0001, 0x4145: 0x0001,",
   "\t0x4146: 0x0001, 0x4147: 0x0001, 0x4148: 0x0001, 0x4149: 0x0001, 0x414a: 0x0010, 0x414b: 0x0010,",
   "\t0x414c: 0x0010, 0x414d: 0x0010, 0x414e: 0x0010, 0x414f: 0x0010, 0x4150: 0x0010, 0x4151: 0x0010,",
   "\t0x4152: 0x0010, 0x4153: 0x0010, 0x4154: 0x0010, 0x4155: 0x0010, 0x4156: 0x0010, 0x4157: 0x0010,",
   "\t0x4158: 0x0010, 0x4159: 0x0010, 0x415d: 0x0001,",
   "\t0x4170: 0x0001, 0x4171: 0x0001, 0x4172: 0x0001, 0x4173: 0x0001, 0x4174: 0x0001, 0x4175: 0x0001,",
   "\t0x4176: 0x0001, 0x4177: 0x0001, 0x4178: 0x0001, 0x4179: 0x0001, 0x417a: 0x0001, 0x417b: 0x0001,",
   "\t0x417c: 0x0001, 0x417d: 0x0001, 0x417e: 0x0001, 0x417f: 0x0001,",
   "\t// Block 0x106, offset 0x4180",
   "\t0x41a0: 0x0010, 0x41a1: 0x0010, 0x41a2: 0x0010, 0x41a3: 0x0010,",
   "\t0x41a4: 0x0010, 0x41a5: 0x0010, 0x41a6: 0x0010, 0x41a7: 0x0010,",
   "\t// Block 0x107, offset 0x41c0",
   "\t0x41c0: 0x0001, 0x41c1: 0x0001, 0x41c2: 0x0001, 0x41c3: 0x0001, 0x41c4: 0x0001, 0x41c5: 0x0001,",
   "\t0x41c6: 0x0001, 0x41c7: 0x0001, 0x41c8: 0x0001, 0x41c9: 0x0001, 0x41ca: 0x0001, 0x41cb: 0x0001,",
   "\t0x41cc: 0x0001, 0x41cd: 0x0001, 0x41ce: 0x0001, 0x41cf: 0x0001, 0x41d0: 0x0001, 0x41d1: 0x0001,",
   "\t0x41d2: 0x0001, 0x41d3: 0x0001, 0x41d4: 0x0001, 0x41d5: 0x0001, 0x41d6: 0x0001, 0x41d7: 0x0001,",
   "\t0x41d8: 0x0001, 0x41d9: 0x0001, 0x41da: 0x0001, 0x41db: 0x0001, 0x41dc: 0x0001, 0x41dd: 0x0001,",
   "\t0x41de: 0x0001, 0x41df: 0x0001, 0x41e0: 0x0001,",
   "\t0x41f0: 0x8000, 0x41f1: 0x8000, 0x41f2: 0x8000, 0x41f3: 0x8000, 0x41f4: 0x8000, 0x41f5: 0x8000,",
   "\t0x41f6: 0x8000, 0x41f7: 0x8000, 0x41f8: 0x8000, 0x41f9: 0x8000,",
   "\t// Block 0x108, offset 0x4200",
   "\t0x4200: 0x0001, 0x4201: 0x0001, 0x4202: 0x0001, 0x4203: 0x0001, 0x4204: 0x0001, 0x4205: 0x0001,",
   "\t0x4206: 0x0001, 0x4207: 0x0001, 0x4208: 0x0001, 0x420a: 0x0001, 0x420b: 0x0001,",
   "\t0x420c: 0x0001, 0x420d: 0x0001, 0x420e: 0x0001, 0x420f: 0x0001, 0x4210: 0x0001, 0x4211: 0x0001,",
   "\t0x4212: 0x0001, 0x4213: 0x0001, 0x4214: 0x0001, 0x4215: 0x0001, 0x4216: 0x0001, 0x4217: 0x0001,",
   "\t0x4218: 0x0001, 0x4219: 0x0001, 0x421a: 0x0001, 0x421b: 0x0001, 0x421c: 0x0001, 0x421d: 0x0001,",
   "\t0x421e: 0x0001, 0x421f: 0x0001, 0x4220: 0x0001, 0x4221: 0x0001, 0x4222: 0x0001, 0x4223: 0x0001,",
   "\t0x4224: 0x0001, 0x4225: 0x0001, 0x4226: 0x0001, 0x4227: 0x0001, 0x4228: 0x0001, 0x4229: 0x0001,",
   "\t0x422a: 0x0001, 0x422b: 0x0001, 0x422c: 0x0001, 0x422d: 0x0001, 0x422e: 0x0001, 0x422f: 0x0010,",
   "\t0x4230: 0x0010, 0x4231: 0x0010, 0x4232: 0x0010, 0x4233: 0x0010, 0x4234: 0x0010, 0x4235: 0x0010,",
   "\t0x4236: 0x0010, 0x4238: 0x0010, 0x4239: 0x0010, 0x423a: 0x0010, 0x423b: 0x0010,",
   "\t0x423c: 0x0010, 0x423d: 0x0010, 0x423e: 0x0010, 0x423f: 0x0010,",
   "\t// Block 0x109, offset 0x4240",
   "\t0x4240: 0x0001,",
   "\t0x4250: 0x8000, 0x4251: 0x8000,",
   "\t0x4252: 0x8000, 0x4253: 0x8000, 0x4254: 0x8000, 0x4255: 0x8000, 0x4256: 0x8000, 0x4257: 0x8000,",
   "\t0x4258: 0x8000, 0x4259: 0x8000,",
   "\t0x4272: 0x0001, 0x4273: 0x0001, 0x4274: 0x0001, 0x4275: 0x0001,",
   "\t0x4276: 0x0001, 0x4277: 0x0001, 0x4278: 0x0001, 0x4279: 0x0001, 0x427a: 0x0001, 0x427b: 0x0001,",
   "\t0x427c: 0x0001, 0x427d: 0x0001, 0x427e: 0x0001, 0x427f: 0x0001,",
   "\t// Block 0x10a, offset 0x4280",
   "\t0x4280: 0x0001, 0x4281: 0x0001, 0x4282: 0x0001, 0x4283: 0x0001, 0x4284: 0x0001, 0x4285: 0x0001,",
   "\t0x4286: 0x0001, 0x4287: 0x0001, 0x4288: 0x0001, 0x4289: 0x0001, 0x428a: 0x0001, 0x428b: 0x0001,",
   "\t0x428c: 0x0001, 0x428d: 0x0001, 0x428e: 0x0001, 0x428f: 0x0001,",
   "\t0x4292: 0x0010, 0x4293: 0x0010, 0x4294: 0x0010, 0x4295: 0x0010, 0x4296: 0x0010, 0x4297: 0x0010,",
   "\t0x4298: 0x0010, 0x4299: 0x0010, 0x429a: 0x0010, 0x429b: 0x0010, 0x429c: 0x0010, 0x429d: 0x0010,",
   "\t0x429e: 0x0010, 0x429f: 0x0010, 0x42a0: 0x0010, 0x42a1: 0x0010, 0x42a2: 0x0010, 0x42a3: 0x0010,",
   "\t0x42a4: 0x0010, 0x42a5: 0x0010, 0x42a6: 0x0010, 0x42a7: 0x0010, 0x42a9: 0x0010,",
   "\t0x42aa: 0x0010, 0x42ab: 0x0010, 0x42ac: 0x0010, 0x42ad: 0x0010, 0x42ae: 0x0010, 0x42af: 0x0010,",
   "\t0x42b0: 0x0010, 0x42b1: 0x0010, 0x42b2: 0x0010, 0x42b3: 0x0010, 0x42b4: 0x0010, 0x42b5: 0x0010,",
   "\t0x42b6: 0x0010,",
   "\t// Block 0x10b, offset 0x42c0",
   "\t0x42c0: 0x0001, 0x42c1: 0x0001, 0x42c2: 0x0001, 0x42c3: 0x0001, 0x42c4: 0x0001, 0x42c5: 0x0001,",
   "\t0x42c6: 0x0001, 0x42c8: 0x0001, 0x42c9: 0x0001, 0x42cb: 0x0001,",
   "\t0x42cc: 0x0001, 0x42cd: 0x0001, 0x42ce: 0x0001, 0x42cf: 0x0001, 0x42d0: 0x0001, 0x42d1: 0x0001,",
   "\t0x42d2: 0x0001, 0x42d3: 0x0001, 0x42d4: 0x0001, 0x42d5: 0x0001, 0x42d6: 0x0001, 0x42d7: 0x0001,",
   "\t0x42d8: 0x0001, 0x42d9: 0x0001, 0x42da: 0x0001, 0x42db: 0x0001, 0x42dc: 0x0001, 0x42dd: 0x0001,",
   "\t0x42de: 0x0001, 0x42df: 0x0001, 0x42e0: 0x0001, 0x42e1: 0x0001, 0x42e2: 0x0001, 0x42e3: 0x0001,",
   "\t0x42e4: 0x0001, 0x42e5: 0x0001, 0x42e6: 0x0001, 0x42e7: 0x0001, 0x42e8: 0x0001, 0x42e9: 0x0001,",
   "\t0x42ea: 0x0001, 0x42eb: 0x0001, 0x42ec: 0x0001, 0x42ed: 0x0001, 0x42ee: 0x0001, 0x42ef: 0x0001,",
   "\t0x42f0: 0x0001, 0x42f1: 0x0010, 0x42f2: 0x0010, 0x42f3: 0x0010, 0x42f4: 0x0010, 0x42f5: 0x0010,",
   "\t0x42f6: 0x0010, 0x42fa: 0x0010,",
   "\t0x42fc: 0x0010, 0x42fd: 0x0010, 0x42ff: 0x0010,",
   "\t// Block 0x10c, offset 0x4300",
   "\t0x4300: 0x0010, 0x4301: 0x0010, 0x4302: 0x0010, 0x4303: 0x0010, 0x4304: 0x0010, 0x4305: 0x0010,",
   "\t0x4306: 0x0001, 0x4307: 0x0010,",
   "\t0x4310: 0x8000, 0x4311: 0x8000,",
   "\t0x4312: 0x8000, 0x4313: 0x8000, 0x4314: 0x8000, 0x4315: 0x8000, 0x4316: 0x8000, 0x4317: 0x8000,",
   "\t0x4318: 0x8000, 0x4319: 0x8000,",
   "\t0x4320: 0x0001, 0x4321: 0x0001, 0x4322: 0x0001, 0x4323: 0x0001,",
   "\t0x4324: 0x0001, 0x4325: 0x0001, 0x4327: 0x0001, 0x4328: 0x0001,",
   "\t0x432a: 0x0001, 0x432b: 0x0001, 0x432c: 0x0001, 0x432d: 0x0001, 0x432e: 0x0001, 0x432f: 0x0001,",
   "\t0x4330: 0x0001, 0x4331: 0x0001, 0x4332: 0x0001, 0x4333: 0x0001, 0x4334: 0x0001, 0x4335: 0x0001,",
   "\t0x4336: 0x0001, 0x4337: 0x0001, 0x4338: 0x0001, 0x4339: 0x0001, 0x433a: 0x0001, 0x433b: 0x0001,",
   "\t0x433c: 0x0001, 0x433d: 0x0001, 0x433e: 0x0001, 0x433f: 0x0001,",
   "\t// Block 0x10d, offset 0x4340",
   "\t0x4340: 0x0001, 0x4341: 0x0001, 0x4342: 0x0001, 0x4343: 0x0001, 0x4344: 0x0001, 0x4345: 0x0001,",
   "\t0x4346: 0x0001, 0x4347: 0x0001, 0x4348: 0x0001, 0x4349: 0x0001, 0x434a: 0x0010, 0x434b: 0x0010,",
   "\t0x434c: 0x0010, 0x434d: 0x0010, 0x434e: 0x0010, 0x4350: 0x0010, 0x4351: 0x0010,",
   "\t0x4353: 0x0010, 0x4354: 0x0010, 0x4355: 0x0010, 0x4356: 0x0010, 0x4357: 0x0010,",
   "\t0x4358: 0x0001,",
   "\t0x4360: 0x8000, 0x4361: 0x8000, 0x4362: 0x8000, 0x4363: 0x8000,",
   "\t0x4364: 0x8000, 0x4365: 0x8000, 0x4366: 0x8000, 0x4367: 0x8000, 0x4368: 0x8000, 0x4369: 0x8000,",
   "\t0x4370: 0x0001, 0x4371: 0x0001, 0x4372: 0x0001, 0x4373: 0x0001, 0x4374: 0x0001, 0x4375: 0x0001,",
   "\t0x4376: 0x0001, 0x4377: 0x0001, 0x4378: 0x0001, 0x4379: 0x0001, 0x437a: 0x0001, 0x437b: 0x0001,",
   "\t0x437c: 0x0001, 0x437d: 0x0001, 0x437e: 0x0001, 0x437f: 0x0001,",
   "\t// Block 0x10e, offset 0x4380",
   "\t0x4380: 0x0001, 0x4381: 0x0001, 0x4382: 0x0001, 0x4383: 0x0001, 0x4384: 0x0001, 0x4385: 0x0001,",
   "\t0x4386: 0x0001, 0x4387: 0x0001, 0x4388: 0x0001, 0x4389: 0x0001, 0x438a: 0x0001, 0x438b: 0x0001,",
   "\t0x438c: 0x0001, 0x438d: 0x0001, 0x438e: 0x0001, 0x438f: 0x0001, 0x4390: 0x0001, 0x4391: 0x0001,",
   "\t0x4392: 0x0001, 0x4393: 0x0001, 0x4394: 0x0001, 0x4395: 0x0001, 0x4396: 0x0001, 0x4397: 0x0001,",
   "\t0x4398: 0x0001, 0x4399: 0x0001, 0x439a: 0x0001, 0x439b: 0x0001,",
   "\t0x43a0: 0x8000, 0x43a1: 0x8000, 0x43a2: 0x8000, 0x43a3: 0x8000,",
   "\t0x43a4: 0x8000, 0x43a5: 0x8000, 0x43a6: 0x8000, 0x43a7: 0x8000, 0x43a8: 0x8000, 0x43a9: 0x8000,",
   "\t// Block 0x10f, offset 0x43c0",
   "\t0x43e0: 0x0001, 0x43e1: 0x0001, 0x43e2: 0x0001, 0x43e3: 0x0001,",
   "\t0x43e4: 0x0001, 0x43e5: 0x0001, 0x43e6: 0x0001, 0x43e7: 0x0001, 0x43e8: 0x0001, 0x43e9: 0x0001,",
   "\t0x43ea: 0x0001, 0x43eb: 0x0001, 0x43ec: 0x0001, 0x43ed: 0x0001, 0x43ee: 0x0001, 0x43ef: 0x0001,",
   "\t0x43f0: 0x0001, 0x43f1: 0x0001, 0x43f2: 0x0001, 0x43f3: 0x0010, 0x43f4: 0x0010, 0x43f5: 0x0010,",
   "\t0x43f6: 0x0010,"]
theorem v16_eq : v16 = (layout 6 4 256 ((Table.Values.blocks.drop 256).take 16)).map String.ofList := by
  kernel_rfl
/-- words/trie.go:2644-2779, `wordsValues` from block 0x110 on. -/
def v17 : List String :=
  ["\t// Block 0x110, offset 0x4400",
   "\t0x4400: 0x0010, 0x4401: 0x0010, 0x4402: 0x0001, 0x4403: 0x0010, 0x4404: 0x0001, 0x4405: 0x0001,",
   "\t0x4406: 0x0001, 0x4407: 0x0001, 0x4408: 0x0001, 0x4409: 0x0001, 0x440a: 0x0001, 0x440b: 0x0001,",
   "\t0x440c: 0x0001, 0x440d: 0x0001, 0x440e: 0x0001, 0x440f: 0x0001, 0x4410: 0x0001,",
   "\t0x4412: 0x0001, 0x4413: 0x0001, 0x4414: 0x0001, 0x4415: 0x0001, 0x4416: 0x0001, 0x4417: 0x0001,",
   "\t0x4418: 0x0001, 0x4419: 0x0001, 0x441a: 0x0001, 0x441b: 0x0001, 0x441c: 0x0001, 0x441d: 0x0001,",
   "\t0x441e: 0x0001, 0x441f: 0x0001, 0x4420: 0x0001, 0x4421: 0x0001, 0x4422: 0x0001, 0x4423: 0x0001,",
   "\t0x4424: 0x0001, 0x4425: 0x0001, 0x4426: 0x0001, 0x4427: 0x0001, 0x4428: 0x0001, 0x4429: 0x0001,",
   "\t0x442a: 0x0001, 0x442b: 0x0001, 0x442c: 0x0001, 0x442d: 0x0001, 0x442e: 0x0001, 0x442f: 0x0001,",
   "\t0x4430: 0x0001, 0x4431: 0x0001, 0x4432: 0x0001, 0x4433: 0x0001, 0x4434: 0x0010, 0x4435: 0x0010,",
   "\t0x4436: 0x0010, 0x4437: 0x0010, 0x4438: 0x0010, 0x4439: 0x0010, 0x443a: 0x0010,",
   "\t0x443e: 0x0010, 0x443f: 0x0010,",
   "\t// Block 0x111, offset 0x4440",
   "\t0x4440: 0x0010, 0x4441: 0x0010, 0x4442: 0x0010,",
   "\t0x4450: 0x8000, 0x4451: 0x8000,",
   "\t0x4452: 0x8000, 0x4453: 0x8000, 0x4454: 0x8000, 0x4455: 0x8000, 0x4456: 0x8000, 0x4457: 0x8000,",
   "\t0x4458: 0x8000, 0x4459: 0x8000, 0x445a: 0x0010,",
   "\t// Block 0x112, offset 0x4480",
   "\t0x44b0: 0x0001,",
   "\t// Block 0x113, offset 0x44c0",
   "\t0x44c0: 0x0001, 0x44c1: 0x0001, 0x44c2: 0x0001, 0x44c3: 0x0001, 0x44c4: 0x0001, 0x44c5: 0x0001,",
   "\t0x44c6: 0x0001, 0x44c7: 0x0001, 0x44c8: 0x0001, 0x44c9: 0x0001, 0x44ca: 0x0001, 0x44cb: 0x0001,",
   "\t0x44cc: 0x0001, 0x44cd: 0x0001, 0x44ce: 0x0001, 0x44cf: 0x0001, 0x44d0: 0x0001, 0x44d1: 0x0001,",
   "\t0x44d2: 0x0001, 0x44d3: 0x0001, 0x44d4: 0x0001, 0x44d5: 0x0001, 0x44d6: 0x0001, 0x44d7: 0x0001,",
   "\t0x44d8: 0x0001, 0x44d9: 0x0001, 0x44da: 0x0001, 0x44db: 0x0001, 0x44dc: 0x0001, 0x44dd: 0x0001,",
   "\t0x44de: 0x0001, 0x44df: 0x0001, 0x44e0: 0x0001, 0x44e1: 0x0001, 0x44e2: 0x0001, 0x44e3: 0x0001,",
   "\t0x44e4: 0x0001, 0x44e5: 0x0001, 0x44e6: 0x0001, 0x44e7: 0x0001, 0x44e8: 0x0001, 0x44e9: 0x0001,",
   "\t0x44ea: 0x0001, 0x44eb: 0x0001, 0x44ec: 0x0001, 0x44ed: 0x0001, 0x44ee: 0x0001,",
   "\t// Block 0x114, offset 0x4500",
   "\t0x4500: 0x0001, 0x4501: 0x0001, 0x4502: 0x0001, 0x4503: 0x0001,",
   "\t// Block 0x115, offset 0x4540",
   "\t0x4540: 0x0001, 0x4541: 0x0001, 0x4542: 0x0001, 0x4543: 0x0001, 0x4544: 0x0001, 0x4545: 0x0001,",
   "\t0x4546: 0x0001, 0x4547: 0x0001, 0x4548: 0x0001, 0x4549: 0x0001, 0x454a: 0x0001, 0x454b: 0x0001,",
   "\t0x454c: 0x0001, 0x454d: 0x0001, 0x454e: 0x0001, 0x454f: 0x0001, 0x4550: 0x0001, 0x4551: 0x0001,",
   "\t0x4552: 0x0001, 0x4553: 0x0001, 0x4554: 0x0001, 0x4555: 0x0001, 0x4556: 0x0001, 0x4557: 0x0001,",
   "\t0x4558: 0x0001, 0x4559: 0x0001, 0x455a: 0x0001, 0x455b: 0x0001, 0x455c: 0x0001, 0x455d: 0x0001,",
   "\t0x455e: 0x0001, 0x455f: 0x0001, 0x4560: 0x0001, 0x4561: 0x0001, 0x4562: 0x0001, 0x4563: 0x0001,",
   "\t0x4564: 0x0001, 0x4565: 0x0001, 0x4566: 0x0001, 0x4567: 0x0001, 0x4568: 0x0001, 0x4569: 0x0001,",
   "\t0x456a: 0x0001, 0x456b: 0x0001, 0x456c: 0x0001, 0x456d: 0x0001, 0x456e: 0x0001, 0x456f: 0x0001,",
   "\t0x4570: 0x0001,",
   "\t// Block 0x116, offset 0x4580",
   "\t0x4580: 0x0001, 0x4581: 0x0001, 0x4582: 0x0001, 0x4583: 0x0001, 0x4584: 0x0001, 0x4585: 0x0001,",
   "\t0x4586: 0x0001, 0x4587: 0x0001, 0x4588: 0x0001, 0x4589: 0x0001, 0x458a: 0x0001, 0x458b: 0x0001,",
   "\t0x458c: 0x0001, 0x458d: 0x0001, 0x458e: 0x0001, 0x458f: 0x0001, 0x4590: 0x0001, 0x4591: 0x0001,",
   "\t0x4592: 0x0001, 0x4593: 0x0001, 0x4594: 0x0001, 0x4595: 0x0001, 0x4596: 0x0001, 0x4597: 0x0001,",
   "\t0x4598: 0x0001, 0x4599: 0x0001, 0x459a: 0x0001, 0x459b: 0x0001, 0x459c: 0x0001, 0x459d: 0x0001,",
   "\t0x459e: 0x0001, 0x459f: 0x0001, 0x45a0: 0x0001, 0x45a1: 0x0001, 0x45a2: 0x0001, 0x45a3: 0x0001,",
   "\t0x45a4: 0x0001, 0x45a5: 0x0001, 0x45a6: 0x0001, 0x45a7: 0x0001, 0x45a8: 0x0001, 0x45a9: 0x0001,",
   "\t0x45aa: 0x0001, 0x45ab: 0x0001, 0x45ac: 0x0001, 0x45ad: 0x0001, 0x45ae: 0x0001, 0x45af: 0x0001,",
   "\t0x45b0: 0x0080, 0x45b1: 0x0080, 0x45b2: 0x0080, 0x45b3: 0x0080, 0x45b4: 0x0080, 0x45b5: 0x0080,",
   "\t0x45b6: 0x0080, 0x45b7: 0x0080, 0x45b8: 0x0080, 0x45b9: 0x0080, 0x45ba: 0x0080, 0x45bb: 0x0080,",
   "\t0x45bc: 0x0080, 0x45bd: 0x0080, 0x45be: 0x0080, 0x45bf: 0x0080,",
   "\t// Block 0x117, offset 0x45c0",
   "\t0x45c0: 0x0010, 0x45c1: 0x0001, 0x45c2: 0x0001, 0x45c3: 0x0001, 0x45c4: 0x0001, 0x45c5: 0x0001,",
   "\t0x45c6: 0x0001, 0x45c7: 0x0010, 0x45c8: 0x0010, 0x45c9: 0x0010, 0x45ca: 0x0010, 0x45cb: 0x0010,",
   "\t0x45cc: 0x0010, 0x45cd: 0x0010, 0x45ce: 0x0010, 0x45cf: 0x0010, 0x45d0: 0x0010, 0x45d1: 0x0010,",
   "\t0x45d2: 0x0010, 0x45d3: 0x0010, 0x45d4: 0x0010, 0x45d5: 0x0010,",
   "\t0x45e0: 0x0001, 0x45e1: 0x0001, 0x45e2: 0x0001, 0x45e3: 0x0001,",
   "\t0x45e4: 0x0001, 0x45e5: 0x0001, 0x45e6: 0x0001, 0x45e7: 0x0001, 0x45e8: 0x0001, 0x45e9: 0x0001,",
   "\t0x45ea: 0x0001, 0x45eb: 0x0001, 0x45ec: 0x0001, 0x45ed: 0x0001, 0x45ee: 0x0001, 0x45ef: 0x0001,",
   "\t0x45f0: 0x0001, 0x45f1: 0x0001, 0x45f2: 0x0001, 0x45f3: 0x0001, 0x45f4: 0x0001, 0x45f5: 0x0001,",
   "\t0x45f6: 0x0001, 0x45f7: 0x0001, 0x45f8: 0x0001, 0x45f9: 0x0001, 0x45fa: 0x0001, 0x45fb: 0x0001,",
   "\t0x45fc: 0x0001, 0x45fd: 0x0001, 0x45fe: 0x0001, 0x45ff: 0x0001,",
   "\t// Block 0x118, offset 0x4600",
   "\t0x4600: 0x0001, 0x4601: 0x0001, 0x4602: 0x0001, 0x4603: 0x0001, 0x4604: 0x0001, 0x4605: 0x0001,",
   "\t0x4606: 0x0001,",
   "\t// Block 0x119, offset 0x4640",
   "\t0x4640: 0x0001, 0x4641: 0x0001, 0x4642: 0x0001, 0x4643: 0x0001, 0x4644: 0x0001, 0x4645: 0x0001,",
   "\t0x4646: 0x0001, 0x4647: 0x0001, 0x4648: 0x0001, 0x4649: 0x0001, 0x464a: 0x0001, 0x464b: 0x0001,",
   "\t0x464c: 0x0001, 0x464d: 0x0001, 0x464e: 0x0001, 0x464f: 0x0001, 0x4650: 0x0001, 0x4651: 0x0001,",
   "\t0x4652: 0x0001, 0x4653: 0x0001, 0x4654: 0x0001, 0x4655: 0x0001, 0x4656: 0x0001, 0x4657: 0x0001,",
   "\t0x4658: 0x0001, 0x4659: 0x0001, 0x465a: 0x0001, 0x465b: 0x0001, 0x465c: 0x0001, 0x465d: 0x0001,",
   "\t0x465e: 0x0010, 0x465f: 0x0010, 0x4660: 0x0010, 0x4661: 0x0010, 0x4662: 0x0010, 0x4663: 0x0010,",
   "\t0x4664: 0x0010, 0x4665: 0x0010, 0x4666: 0x0010, 0x4667: 0x0010, 0x4668: 0x0010, 0x4669: 0x0010,",
   "\t0x466a: 0x0010, 0x466b: 0x0010, 0x466c: 0x0010, 0x466d: 0x0010, 0x466e: 0x0010, 0x466f: 0x0010,",
   "\t0x4670: 0x8000, 0x4671: 0x8000, 0x4672: 0x8000, 0x4673: 0x8000, 0x4674: 0x8000, 0x4675: 0x8000,",
   "\t0x4676: 0x8000, 0x4677: 0x8000, 0x4678: 0x8000, 0x4679: 0x8000,",
   "\t// Block 0x11a, offset 0x4680",
   "\t0x4680: 0x0001, 0x4681: 0x0001, 0x4682: 0x0001, 0x4683: 0x0001, 0x4684: 0x0001, 0x4685: 0x0001,",
   "\t0x4686: 0x0001, 0x4687: 0x0001, 0x4688: 0x0001, 0x4689: 0x0001, 0x468a: 0x0001, 0x468b: 0x0001,",
   "\t0x468c: 0x0001, 0x468d: 0x0001, 0x468e: 0x0001, 0x468f: 0x0001, 0x4690: 0x0001, 0x4691: 0x0001,",
   "\t0x4692: 0x0001, 0x4693: 0x0001, 0x4694: 0x0001, 0x4695: 0x0001, 0x4696: 0x0001, 0x4697: 0x0001,",
   "\t0x4698: 0x0001, 0x4699: 0x0001, 0x469a: 0x0001, 0x469b: 0x0001, 0x469c: 0x0001, 0x469d: 0x0001,",
   "\t0x469e: 0x0001, 0x46a0: 0x8000, 0x46a1: 0x8000, 0x46a2: 0x8000, 0x46a3: 0x8000,",
   "\t0x46a4: 0x8000, 0x46a5: 0x8000, 0x46a6: 0x8000, 0x46a7: 0x8000, 0x46a8: 0x8000, 0x46a9: 0x8000,",
   "\t0x46b0: 0x0001, 0x46b1: 0x0001, 0x46b2: 0x0001, 0x46b3: 0x0001, 0x46b4: 0x0001, 0x46b5: 0x0001,",
   "\t0x46b6: 0x0001, 0x46b7: 0x0001, 0x46b8: 0x0001, 0x46b9: 0x0001, 0x46ba: 0x0001, 0x46bb: 0x0001,",
   "\t0x46bc: 0x0001, 0x46bd: 0x0001, 0x46be: 0x0001, 0x46bf: 0x0001,",
   "\t// Block 0x11b, offset 0x46c0",
   "\t0x46c0: 0x0001, 0x46c1: 0x0001, 0x46c2: 0x0001, 0x46c3: 0x0001, 0x46c4: 0x0001, 0x46c5: 0x0001,",
   "\t0x46c6: 0x0001, 0x46c7: 0x0001, 0x46c8: 0x0001, 0x46c9: 0x0001, 0x46ca: 0x0001, 0x46cb: 0x0001,",
   "\t0x46cc: 0x0001, 0x46cd: 0x0001, 0x46ce: 0x0001, 0x46cf: 0x0001, 0x46d0: 0x0001, 0x46d1: 0x0001,",
   "\t0x46d2: 0x0001, 0x46d3: 0x0001, 0x46d4: 0x0001, 0x46d5: 0x0001, 0x46d6: 0x0001, 0x46d7: 0x0001,",
   "\t0x46d8: 0x0001, 0x46d9: 0x0001, 0x46da: 0x0001, 0x46db: 0x0001, 0x46dc: 0x0001, 0x46dd: 0x0001,",
   "\t0x46de: 0x0001, 0x46df: 0x0001, 0x46e0: 0x0001, 0x46e1: 0x0001, 0x46e2: 0x0001, 0x46e3: 0x0001,",
   "\t0x46e4: 0x0001, 0x46e5: 0x0001, 0x46e6: 0x0001, 0x46e7: 0x0001, 0x46e8: 0x0001, 0x46e9: 0x0001,",
   "\t0x46ea: 0x0001, 0x46eb: 0x0001, 0x46ec: 0x0001, 0x46ed: 0x0001, 0x46ee: 0x0001, 0x46ef: 0x0001,",
   "\t0x46f0: 0x0001, 0x46f1: 0x0001, 0x46f2: 0x0001, 0x46f3: 0x0001, 0x46f4: 0x0001, 0x46f5: 0x0001,",
   "\t0x46f6: 0x0001, 0x46f7: 0x0001, 0x46f8: 0x0001, 0x46f9: 0x0001, 0x46fa: 0x0001, 0x46fb: 0x0001,",
   "\t0x46fc: 0x0001, 0x46fd: 0x0001, 0x46fe: 0x0001,",
   "\t// Block 0x11c, offset 0x4700",
   "\t0x4700: 0x8000, 0x4701: 0x8000, 0x4702: 0x8000, 0x4703: 0x8000, 0x4704: 0x8000, 0x4705: 0x8000,",
   "\t0x4706: 0x8000, 0x4707: 0x8000, 0x4708: 0x8000, 0x4709: 0x8000,",
   "\t0x4710: 0x0001, 0x4711: 0x0001,",
   "\t0x4712: 0x0001, 0x4713: 0x0001, 0x4714: 0x0001, 0x4715: 0x0001, 0x4716: 0x0001, 0x4717: 0x0001,",
   "\t0x4718: 0x0001, 0x4719: 0x0001, 0x471a: 0x0001, 0x471b: 0x0001, 0x471c: 0x0001, 0x471d: 0x0001,",
   "\t0x471e: 0x0001, 0x471f: 0x0001, 0x4720: 0x0001, 0x4721: 0x0001, 0x4722: 0x0001, 0x4723: 0x0001,",
   "\t0x4724: 0x0001, 0x4725: 0x0001, 0x4726: 0x0001, 0x4727: 0x0001, 0x4728: 0x0001, 0x4729: 0x0001,",
   "\t0x472a: 0x0001, 0x472b: 0x0001, 0x472c: 0x0001, 0x472d: 0x0001,",
   "\t0x4730: 0x0010, 0x4731: 0x0010, 0x4732: 0x0010, 0x4733: 0x0010, 0x4734: 0x0010,",
   "\t// Block 0x11d, offset 0x4740",
   "\t0x4740: 0x0001, 0x4741: 0x0001, 0x4742: 0x0001, 0x4743: 0x0001, 0x4744: 0x0001, 0x4745: 0x0001,",
   "\t0x4746: 0x0001, 0x4747: 0x0001, 0x4748: 0x0001, 0x4749: 0x0001, 0x474a: 0x0001, 0x474b: 0x0001,",
   "\t0x474c: 0x0001, 0x474d: 0x0001, 0x474e: 0x0001, 0x474f: 0x0001, 0x4750: 0x0001, 0x4751: 0x0001,",
   "\t0x4752: 0x0001, 0x4753: 0x0001, 0x4754: 0x0001, 0x4755: 0x0001, 0x4756: 0x0001, 0x4757: 0x0001,",
   "\t0x4758: 0x0001, 0x4759: 0x0001, 0x475a: 0x0001, 0x475b: 0x0001, 0x475c: 0x0001, 0x475d: 0x0001,",
   "\t0x475e: 0x0001, 0x475f: 0x0001, 0x4760: 0x0001, 0x4761: 0x0001, 0x4762: 0x0001, 0x4763: 0x0001,",
   "\t0x4764: 0x0001, 0x4765: 0x0001, 0x4766: 0x0001, 0x4767: 0x0001, 0x4768: 0x0001, 0x4769: 0x0001,",
   "\t0x476a: 0x0001, 0x476b: 0x0001, 0x476c: 0x0001, 0x476d: 0x0001, 0x476e: 0x0001, 0x476f: 0x0001,",
   "\t0x4770: 0x0010, 0x4771: 0x0010, 0x4772: 0x0010, 0x4773: 0x0010, 0x4774: 0x0010, 0x4775: 0x0010,",
   "\t0x4776: 0x0010,",
   "\t// Block 0x11e, offset 0x4780",
   "\t0x4780: 0x0001, 0x4781: 0x0001, 0x4782: 0x0001, 0x4783: 0x0001,",
   "\t0x4790: 0x8000, 0x4791: 0x8000,",
   "\t0x4792: 0x8000, 0x4793: 0x8000, 0x4794: 0x8000, 0x4795: 0x8000, 0x4796: 0x8000, 0x4797: 0x8000,",
   "\t0x4798: 0x8000, 0x4799: 0x8000,",
   "\t0x47a3: 0x0001,",
   "\t0x47a4: 0x0001, 0x47a5: 0x0001, 0x47a6: 0x0001, 0x47a7: 0x0001, 0x47a8: 0x0001, 0x47a9: 0x0001,",
   "\t0x47aa: 0x0001, 0x47ab: 0x0001, 0x47ac: 0x0001, 0x47ad: 0x0001, 0x47ae: 0x0001, 0x47af: 0x0001,",
   "\t0x47b0: 0x0001, 0x47b1: 0x0001, 0x47b2: 0x0001, 0x47b3: 0x0001, 0x47b4: 0x0001, 0x47b5: 0x0001,",
   "\t0x47b6: 0x0001, 0x47b7: 0x0001,",
   "\t0x47bd: 0x0001, 0x47be: 0x0001, 0x47bf: 0x0001,",
   "\t// Block 0x11f, offset 0x47c0",
   "\t0x47c0: 0x0001, 0x47c1: 0x0001, 0x47c2: 0x0001, 0x47c3: 0x0001, 0x47c4: 0x0001, 0x47c5: 0x0001,",
   "\t0x47c6: 0x0001, 0x47c7: 0x0001, 0x47c8: 0x0001, 0x47c9: 0x0001, 0x47ca: 0x0001, 0x47cb: 0x0001,",
   "\t0x47cc: 0x0001, 0x47cd: 0x0001, 0x47ce: 0x0001, 0x47cf: 0x0001,"]
theorem v17_eq : v17 = (layout 6 4 272 ((Table.Values.blocks.drop 272).take 16)).map String.ofList := by
  kernel_rfl
/-- words/trie.go:2780-2896, `wordsValues` from block 0x120 on. -/
def v18 : List String :=
  ["\t// Block 0x120, offset 0x4800",
   "\t0x4800: 0x0001, 0x4801: 0x0001, 0x4802: 0x0001, 0x4803: 0x0001, 0x4804: 0x0001, 0x4805: 0x0001,",
   "\t0x4806: 0x0001, 0x4807: 0x0001, 0x4808: 0x0001, 0x4809: 0x0001, 0x480a: 0x0001, 0x480b: 0x0001,",
   "\t0x480c: 0x0001, 0x480d: 0x0001, 0x480e: 0x0001, 0x480f: 0x0001, 0x4810: 0x0001, 0x4811: 0x0001,",
   "\t0x4812: 0x0001, 0x4813: 0x0001, 0x4814: 0x0001, 0x4815: 0x0001, 0x4816: 0x0001, 0x4817: 0x0001,",
   "\t0x4818: 0x0001, 0x4819: 0x0001, 0x481a: 0x0001, 0x481b: 0x0001, 0x481c: 0x0001, 0x481d: 0x0001,",
   "\t0x481e: 0x0001, 0x481f: 0x0001, 0x4820: 0x0001, 0x4821: 0x0001, 0x4822: 0x0001, 0x4823: 0x0001,",
   "\t0x4824: 0x0001, 0x4825: 0x0001, 0x4826: 0x0001, 0x4827: 0x0001, 0x4828: 0x0001, 0x4829: 0x0001,",
   "\t0x482a: 0x0001, 0x482b: 0x0001, 0x482c: 0x0001,",
   "\t0x4830: 0x8000, 0x4831: 0x8000, 0x4832: 0x8000, 0x4833: 0x8000, 0x4834: 0x8000, 0x4835: 0x8000,",
   "\t0x4836: 0x8000, 0x4837: 0x8000, 0x4838: 0x8000, 0x4839: 0x8000,",
   "\t// Block 0x121, offset 0x4840",
   "\t0x4860: 0x0001, 0x4861: 0x0001, 0x4862: 0x0001, 0x4863: 0x0001,",
   "\t0x4864: 0x0001, 0x4865: 0x0001, 0x4866: 0x0001, 0x4867: 0x0001, 0x4868: 0x0001, 0x4869: 0x0001,",
   "\t0x486a: 0x0001, 0x486b: 0x0001, 0x486c: 0x0001, 0x486d: 0x0001, 0x486e: 0x0001, 0x486f: 0x0001,",
   "\t0x4870: 0x0001, 0x4871: 0x0001, 0x4872: 0x0001, 0x4873: 0x0001, 0x4874: 0x0001, 0x4875: 0x0001,",
   "\t0x4876: 0x0001, 0x4877: 0x0001, 0x4878: 0x0001, 0x487b: 0x0001,",
   "\t0x487c: 0x0001, 0x487d: 0x0001, 0x487e: 0x0001, 0x487f: 0x0001,",
   "\t// Block 0x122, offset 0x4880",
   "\t0x4880: 0x0001, 0x4881: 0x0001, 0x4882: 0x0001, 0x4883: 0x0001, 0x4884: 0x0001, 0x4885: 0x0001,",
   "\t0x4886: 0x0001, 0x4887: 0x0001, 0x4888: 0x0001, 0x4889: 0x0001, 0x488a: 0x0001, 0x488b: 0x0001,",
   "\t0x488c: 0x0001, 0x488d: 0x0001, 0x488e: 0x0001, 0x488f: 0x0001, 0x4890: 0x0001, 0x4891: 0x0001,",
   "\t0x4892: 0x0001, 0x4893: 0x0001,",
   "\t// Block 0x123, offset 0x48c0",
   "\t0x48c0: 0x0001, 0x48c1: 0x0001, 0x48c2: 0x0001, 0x48c3: 0x0001, 0x48c4: 0x0001, 0x48c5: 0x0001,",
   "\t0x48c6: 0x0001, 0x48c7: 0x0001, 0x48c8: 0x0001, 0x48c9: 0x0001, 0x48ca: 0x0001,",
   "\t0x48cf: 0x0010, 0x48d0: 0x0001, 0x48d1: 0x0010,",
   "\t0x48d2: 0x0010, 0x48d3: 0x0010, 0x48d4: 0x0010, 0x48d5: 0x0010, 0x48d6: 0x0010, 0x48d7: 0x0010,",
   "\t0x48d8: 0x0010, 0x48d9: 0x0010, 0x48da: 0x0010, 0x48db: 0x0010, 0x48dc: 0x0010, 0x48dd: 0x0010,",
   "\t0x48de: 0x0010, 0x48df: 0x0010, 0x48e0: 0x0010, 0x48e1: 0x0010, 0x48e2: 0x0010, 0x48e3: 0x0010,",
   "\t0x48e4: 0x0010, 0x48e5: 0x0010, 0x48e6: 0x0010, 0x48e7: 0x0010, 0x48e8: 0x0010, 0x48e9: 0x0010,",
   "\t0x48ea: 0x0010, 0x48eb: 0x0010, 0x48ec: 0x0010, 0x48ed: 0x0010, 0x48ee: 0x0010, 0x48ef: 0x0010,",
   "\t0x48f0: 0x0010, 0x48f1: 0x0010, 0x48f2: 0x0010, 0x48f3: 0x0010, 0x48f4: 0x0010, 0x48f5: 0x0010,",
   "\t0x48f6: 0x0010, 0x48f7: 0x0010, 0x48f8: 0x0010, 0x48f9: 0x0010, 0x48fa: 0x0010, 0x48fb: 0x0010,",
   "\t0x48fc: 0x0010, 0x48fd: 0x0010, 0x48fe: 0x0010, 0x48ff: 0x0010,",
   "\t// Block 0x124, offset 0x4900",
   "\t0x4900: 0x0010, 0x4901: 0x0010, 0x4902: 0x0010, 0x4903: 0x0010, 0x4904: 0x0010, 0x4905: 0x0010,",
   "\t0x4906: 0x0010, 0x4907: 0x0010,",
   "\t0x490f: 0x0010, 0x4910: 0x0010, 0x4911: 0x0010,",
   "\t0x4912: 0x0010, 0x4913: 0x0001, 0x4914: 0x0001, 0x4915: 0x0001, 0x4916: 0x0001, 0x4917: 0x0001,",
   "\t0x4918: 0x0001, 0x4919: 0x0001, 0x491a: 0x0001, 0x491b: 0x0001, 0x491c: 0x0001, 0x491d: 0x0001,",
   "\t0x491e: 0x0001, 0x491f: 0x0001,",
   "\t// Block 0x125, offset 0x4940",
   "\t0x4960: 0x0001, 0x4961: 0x0001, 0x4962: 0x0002, 0x4963: 0x0003,",
   "\t0x4964: 0x0010,",
   "\t0x4970: 0x0012, 0x4971: 0x0012,",
   "\t// Block 0x126, offset 0x4980",
   "\t0x49b0: 0x0202, 0x49b1: 0x0202, 0x49b2: 0x0202, 0x49b3: 0x0202, 0x49b5: 0x0202,",
   "\t0x49b6: 0x0202, 0x49b7: 0x0202, 0x49b8: 0x0202, 0x49b9: 0x0202, 0x49ba: 0x0202, 0x49bb: 0x0202,",
   "\t0x49bd: 0x0202, 0x49be: 0x0202,",
   "\t// Block 0x127, offset 0x49c0",
   "\t0x49c0: 0x0202, 0x49c1: 0x0002, 0x49c2: 0x0002, 0x49c3: 0x0002, 0x49c4: 0x0002, 0x49c5: 0x0002,",
   "\t0x49c6: 0x0002, 0x49c7: 0x0002, 0x49c8: 0x0002, 0x49c9: 0x0002, 0x49ca: 0x0002, 0x49cb: 0x0002,",
   "\t0x49cc: 0x0002, 0x49cd: 0x0002, 0x49ce: 0x0002, 0x49cf: 0x0002, 0x49d0: 0x0002, 0x49d1: 0x0002,",
   "\t0x49d2: 0x0002, 0x49d3: 0x0002, 0x49d4: 0x0002, 0x49d5: 0x0002, 0x49d6: 0x0002, 0x49d7: 0x0002,",
   "\t0x49d8: 0x0002, 0x49d9: 0x0002, 0x49da: 0x0002, 0x49db: 0x0002, 0x49dc: 0x0002, 0x49dd: 0x0002,",
   "\t0x49de: 0x0002, 0x49df: 0x0002, 0x49e0: 0x0002, 0x49e1: 0x0002, 0x49e2: 0x0002, 0x49e3: 0x0002,",
   "\t0x49e4: 0x0002, 0x49e5: 0x0002, 0x49e6: 0x0002, 0x49e7: 0x0002, 0x49e8: 0x0002, 0x49e9: 0x0002,",
   "\t0x49ea: 0x0002, 0x49eb: 0x0002, 0x49ec: 0x0002, 0x49ed: 0x0002, 0x49ee: 0x0002, 0x49ef: 0x0002,",
   "\t0x49f0: 0x0002, 0x49f1: 0x0002, 0x49f2: 0x0002, 0x49f3: 0x0002, 0x49f4: 0x0002, 0x49f5: 0x0002,",
   "\t0x49f6: 0x0002, 0x49f7: 0x0002, 0x49f8: 0x0002, 0x49f9: 0x0002, 0x49fa: 0x0002, 0x49fb: 0x0002,",
   "\t0x49fc: 0x0002, 0x49fd: 0x0002, 0x49fe: 0x0002, 0x49ff: 0x0002,",
   "\t// Block 0x128, offset 0x4a00",
   "\t0x4a00: 0x0002, 0x4a01: 0x0002, 0x4a02: 0x0002, 0x4a03: 0x0002, 0x4a04: 0x0002, 0x4a05: 0x0002,",
   "\t0x4a06: 0x0002, 0x4a07: 0x0002, 0x4a08: 0x0002, 0x4a09: 0x0002, 0x4a0a: 0x0002, 0x4a0b: 0x0002,",
   "\t0x4a0c: 0x0002, 0x4a0d: 0x0002, 0x4a0e: 0x0002, 0x4a0f: 0x0002, 0x4a10: 0x0002, 0x4a11: 0x0002,",
   "\t0x4a12: 0x0002, 0x4a13: 0x0002, 0x4a14: 0x0002, 0x4a15: 0x0002, 0x4a16: 0x0002, 0x4a17: 0x0002,",
   "\t0x4a18: 0x0002, 0x4a19: 0x0002, 0x4a1a: 0x0002, 0x4a1b: 0x0002, 0x4a1c: 0x0002, 0x4a1d: 0x0002,",
   "\t0x4a1e: 0x0002, 0x4a1f: 0x0002, 0x4a20: 0x0202, 0x4a21: 0x0202, 0x4a22: 0x0202,",
   "\t0x4a32: 0x0002,",
   "\t// Block 0x129, offset 0x4a40",
   "\t0x4a50: 0x0002, 0x4a51: 0x0002,",
   "\t0x4a52: 0x0002, 0x4a55: 0x0202,",
   "\t0x4a64: 0x0202, 0x4a65: 0x0202, 0x4a66: 0x0202, 0x4a67: 0x0202,",
   "\t// Block 0x12a, offset 0x4a80",
   "\t0x4a80: 0x0001, 0x4a81: 0x0001, 0x4a82: 0x0001, 0x4a83: 0x0001, 0x4a84: 0x0001, 0x4a85: 0x0001,",
   "\t0x4a86: 0x0001, 0x4a87: 0x0001, 0x4a88: 0x0001, 0x4a89: 0x0001, 0x4a8a: 0x0001, 0x4a8b: 0x0001,",
   "\t0x4a8c: 0x0001, 0x4a8d: 0x0001, 0x4a8e: 0x0001, 0x4a8f: 0x0001, 0x4a90: 0x0001, 0x4a91: 0x0001,",
   "\t0x4a92: 0x0001, 0x4a93: 0x0001, 0x4a94: 0x0001, 0x4a95: 0x0001, 0x4a96: 0x0001, 0x4a97: 0x0001,",
   "\t0x4a98: 0x0001, 0x4a99: 0x0001, 0x4a9a: 0x0001, 0x4a9b: 0x0001, 0x4a9c: 0x0001, 0x4a9d: 0x0001,",
   "\t0x4a9e: 0x0001, 0x4a9f: 0x0001, 0x4aa0: 0x0001, 0x4aa1: 0x0001, 0x4aa2: 0x0001, 0x4aa3: 0x0001,",
   "\t0x4aa4: 0x0001, 0x4aa5: 0x0001, 0x4aa6: 0x0001, 0x4aa7: 0x0001, 0x4aa8: 0x0001, 0x4aa9: 0x0001,",
   "\t0x4aaa: 0x0001,",
   "\t0x4ab0: 0x0001, 0x4ab1: 0x0001, 0x4ab2: 0x0001, 0x4ab3: 0x0001, 0x4ab4: 0x0001, 0x4ab5: 0x0001,",
   "\t0x4ab6: 0x0001, 0x4ab7: 0x0001, 0x4ab8: 0x0001, 0x4ab9: 0x0001, 0x4aba: 0x0001, 0x4abb: 0x0001,",
   "\t0x4abc: 0x0001,",
   "\t// Block 0x12b, offset 0x4ac0",
   "\t0x4ac0: 0x0001, 0x4ac1: 0x0001, 0x4ac2: 0x0001, 0x4ac3: 0x0001, 0x4ac4: 0x0001, 0x4ac5: 0x0001,",
   "\t0x4ac6: 0x0001, 0x4ac7: 0x0001, 0x4ac8: 0x0001,",
   "\t0x4ad0: 0x0001, 0x4ad1: 0x0001,",
   "\t0x4ad2: 0x0001, 0x4ad3: 0x0001, 0x4ad4: 0x0001, 0x4ad5: 0x0001, 0x4ad6: 0x0001, 0x4ad7: 0x0001,",
   "\t0x4ad8: 0x0001, 0x4ad9: 0x0001, 0x4add: 0x0010,",
   "\t0x4ade: 0x0010, 0x4ae0: 0x0080, 0x4ae1: 0x0080, 0x4ae2: 0x0080, 0x4ae3: 0x0080,",
   "\t// Block 0x12c, offset 0x4b00",
   "\t0x4b30: 0x8000, 0x4b31: 0x8000, 0x4b32: 0x8000, 0x4b33: 0x8000, 0x4b34: 0x8000, 0x4b35: 0x8000,",
   "\t0x4b36: 0x8000, 0x4b37: 0x8000, 0x4b38: 0x8000, 0x4b39: 0x8000,",
   "\t// Block 0x12d, offset 0x4b40",
   "\t0x4b40: 0x0010, 0x4b41: 0x0010, 0x4b42: 0x0010, 0x4b43: 0x0010, 0x4b44: 0x0010, 0x4b45: 0x0010,",
   "\t0x4b46: 0x0010, 0x4b47: 0x0010, 0x4b48: 0x0010, 0x4b49: 0x0010, 0x4b4a: 0x0010, 0x4b4b: 0x0010,",
   "\t0x4b4c: 0x0010, 0x4b4d: 0x0010, 0x4b4e: 0x0010, 0x4b4f: 0x0010, 0x4b50: 0x0010, 0x4b51: 0x0010,",
   "\t0x4b52: 0x0010, 0x4b53: 0x0010, 0x4b54: 0x0010, 0x4b55: 0x0010, 0x4b56: 0x0010, 0x4b57: 0x0010,",
   "\t0x4b58: 0x0010, 0x4b59: 0x0010, 0x4b5a: 0x0010, 0x4b5b: 0x0010, 0x4b5c: 0x0010, 0x4b5d: 0x0010,",
   "\t0x4b5e: 0x0010, 0x4b5f: 0x0010, 0x4b60: 0x0010, 0x4b61: 0x0010, 0x4b62: 0x0010, 0x4b63: 0x0010,",
   "\t0x4b64: 0x0010, 0x4b65: 0x0010, 0x4b66: 0x0010, 0x4b67: 0x0010, 0x4b68: 0x0010, 0x4b69: 0x0010,",
   "\t0x4b6a: 0x0010, 0x4b6b: 0x0010, 0x4b6c: 0x0010, 0x4b6d: 0x0010,",
   "\t0x4b70: 0x0010, 0x4b71: 0x0010, 0x4b72: 0x0010, 0x4b73: 0x0010, 0x4b74: 0x0010, 0x4b75: 0x0010,",
   "\t0x4b76: 0x0010, 0x4b77: 0x0010, 0x4b78: 0x0010, 0x4b79: 0x0010, 0x4b7a: 0x0010, 0x4b7b: 0x0010,",
   "\t0x4b7c: 0x0010, 0x4b7d: 0x0010, 0x4b7e: 0x0010, 0x4b7f: 0x0010,",
   "\t// Block 0x12e, offset 0x4b80",
   "\t0x4b80: 0x0010, 0x4b81: 0x0010, 0x4b82: 0x0010, 0x4b83: 0x0010, 0x4b84: 0x0010, 0x4b85: 0x0010,",
   "\t0x4b86: 0x0010,",
   "\t// Block 0x12f, offset 0x4bc0",
   "\t0x4be5: 0x0010, 0x4be6: 0x0010, 0x4be7: 0x0010, 0x4be8: 0x0010, 0x4be9: 0x0010,",
   "\t0x4bed: 0x0010, 0x4bee: 0x0010, 0x4bef: 0x0010,",
   "\t0x4bf0: 0x0010, 0x4bf1: 0x0010, 0x4bf2: 0x0010, 0x4bf3: 0x0080, 0x4bf4: 0x0080, 0x4bf5: 0x0080,",
   "\t0x4bf6: 0x0080, 0x4bf7: 0x0080, 0x4bf8: 0x0080, 0x4bf9: 0x0080, 0x4bfa: 0x0080, 0x4bfb: 0x0010,",
   "\t0x4bfc: 0x0010, 0x4bfd: 0x0010, 0x4bfe: 0x0010, 0x4bff: 0x0010,"]
theorem v18_eq : v18 = (layout 6 4 288 ((Table.Values.blocks.drop 288).take 16)).map String.ofList := by
  kernel_rfl
/-- words/trie.go:2897-3062, `wordsValues` from block 0x130 on. -/
def v19 : List String :=
  ["\t// Block 0x130, offset 0x4c00",
   "\t0x4c00: 0x0010, 0x4c01: 0x0010, 0x4c02: 0x0010, 0x4c05: 0x0010,",
   "\t0x4c06: 0x0010, 0x4c07: 0x0010, 0x4c08: 0x0010, 0x4c09: 0x0010, 0x4c0a: 0x0010, 0x4c0b: 0x0010,",
   "\t0x4c2a: 0x0010, 0x4c2b: 0x0010, 0x4c2c: 0x0010, 0x4c2d: 0x0010,",
   "\t// Block 0x131, offset 0x4c40",
   "\t0x4c42: 0x0010, 0x4c43: 0x0010, 0x4c44: 0x0010,",
   "\t// Block 0x132, offset 0x4c80",
   "\t0x4c80: 0x0001, 0x4c81: 0x0001, 0x4c82: 0x0001, 0x4c83: 0x0001, 0x4c84: 0x0001, 0x4c85: 0x0001,",
   "\t0x4c86: 0x0001, 0x4c87: 0x0001, 0x4c88: 0x0001, 0x4c89: 0x0001, 0x4c8a: 0x0001, 0x4c8b: 0x0001,",
   "\t0x4c8c: 0x0001, 0x4c8d: 0x0001, 0x4c8e: 0x0001, 0x4c8f: 0x0001, 0x4c90: 0x0001, 0x4c91: 0x0001,",
   "\t0x4c92: 0x0001, 0x4c93: 0x0001, 0x4c94: 0x0001, 0x4c96: 0x0001, 0x4c97: 0x0001,",
   "\t0x4c98: 0x0001, 0x4c99: 0x0001, 0x4c9a: 0x0001, 0x4c9b: 0x0001, 0x4c9c: 0x0001, 0x4c9d: 0x0001,",
   "\t0x4c9e: 0x0001, 0x4c9f: 0x0001, 0x4ca0: 0x0001, 0x4ca1: 0x0001, 0x4ca2: 0x0001, 0x4ca3: 0x0001,",
   "\t0x4ca4: 0x0001, 0x4ca5: 0x0001, 0x4ca6: 0x0001, 0x4ca7: 0x0001, 0x4ca8: 0x0001, 0x4ca9: 0x0001,",
   "\t0x4caa: 0x0001, 0x4cab: 0x0001, 0x4cac: 0x0001, 0x4cad: 0x0001, 0x4cae: 0x0001, 0x4caf: 0x0001,",
   "\t0x4cb0: 0x0001, 0x4cb1: 0x0001, 0x4cb2: 0x0001, 0x4cb3: 0x0001, 0x4cb4: 0x0001, 0x4cb5: 0x0001,",
   "\t0x4cb6: 0x0001, 0x4cb7: 0x0001, 0x4cb8: 0x0001, 0x4cb9: 0x0001, 0x4cba: 0x0001, 0x4cbb: 0x0001,",
   "\t0x4cbc: 0x0001, 0x4cbd: 0x0001, 0x4cbe: 0x0001, 0x4cbf: 0x0001,",
   "\t// Block 0x133, offset 0x4cc0",
   "\t0x4cc0: 0x0001, 0x4cc1: 0x0001, 0x4cc2: 0x0001, 0x4cc3: 0x0001, 0x4cc4: 0x0001, 0x4cc5: 0x0001,",
   "\t0x4cc6: 0x0001, 0x4cc7: 0x0001, 0x4cc8: 0x0001, 0x4cc9: 0x0001, 0x4cca: 0x0001, 0x4ccb: 0x0001,",
   "\t0x4ccc: 0x0001, 0x4ccd: 0x0001, 0x4cce: 0x0001, 0x4ccf: 0x0001, 0x4cd0: 0x0001, 0x4cd1: 0x0001,",
   "\t0x4cd2: 0x0001, 0x4cd3: 0x0001, 0x4cd4: 0x0001, 0x4cd5: 0x0001, 0x4cd6: 0x0001, 0x4cd7: 0x0001,",
   "\t0x4cd8: 0x0001, 0x4cd9: 0x0001, 0x4cda: 0x0001, 0x4cdb: 0x0001, 0x4cdc: 0x0001,",
   "\t0x4cde: 0x0001, 0x4cdf: 0x0001, 0x4ce2: 0x0001,",
   "\t0x4ce5: 0x0001, 0x4ce6: 0x0001, 0x4ce9: 0x0001,",
   "\t0x4cea: 0x0001, 0x4ceb: 0x0001, 0x4cec: 0x0001, 0x4cee: 0x0001, 0x4cef: 0x0001,",
   "\t0x4cf0: 0x0001, 0x4cf1: 0x0001, 0x4cf2: 0x0001, 0x4cf3: 0x0001, 0x4cf4: 0x0001, 0x4cf5: 0x0001,",
   "\t0x4cf6: 0x0001, 0x4cf7: 0x0001, 0x4cf8: 0x0001, 0x4cf9: 0x0001, 0x4cfb: 0x0001,",
   "\t0x4cfd: 0x0001, 0x4cfe: 0x0001, 0x4cff: 0x0001,",
   "\t// Block 0x134, offset 0x4d00",
   "\t0x4d00: 0x0001, 0x4d01: 0x0001, 0x4d02: 0x0001, 0x4d03: 0x0001, 0x4d05: 0x0001,",
   "\t0x4d06: 0x0001, 0x4d07: 0x0001, 0x4d08: 0x0001, 0x4d09: 0x0001, 0x4d0a: 0x0001, 0x4d0b: 0x0001,",
   "\t0x4d0c: 0x0001, 0x4d0d: 0x0001, 0x4d0e: 0x0001, 0x4d0f: 0x0001, 0x4d10: 0x0001, 0x4d11: 0x0001,",
   "\t0x4d12: 0x0001, 0x4d13: 0x0001, 0x4d14: 0x0001, 0x4d15: 0x0001, 0x4d16: 0x0001, 0x4d17: 0x0001,",
   "\t0x4d18: 0x0001, 0x4d19: 0x0001, 0x4d1a: 0x0001, 0x4d1b: 0x0001, 0x4d1c: 0x0001, 0x4d1d: 0x0001,",
   "\t0x4d1e: 0x0001, 0x4d1f: 0x0001, 0x4d20: 0x0001, 0x4d21: 0x0001, 0x4d22: 0x0001, 0x4d23: 0x0001,",
   "\t0x4d24: 0x0001, 0x4d25: 0x0001, 0x4d26: 0x0001, 0x4d27: 0x0001, 0x4d28: 0x0001, 0x4d29: 0x0001,",
   "\t0x4d2a: 0x0001, 0x4d2b: 0x0001, 0x4d2c: 0x0001, 0x4d2d: 0x0001, 0x4d2e: 0x0001, 0x4d2f: 0x0001,",
   "\t0x4d30: 0x0001, 0x4d31: 0x0001, 0x4d32: 0x0001, 0x4d33: 0x0001, 0x4d34: 0x0001, 0x4d35: 0x0001,",
   "\t0x4d36: 0x0001, 0x4d37: 0x0001, 0x4d38: 0x0001, 0x4d39: 0x0001, 0x4d3a: 0x0001, 0x4d3b: 0x0001,",
   "\t0x4d3c: 0x0001, 0x4d3d: 0x0001, 0x4d3e: 0x0001, 0x4d3f: 0x0001,",
   "\t// Block 0x135, offset 0x4d40",
   "\t0x4d40: 0x0001, 0x4d41: 0x0001, 0x4d42: 0x0001, 0x4d43: 0x0001, 0x4d44: 0x0001, 0x4d45: 0x0001,",
   "\t0x4d47: 0x0001, 0x4d48: 0x0001, 0x4d49: 0x0001, 0x4d4a: 0x0001,",
   "\t0x4d4d: 0x0001, 0x4d4e: 0x0001, 0x4d4f: 0x0001, 0x4d50: 0x0001, 0x4d51: 0x0001,",
   "\t0x4d52: 0x0001, 0x4d53: 0x0001, 0x4d54: 0x0001, 0x4d56: 0x0001, 0x4d57: 0x0001,",
   "\t0x4d58: 0x0001, 0x4d59: 0x0001, 0x4d5a: 0x0001, 0x4d5b: 0x0001, 0x4d5c: 0x0001,",
   "\t0x4d5e: 0x0001, 0x4d5f: 0x0001, 0x4d60: 0x0001, 0x4d61: 0x0001, 0x4d62: 0x0001, 0x4d63: 0x0001,",
   "\t0x4d64: 0x0001, 0x4d65: 0x0001, 0x4d66: 0x0001, 0x4d67: 0x0001, 0x4d68: 0x0001, 0x4d69: 0x0001,",
   "\t0x4d6a: 0x0001, 0x4d6b: 0x0001, 0x4d6c: 0x0001, 0x4d6d: 0x0001, 0x4d6e: 0x0001, 0x4d6f: 0x0001,",
   "\t0x4d70: 0x0001, 0x4d71: 0x0001, 0x4d72: 0x0001, 0x4d73: 0x0001, 0x4d74: 0x0001, 0x4d75: 0x0001,",
   "\t0x4d76: 0x0001, 0x4d77: 0x0001, 0x4d78: 0x0001, 0x4d79: 0x0001, 0x4d7b: 0x0001,",
   "\t0x4d7c: 0x0001, 0x4d7d: 0x0001, 0x4d7e: 0x0001,",
   "\t// Block 0x136, offset 0x4d80",
   "\t0x4d80: 0x0001, 0x4d81: 0x0001, 0x4d82: 0x0001, 0x4d83: 0x0001, 0x4d84: 0x0001,",
   "\t0x4d86: 0x0001, 0x4d8a: 0x0001, 0x4d8b: 0x0001,",
   "\t0x4d8c: 0x0001, 0x4d8d: 0x0001, 0x4d8e: 0x0001, 0x4d8f: 0x0001, 0x4d90: 0x0001,",
   "\t0x4d92: 0x0001, 0x4d93: 0x0001, 0x4d94: 0x0001, 0x4d95: 0x0001, 0x4d96: 0x0001, 0x4d97: 0x0001,",
   "\t0x4d98: 0x0001, 0x4d99: 0x0001, 0x4d9a: 0x0001, 0x4d9b: 0x0001, 0x4d9c: 0x0001, 0x4d9d: 0x0001,",
   "\t0x4d9e: 0x0001, 0x4d9f: 0x0001, 0x4da0: 0x0001, 0x4da1: 0x0001, 0x4da2: 0x0001, 0x4da3: 0x0001,",
   "\t0x4da4: 0x0001, 0x4da5: 0x0001, 0x4da6: 0x0001, 0x4da7: 0x0001, 0x4da8: 0x0001, 0x4da9: 0x0001,",
   "\t0x4daa: 0x0001, 0x4dab: 0x0001, 0x4dac: 0x0001, 0x4dad: 0x0001, 0x4dae: 0x0001, 0x4daf: 0x0001,",
   "\t0x4db0: 0x0001, 0x4db1: 0x0001, 0x4db2: 0x0001, 0x4db3: 0x0001, 0x4db4: 0x0001, 0x4db5: 0x0001,",
   "\t0x4db6: 0x0001, 0x4db7: 0x0001, 0x4db8: 0x0001, 0x4db9: 0x0001, 0x4dba: 0x0001, 0x4dbb: 0x0001,",
   "\t0x4dbc: 0x0001, 0x4dbd: 0x0001, 0x4dbe: 0x0001, 0x4dbf: 0x0001,",
   "\t// Block 0x137, offset 0x4dc0",
   "\t0x4dc0: 0x0001, 0x4dc1: 0x0001, 0x4dc2: 0x0001, 0x4dc3: 0x0001, 0x4dc4: 0x0001, 0x4dc5: 0x0001,",
   "\t0x4dc6: 0x0001, 0x4dc7: 0x0001, 0x4dc8: 0x0001, 0x4dc9: 0x0001, 0x4dca: 0x0001, 0x4dcb: 0x0001,",
   "\t0x4dcc: 0x0001, 0x4dcd: 0x0001, 0x4dce: 0x0001, 0x4dcf: 0x0001, 0x4dd0: 0x0001, 0x4dd1: 0x0001,",
   "\t0x4dd2: 0x0001, 0x4dd3: 0x0001, 0x4dd4: 0x0001, 0x4dd5: 0x0001, 0x4dd6: 0x0001, 0x4dd7: 0x0001,",
   "\t0x4dd8: 0x0001, 0x4dd9: 0x0001, 0x4dda: 0x0001, 0x4ddb: 0x0001, 0x4ddc: 0x0001, 0x4ddd: 0x0001,",
   "\t0x4dde: 0x0001, 0x4ddf: 0x0001, 0x4de0: 0x0001, 0x4de1: 0x0001, 0x4de2: 0x0001, 0x4de3: 0x0001,",
   "\t0x4de4: 0x0001, 0x4de5: 0x0001, 0x4de8: 0x0001, 0x4de9: 0x0001,",
   "\t0x4dea: 0x0001, 0x4deb: 0x0001, 0x4dec: 0x0001, 0x4ded: 0x0001, 0x4dee: 0x0001, 0x4def: 0x0001,",
   "\t0x4df0: 0x0001, 0x4df1: 0x0001, 0x4df2: 0x0001, 0x4df3: 0x0001, 0x4df4: 0x0001, 0x4df5: 0x0001,",
   "\t0x4df6: 0x0001, 0x4df7: 0x0001, 0x4df8: 0x0001, 0x4df9: 0x0001, 0x4dfa: 0x0001, 0x4dfb: 0x0001,",
   "\t0x4dfc: 0x0001, 0x4dfd: 0x0001, 0x4dfe: 0x0001, 0x4dff: 0x0001,",
   "\t// Block 0x138, offset 0x4e00",
   "\t0x4e00: 0x0001, 0x4e02: 0x0001, 0x4e03: 0x0001, 0x4e04: 0x0001, 0x4e05: 0x0001,",
   "\t0x4e06: 0x0001, 0x4e07: 0x0001, 0x4e08: 0x0001, 0x4e09: 0x0001, 0x4e0a: 0x0001, 0x4e0b: 0x0001,",
   "\t0x4e0c: 0x0001, 0x4e0d: 0x0001, 0x4e0e: 0x0001, 0x4e0f: 0x0001, 0x4e10: 0x0001, 0x4e11: 0x0001,",
   "\t0x4e12: 0x0001, 0x4e13: 0x0001, 0x4e14: 0x0001, 0x4e15: 0x0001, 0x4e16: 0x0001, 0x4e17: 0x0001,",
   "\t0x4e18: 0x0001, 0x4e19: 0x0001, 0x4e1a: 0x0001, 0x4e1c: 0x0001, 0x4e1d: 0x0001,",
   "\t0x4e1e: 0x0001, 0x4e1f: 0x0001, 0x4e20: 0x0001, 0x4e21: 0x0001, 0x4e22: 0x0001, 0x4e23: 0x0001,",
   "\t0x4e24: 0x0001, 0x4e25: 0x0001, 0x4e26: 0x0001, 0x4e27: 0x0001, 0x4e28: 0x0001, 0x4e29: 0x0001,",
   "\t0x4e2a: 0x0001, 0x4e2b: 0x0001, 0x4e2c: 0x0001, 0x4e2d: 0x0001, 0x4e2e: 0x0001, 0x4e2f: 0x0001,",
   "\t0x4e30: 0x0001, 0x4e31: 0x0001, 0x4e32: 0x0001, 0x4e33: 0x0001, 0x4e34: 0x0001, 0x4e35: 0x0001,",
   "\t0x4e36: 0x0001, 0x4e37: 0x0001, 0x4e38: 0x0001, 0x4e39: 0x0001, 0x4e3a: 0x0001,",
   "\t0x4e3c: 0x0001, 0x4e3d: 0x0001, 0x4e3e: 0x0001, 0x4e3f: 0x0001,",
   "\t// Block 0x139, offset 0x4e40",
   "\t0x4e40: 0x0001, 0x4e41: 0x0001, 0x4e42: 0x0001, 0x4e43: 0x0001, 0x4e44: 0x0001, 0x4e45: 0x0001,",
   "\t0x4e46: 0x0001, 0x4e47: 0x0001, 0x4e48: 0x0001, 0x4e49: 0x0001, 0x4e4a: 0x0001, 0x4e4b: 0x0001,",
   "\t0x4e4c: 0x0001, 0x4e4d: 0x0001, 0x4e4e: 0x0001, 0x4e4f: 0x0001, 0x4e50: 0x0001, 0x4e51: 0x0001,",
   "\t0x4e52: 0x0001, 0x4e53: 0x0001, 0x4e54: 0x0001, 0x4e56: 0x0001, 0x4e57: 0x0001,",
   "\t0x4e58: 0x0001, 0x4e59: 0x0001, 0x4e5a: 0x0001, 0x4e5b: 0x0001, 0x4e5c: 0x0001, 0x4e5d: 0x0001,",
   "\t0x4e5e: 0x0001, 0x4e5f: 0x0001, 0x4e60: 0x0001, 0x4e61: 0x0001, 0x4e62: 0x0001, 0x4e63: 0x0001,",
   "\t0x4e64: 0x0001, 0x4e65: 0x0001, 0x4e66: 0x0001, 0x4e67: 0x0001, 0x4e68: 0x0001, 0x4e69: 0x0001,",
   "\t0x4e6a: 0x0001, 0x4e6b: 0x0001, 0x4e6c: 0x0001, 0x4e6d: 0x0001, 0x4e6e: 0x0001, 0x4e6f: 0x0001,",
   "\t0x4e70: 0x0001, 0x4e71: 0x0001, 0x4e72: 0x0001, 0x4e73: 0x0001, 0x4e74: 0x0001,",
   "\t0x4e76: 0x0001, 0x4e77: 0x0001, 0x4e78: 0x0001, 0x4e79: 0x0001, 0x4e7a: 0x0001, 0x4e7b: 0x0001,",
   "\t0x4e7c: 0x0001, 0x4e7d: 0x0001, 0x4e7e: 0x0001, 0x4e7f: 0x0001,",
   "\t// Block 0x13a, offset 0x4e80",
   "\t0x4e80: 0x0001, 0x4e81: 0x0001, 0x4e82: 0x0001, 0x4e83: 0x0001, 0x4e84: 0x0001, 0x4e85: 0x0001,",
   "\t0x4e86: 0x0001, 0x4e87: 0x0001, 0x4e88: 0x0001, 0x4e89: 0x0001, 0x4e8a: 0x0001, 0x4e8b: 0x0001,",
   "\t0x4e8c: 0x0001, 0x4e8d: 0x0001, 0x4e8e: 0x0001, 0x4e90: 0x0001, 0x4e91: 0x0001,",
   "\t0x4e92: 0x0001, 0x4e93: 0x0001, 0x4e94: 0x0001, 0x4e95: 0x0001, 0x4e96: 0x0001, 0x4e97: 0x0001,",
   "\t0x4e98: 0x0001, 0x4e99: 0x0001, 0x4e9a: 0x0001, 0x4e9b: 0x0001, 0x4e9c: 0x0001, 0x4e9d: 0x0001,",
   "\t0x4e9e: 0x0001, 0x4e9f: 0x0001, 0x4ea0: 0x0001, 0x4ea1: 0x0001, 0x4ea2: 0x0001, 0x4ea3: 0x0001,",
   "\t0x4ea4: 0x0001, 0x4ea5: 0x0001, 0x4ea6: 0x0001, 0x4ea7: 0x0001, 0x4ea8: 0x0001, 0x4ea9: 0x0001,",
   "\t0x4eaa: 0x0001, 0x4eab: 0x0001, 0x4eac: 0x0001, 0x4ead: 0x0001, 0x4eae: 0x0001,",
   "\t0x4eb0: 0x0001, 0x4eb1: 0x0001, 0x4eb2: 0x0001, 0x4eb3: 0x0001, 0x4eb4: 0x0001, 0x4eb5: 0x0001,",
   "\t0x4eb6: 0x0001, 0x4eb7: 0x0001, 0x4eb8: 0x0001, 0x4eb9: 0x0001, 0x4eba: 0x0001, 0x4ebb: 0x0001,",
   "\t0x4ebc: 0x0001, 0x4ebd: 0x0001, 0x4ebe: 0x0001, 0x4ebf: 0x0001,",
   "\t// Block 0x13b, offset 0x4ec0",
   "\t0x4ec0: 0x0001, 0x4ec1: 0x0001, 0x4ec2: 0x0001, 0x4ec3: 0x0001, 0x4ec4: 0x0001, 0x4ec5: 0x0001,",
   "\t0x4ec6: 0x0001, 0x4ec7: 0x0001, 0x4ec8: 0x0001, 0x4eca: 0x0001, 0x4ecb: 0x0001,",
   "\t0x4ecc: 0x0001, 0x4ecd: 0x0001, 0x4ece: 0x0001, 0x4ecf: 0x0001, 0x4ed0: 0x0001, 0x4ed1: 0x0001,",
   "\t0x4ed2: 0x0001, 0x4ed3: 0x0001, 0x4ed4: 0x0001, 0x4ed5: 0x0001, 0x4ed6: 0x0001, 0x4ed7: 0x0001,",
   "\t0x4ed8: 0x0001, 0x4ed9: 0x0001, 0x4eda: 0x0001, 0x4edb: 0x0001, 0x4edc: 0x0001, 0x4edd: 0x0001,",
   "\t0x4ede: 0x0001, 0x4edf: 0x0001, 0x4ee0: 0x0001, 0x4ee1: 0x0001, 0x4ee2: 0x0001, 0x4ee3: 0x0001,",
   "\t0x4ee4: 0x0001, 0x4ee5: 0x0001, 0x4ee6: 0x0001, 0x4ee7: 0x0001, 0x4ee8: 0x0001,",
   "\t0x4eea: 0x0001, 0x4eeb: 0x0001, 0x4eec: 0x0001, 0x4eed: 0x0001, 0x4eee: 0x0001, 0x4eef: 0x0001,",
   "\t0x4ef0: 0x0001, 0x4ef1: 0x0001, 0x4ef2: 0x0001, 0x4ef3: 0x0001, 0x4ef4: 0x0001, 0x4ef5: 0x0001,",
   "\t0x4ef6: 0x0001, 0x4ef7: 0x0001, 0x4ef8: 0x0001, 0x4ef9: 0x0001, 0x4efa: 0x0001, 0x4efb: 0x0001,",
   "\t0x4efc: 0x0001, 0x4efd: 0x0001, 0x4efe: 0x0001, 0x4eff: 0x0001,",
   "\t// Block 0x13c, offset 0x4f00",
   "\t0x4f00: 0x0001, 0x4f01: 0x0001, 0x4f02: 0x0001, 0x4f04: 0x0001, 0x4f05: 0x0001,",
   "\t0x4f06: 0x0001, 0x4f07: 0x0001, 0x4f08: 0x0001, 0x4f09: 0x0001, 0x4f0a: 0x0001, 0x4f0b: 0x0001,",
   "\t0x4f0e: 0x8000, 0x4f0f: 0x8000, 0x4f10: 0x8000, 0x4f11: 0x8000,",
   "\t0x4f12: 0x8000, 0x4f13: 0x8000, 0x4f14: 0x8000, 0x4f15: 0x8000, 0x4f16: 0x8000, 0x4f17: 0x8000,",
   "\t0x4f18: 0x8000, 0x4f19: 0x8000, 0x4f1a: 0x8000, 0x4f1b: 0x8000, 0x4f1c: 0x8000, 0x4f1d: 0x8000,",
   "\t0x4f1e: 0x8000, 0x4f1f: 0x8000, 0x4f20: 0x8000, 0x4f21: 0x8000, 0x4f22: 0x8000, 0x4f23: 0x8000,",
   "\t0x4f24: 0x8000, 0x4f25: 0x8000, 0x4f26: 0x8000, 0x4f27: 0x8000, 0x4f28: 0x8000, 0x4f29: 0x8000,",
   "\t0x4f2a: 0x8000, 0x4f2b: 0x8000, 0x4f2c: 0x8000, 0x4f2d: 0x8000, 0x4f2e: 0x8000, 0x4f2f: 0x8000,",
   "\t0x4f30: 0x8000, 0x4f31: 0x8000, 0x4f32: 0x8000, 0x4f33: 0x8000, 0x4f34: 0x8000, 0x4f35: 0x8000,",
   "\t0x4f36: 0x8000, 0x4f37: 0x8000, 0x4f38: 0x8000, 0x4f39: 0x8000, 0x4f3a: 0x8000, 0x4f3b: 0x8000,",
   "\t0x4f3c: 0x8000, 0x4f3d: 0x8000, 0x4f3e: 0x8000, 0x4f3f: 0x8000,",
   "\t// Block 0x13d, offset 0x4f40",
   "\t0x4f40: 0x0010, 0x4f41: 0x0010, 0x4f42: 0x0010, 0x4f43: 0x0010, 0x4f44: 0x0010, 0x4f45: 0x0010,",
   "\t0x4f46: 0x0010, 0x4f47: 0x0010, 0x4f48: 0x0010, 0x4f49: 0x0010, 0x4f4a: 0x0010, 0x4f4b: 0x0010,",
   "\t0x4f4c: 0x0010, 0x4f4d: 0x0010, 0x4f4e: 0x0010, 0x4f4f: 0x0010, 0x4f50: 0x0010, 0x4f51: 0x0010,",
   "\t0x4f52: 0x0010, 0x4f53: 0x0010, 0x4f54: 0x0010, 0x4f55: 0x0010, 0x4f56: 0x0010, 0x4f57: 0x0010,",
   "\t0x4f58: 0x0010, 0x4f59: 0x0010, 0x4f5a: 0x0010, 0x4f5b: 0x0010, 0x4f5c: 0x0010, 0x4f5d: 0x0010,",
   "\t0x4f5e: 0x0010, 0x4f5f: 0x0010, 0x4f60: 0x0010, 0x4f61: 0x0010, 0x4f62: 0x0010, 0x4f63: 0x0010,",
   "\t0x4f64: 0x0010, 0x4f65: 0x0010, 0x4f66: 0x0010, 0x4f67: 0x0010, 0x4f68: 0x0010, 0x4f69: 0x0010,",
   "\t0x4f6a: 0x0010, 0x4f6b: 0x0010, 0x4f6c: 0x0010, 0x4f6d: 0x0010, 0x4f6e: 0x0010, 0x4f6f: 0x0010,",
   "\t0x4f70: 0x0010, 0x4f71: 0x0010, 0x4f72: 0x0010, 0x4f73: 0x0010, 0x4f74: 0x0010, 0x4f75: 0x0010,",
   "\t0x4f76: 0x0010, 0x4f7b: 0x0010,",
   "\t0x4f7c: 0x0010, 0x4f7d: 0x0010, 0x4f7e: 0x0010, 0x4f7f: 0x0010,",
   "\t// Block 0x13e, offset 0x4f80",
   "\t0x4f80: 0x0010, 0x4f81: 0x0010, 0x4f82: 0x0010, 0x4f83: 0x0010, 0x4f84: 0x0010, 0x4f85: 0x0010,",
   "\t0x4f86: 0x0010, 0x4f87: 0x0010, 0x4f88: 0x0010, 0x4f89: 0x0010, 0x4f8a: 0x0010, 0x4f8b: 0x0010,",
   "\t0x4f8c: 0x0010, 0x4f8d: 0x0010, 0x4f8e: 0x0010, 0x4f8f: 0x0010, 0x4f90: 0x0010, 0x4f91: 0x0010,",
   "\t0x4f92: 0x0010, 0x4f93: 0x0010, 0x4f94: 0x0010, 0x4f95: 0x0010, 0x4f96: 0x0010, 0x4f97: 0x0010,",
   "\t0x4f98: 0x0010, 0x4f99: 0x0010, 0x4f9a: 0x0010, 0x4f9b: 0x0010, 0x4f9c: 0x0010, 0x4f9d: 0x0010,",
   "\t0x4f9e: 0x0010, 0x4f9f: 0x0010, 0x4fa0: 0x0010, 0x4fa1: 0x0010, 0x4fa2: 0x0010, 0x4fa3: 0x0010,",
   "\t0x4fa4: 0x0010, 0x4fa5: 0x0010, 0x4fa6: 0x0010, 0x4fa7: 0x0010, 0x4fa8: 0x0010, 0x4fa9: 0x0010,",
   "\t0x4faa: 0x0010, 0x4fab: 0x0010, 0x4fac: 0x0010,",
   "\t0x4fb5: 0x0010,",
   "\t// Block 0x13f, offset 0x4fc0",
   "\t0x4fc4: 0x0010,",
   "\t0x4fdb: 0x0010, 0x4fdc: 0x0010, 0x4fdd: 0x0010,",
   "\t0x4fde: 0x0010, 0x4fdf: 0x0010, 0x4fe1: 0x0010, 0x4fe2: 0x0010, 0x4fe3: 0x0010,",
   "\t0x4fe4: 0x0010, 0x4fe5: 0x0010, 0x4fe6: 0x0010, 0x4fe7: 0x0010, 0x4fe8: 0x0010, 0x4fe9: 0x0010,",
   "\t0x4fea: 0x0010, 0x4feb: 0x0010, 0x4fec: 0x0010, 0x4fed: 0x0010, 0x4fee: 0x0010, 0x4fef: 0x0010,"]
theorem v19_eq : v19 = (layout 6 4 304 ((Table.Values.blocks.drop 304).take 16)).map String.ofList := by
  kernel_rfl
/-- words/trie.go:3063-3197, `wordsValues` from block 0x140 on. -/
def v20 : List String :=
  ["\t// Block 0x140, offset 0x5000",
   "\t0x5000: 0x0001, 0x5001: 0x0001, 0x5002: 0x0001, 0x5003: 0x0001, 0x5004: 0x0001, 0x5005: 0x0001,",
   "\t0x5006: 0x0001, 0x5007: 0x0001, 0x5008: 0x0001, 0x5009: 0x0001, 0x500a: 0x0001, 0x500b: 0x0001,",
   "\t0x500c: 0x0001, 0x500d: 0x0001, 0x500e: 0x0001, 0x500f: 0x0001, 0x5010: 0x0001, 0x5011: 0x0001,",
   "\t0x5012: 0x0001, 0x5013: 0x0001, 0x5014: 0x0001, 0x5015: 0x0001, 0x5016: 0x0001, 0x5017: 0x0001,",
   "\t0x5018: 0x0001, 0x5019: 0x0001, 0x501a: 0x0001, 0x501b: 0x0001, 0x501c: 0x0001, 0x501d: 0x0001,",
   "\t0x501e: 0x0001,",
   "\t0x5025: 0x0001, 0x5026: 0x0001, 0x5027: 0x0001, 0x5028: 0x0001, 0x5029: 0x0001,",
   "\t0x502a: 0x0001,",
   "\t// Block 0x141, offset 0x5040",
   "\t0x5040: 0x0010, 0x5041: 0x0010, 0x5042: 0x0010, 0x5043: 0x0010, 0x5044: 0x0010, 0x5045: 0x0010,",
   "\t0x5046: 0x0010, 0x5048: 0x0010, 0x5049: 0x0010, 0x504a: 0x0010, 0x504b: 0x0010,",
   "\t0x504c: 0x0010, 0x504d: 0x0010, 0x504e: 0x0010, 0x504f: 0x0010, 0x5050: 0x0010, 0x5051: 0x0010,",
   "\t0x5052: 0x0010, 0x5053: 0x0010, 0x5054: 0x0010, 0x5055: 0x0010, 0x5056: 0x0010, 0x5057: 0x0010,",
   "\t0x5058: 0x0010, 0x505b: 0x0010, 0x505c: 0x0010, 0x505d: 0x0010,",
   "\t0x505e: 0x0010, 0x505f: 0x0010, 0x5060: 0x0010, 0x5061: 0x0010, 0x5063: 0x0010,",
   "\t0x5064: 0x0010, 0x5066: 0x0010, 0x5067: 0x0010, 0x5068: 0x0010, 0x5069: 0x0010,",
   "\t0x506a: 0x0010,",
   "\t0x5070: 0x0001, 0x5071: 0x0001, 0x5072: 0x0001, 0x5073: 0x0001, 0x5074: 0x0001, 0x5075: 0x0001,",
   "\t0x5076: 0x0001, 0x5077: 0x0001, 0x5078: 0x0001, 0x5079: 0x0001, 0x507a: 0x0001, 0x507b: 0x0001,",
   "\t0x507c: 0x0001, 0x507d: 0x0001, 0x507e: 0x0001, 0x507f: 0x0001,",
   "\t// Block 0x142, offset 0x5080",
   "\t0x5080: 0x0001, 0x5081: 0x0001, 0x5082: 0x0001, 0x5083: 0x0001, 0x5084: 0x0001, 0x5085: 0x0001,",
   "\t0x5086: 0x0001, 0x5087: 0x0001, 0x5088: 0x0001, 0x5089: 0x0001, 0x508a: 0x0001, 0x508b: 0x0001,",
   "\t0x508c: 0x0001, 0x508d: 0x0001, 0x508e: 0x0001, 0x508f: 0x0001, 0x5090: 0x0001, 0x5091: 0x0001,",
   "\t0x5092: 0x0001, 0x5093: 0x0001, 0x5094: 0x0001, 0x5095: 0x0001, 0x5096: 0x0001, 0x5097: 0x0001,",
   "\t0x5098: 0x0001, 0x5099: 0x0001, 0x509a: 0x0001, 0x509b: 0x0001, 0x509c: 0x0001, 0x509d: 0x0001,",
   "\t0x509e: 0x0001, 0x509f: 0x0001, 0x50a0: 0x0001, 0x50a1: 0x0001, 0x50a2: 0x0001, 0x50a3: 0x0001,",
   "\t0x50a4: 0x0001, 0x50a5: 0x0001, 0x50a6: 0x0001, 0x50a7: 0x0001, 0x50a8: 0x0001, 0x50a9: 0x0001,",
   "\t0x50aa: 0x0001, 0x50ab: 0x0001, 0x50ac: 0x0001, 0x50ad: 0x0001,",
   "\t// Block 0x143, offset 0x50c0",
   "\t0x50cf: 0x0010,",
   "\t// Block 0x144, offset 0x5100",
   "\t0x5100: 0x0001, 0x5101: 0x0001, 0x5102: 0x0001, 0x5103: 0x0001, 0x5104: 0x0001, 0x5105: 0x0001,",
   "\t0x5106: 0x0001, 0x5107: 0x0001, 0x5108: 0x0001, 0x5109: 0x0001, 0x510a: 0x0001, 0x510b: 0x0001,",
   "\t0x510c: 0x0001, 0x510d: 0x0001, 0x510e: 0x0001, 0x510f: 0x0001, 0x5110: 0x0001, 0x5111: 0x0001,",
   "\t0x5112: 0x0001, 0x5113: 0x0001, 0x5114: 0x0001, 0x5115: 0x0001, 0x5116: 0x0001, 0x5117: 0x0001,",
   "\t0x5118: 0x0001, 0x5119: 0x0001, 0x511a: 0x0001, 0x511b: 0x0001, 0x511c: 0x0001, 0x511d: 0x0001,",
   "\t0x511e: 0x0001, 0x511f: 0x0001, 0x5120: 0x0001, 0x5121: 0x0001, 0x5122: 0x0001, 0x5123: 0x0001,",
   "\t0x5124: 0x0001, 0x5125: 0x0001, 0x5126: 0x0001, 0x5127: 0x0001, 0x5128: 0x0001, 0x5129: 0x0001,",
   "\t0x512a: 0x0001, 0x512b: 0x0001, 0x512c: 0x0001,",
   "\t0x5130: 0x0010, 0x5131: 0x0010, 0x5132: 0x0010, 0x5133: 0x0010, 0x5134: 0x0010, 0x5135: 0x0010,",
   "\t0x5136: 0x0010, 0x5137: 0x0001, 0x5138: 0x0001, 0x5139: 0x0001, 0x513a: 0x0001, 0x513b: 0x0001,",
   "\t0x513c: 0x0001, 0x513d: 0x0001,",
   "\t// Block 0x145, offset 0x5140",
   "\t0x5140: 0x8000, 0x5141: 0x8000, 0x5142: 0x8000, 0x5143: 0x8000, 0x5144: 0x8000, 0x5145: 0x8000,",
   "\t0x5146: 0x8000, 0x5147: 0x8000, 0x5148: 0x8000, 0x5149: 0x8000,",
   "\t0x514e: 0x0001,",
   "\t// Block 0x146, offset 0x5180",
   "\t0x5190: 0x0001, 0x5191: 0x0001,",
   "\t0x5192: 0x0001, 0x5193: 0x0001, 0x5194: 0x0001, 0x5195: 0x0001, 0x5196: 0x0001, 0x5197: 0x0001,",
   "\t0x5198: 0x0001, 0x5199: 0x0001, 0x519a: 0x0001, 0x519b: 0x0001, 0x519c: 0x0001, 0x519d: 0x0001,",
   "\t0x519e: 0x0001, 0x519f: 0x0001, 0x51a0: 0x0001, 0x51a1: 0x0001, 0x51a2: 0x0001, 0x51a3: 0x0001,",
   "\t0x51a4: 0x0001, 0x51a5: 0x0001, 0x51a6: 0x0001, 0x51a7: 0x0001, 0x51a8: 0x0001, 0x51a9: 0x0001,",
   "\t0x51aa: 0x0001, 0x51ab: 0x0001, 0x51ac: 0x0001, 0x51ad: 0x0001, 0x51ae: 0x0010,",
   "\t// Block 0x147, offset 0x51c0",
   "\t0x51c0: 0x0001, 0x51c1: 0x0001, 0x51c2: 0x0001, 0x51c3: 0x0001, 0x51c4: 0x0001, 0x51c5: 0x0001,",
   "\t0x51c6: 0x0001, 0x51c7: 0x0001, 0x51c8: 0x0001, 0x51c9: 0x0001, 0x51ca: 0x0001, 0x51cb: 0x0001,",
   "\t0x51cc: 0x0001, 0x51cd: 0x0001, 0x51ce: 0x0001, 0x51cf: 0x0001, 0x51d0: 0x0001, 0x51d1: 0x0001,",
   "\t0x51d2: 0x0001, 0x51d3: 0x0001, 0x51d4: 0x0001, 0x51d5: 0x0001, 0x51d6: 0x0001, 0x51d7: 0x0001,",
   "\t0x51d8: 0x0001, 0x51d9: 0x0001, 0x51da: 0x0001, 0x51db: 0x0001, 0x51dc: 0x0001, 0x51dd: 0x0001,",
   "\t0x51de: 0x0001, 0x51df: 0x0001, 0x51e0: 0x0001, 0x51e1: 0x0001, 0x51e2: 0x0001, 0x51e3: 0x0001,",
   "\t0x51e4: 0x0001, 0x51e5: 0x0001, 0x51e6: 0x0001, 0x51e7: 0x0001, 0x51e8: 0x0001, 0x51e9: 0x0001,",
   "\t0x51ea: 0x0001, 0x51eb: 0x0001, 0x51ec: 0x0010, 0x51ed: 0x0010, 0x51ee: 0x0010, 0x51ef: 0x0010,",
   "\t0x51f0: 0x8000, 0x51f1: 0x8000, 0x51f2: 0x8000, 0x51f3: 0x8000, 0x51f4: 0x8000, 0x51f5: 0x8000,",
   "\t0x51f6: 0x8000, 0x51f7: 0x8000, 0x51f8: 0x8000, 0x51f9: 0x8000,",
   "\t// Block 0x148, offset 0x5200",
   "\t0x5210: 0x0001, 0x5211: 0x0001,",
   "\t0x5212: 0x0001, 0x5213: 0x0001, 0x5214: 0x0001, 0x5215: 0x0001, 0x5216: 0x0001, 0x5217: 0x0001,",
   "\t0x5218: 0x0001, 0x5219: 0x0001, 0x521a: 0x0001, 0x521b: 0x0001, 0x521c: 0x0001, 0x521d: 0x0001,",
   "\t0x521e: 0x0001, 0x521f: 0x0001, 0x5220: 0x0001, 0x5221: 0x0001, 0x5222: 0x0001, 0x5223: 0x0001,",
   "\t0x5224: 0x0001, 0x5225: 0x0001, 0x5226: 0x0001, 0x5227: 0x0001, 0x5228: 0x0001, 0x5229: 0x0001,",
   "\t0x522a: 0x0001, 0x522b: 0x0001, 0x522c: 0x0010, 0x522d: 0x0010, 0x522e: 0x0010, 0x522f: 0x0010,",
   "\t0x5230: 0x8000, 0x5231: 0x8000, 0x5232: 0x8000, 0x5233: 0x8000, 0x5234: 0x8000, 0x5235: 0x8000,",
   "\t0x5236: 0x8000, 0x5237: 0x8000, 0x5238: 0x8000, 0x5239: 0x8000,",
   "\t// Block 0x149, offset 0x5240",
   "\t0x5250: 0x0001, 0x5251: 0x0001,",
   "\t0x5252: 0x0001, 0x5253: 0x0001, 0x5254: 0x0001, 0x5255: 0x0001, 0x5256: 0x0001, 0x5257: 0x0001,",
   "\t0x5258: 0x0001, 0x5259: 0x0001, 0x525a: 0x0001, 0x525b: 0x0001, 0x525c: 0x0001, 0x525d: 0x0001,",
   "\t0x525e: 0x0001, 0x525f: 0x0001, 0x5260: 0x0001, 0x5261: 0x0001, 0x5262: 0x0001, 0x5263: 0x0001,",
   "\t0x5264: 0x0001, 0x5265: 0x0001, 0x5266: 0x0001, 0x5267: 0x0001, 0x5268: 0x0001, 0x5269: 0x0001,",
   "\t0x526a: 0x0001, 0x526b: 0x0001, 0x526c: 0x0001, 0x526d: 0x0001, 0x526e: 0x0010, 0x526f: 0x0010,",
   "\t0x5270: 0x0001, 0x5271: 0x8000, 0x5272: 0x8000, 0x5273: 0x8000, 0x5274: 0x8000, 0x5275: 0x8000,",
   "\t0x5276: 0x8000, 0x5277: 0x8000, 0x5278: 0x8000, 0x5279: 0x8000, 0x527a: 0x8000,",
   "\t// Block 0x14a, offset 0x5280",
   "\t0x5280: 0x0001, 0x5281: 0x0001, 0x5282: 0x0001, 0x5283: 0x0001, 0x5284: 0x0001, 0x5285: 0x0001,",
   "\t0x5286: 0x0001, 0x5287: 0x0001, 0x5288: 0x0001, 0x5289: 0x0001, 0x528a: 0x0001, 0x528b: 0x0001,",
   "\t0x528c: 0x0001, 0x528d: 0x0001, 0x528e: 0x0001, 0x528f: 0x0001, 0x5290: 0x0001, 0x5291: 0x0001,",
   "\t0x5292: 0x0001, 0x5293: 0x0001, 0x5294: 0x0001, 0x5295: 0x0001, 0x5296: 0x0001, 0x5297: 0x0001,",
   "\t0x5298: 0x0001, 0x5299: 0x0001, 0x529a: 0x0001, 0x529b: 0x0001, 0x529c: 0x0001, 0x529d: 0x0001,",
   "\t0x529e: 0x0001, 0x52a0: 0x0001, 0x52a1: 0x0001, 0x52a2: 0x0001, 0x52a3: 0x0010,",
   "\t0x52a4: 0x0001, 0x52a5: 0x0001, 0x52a6: 0x0010, 0x52a7: 0x0001, 0x52a8: 0x0001, 0x52a9: 0x0001,",
   "\t0x52aa: 0x0001, 0x52ab: 0x0001, 0x52ac: 0x0001, 0x52ad: 0x0001, 0x52ae: 0x0010, 0x52af: 0x0010,",
   "\t0x52b0: 0x0001, 0x52b1: 0x0001, 0x52b2: 0x0001, 0x52b3: 0x0001, 0x52b4: 0x0001, 0x52b5: 0x0010,",
   "\t0x52be: 0x0001, 0x52bf: 0x0001,",
   "\t// Block 0x14b, offset 0x52c0",
   "\t0x52e0: 0x0001, 0x52e1: 0x0001, 0x52e2: 0x0001, 0x52e3: 0x0001,",
   "\t0x52e4: 0x0001, 0x52e5: 0x0001, 0x52e6: 0x0001, 0x52e8: 0x0001, 0x52e9: 0x0001,",
   "\t0x52ea: 0x0001, 0x52eb: 0x0001, 0x52ed: 0x0001, 0x52ee: 0x0001,",
   "\t0x52f0: 0x0001, 0x52f1: 0x0001, 0x52f2: 0x0001, 0x52f3: 0x0001, 0x52f4: 0x0001, 0x52f5: 0x0001,",
   "\t0x52f6: 0x0001, 0x52f7: 0x0001, 0x52f8: 0x0001, 0x52f9: 0x0001, 0x52fa: 0x0001, 0x52fb: 0x0001,",
   "\t0x52fc: 0x0001, 0x52fd: 0x0001, 0x52fe: 0x0001,",
   "\t// Block 0x14c, offset 0x5300",
   "\t0x5300: 0x0001, 0x5301: 0x0001, 0x5302: 0x0001, 0x5303: 0x0001, 0x5304: 0x0001,",
   "\t0x5310: 0x0010, 0x5311: 0x0010,",
   "\t0x5312: 0x0010, 0x5313: 0x0010, 0x5314: 0x0010, 0x5315: 0x0010, 0x5316: 0x0010,",
   "\t// Block 0x14d, offset 0x5340",
   "\t0x5340: 0x0001, 0x5341: 0x0001, 0x5342: 0x0001, 0x5343: 0x0001, 0x5344: 0x0010, 0x5345: 0x0010,",
   "\t0x5346: 0x0010, 0x5347: 0x0010, 0x5348: 0x0010, 0x5349: 0x0010, 0x534a: 0x0010, 0x534b: 0x0001,",
   "\t0x5350: 0x8000, 0x5351: 0x8000,",
   "\t0x5352: 0x8000, 0x5353: 0x8000, 0x5354: 0x8000, 0x5355: 0x8000, 0x5356: 0x8000, 0x5357: 0x8000,",
   "\t0x5358: 0x8000, 0x5359: 0x8000,",
   "\t// Block 0x14e, offset 0x5380",
   "\t0x5380: 0x0001, 0x5381: 0x0001, 0x5382: 0x0001, 0x5383: 0x0001, 0x5385: 0x0001,",
   "\t0x5386: 0x0001, 0x5387: 0x0001, 0x5388: 0x0001, 0x5389: 0x0001, 0x538a: 0x0001, 0x538b: 0x0001,",
   "\t0x538c: 0x0001, 0x538d: 0x0001, 0x538e: 0x0001, 0x538f: 0x0001, 0x5390: 0x0001, 0x5391: 0x0001,",
   "\t0x5392: 0x0001, 0x5393: 0x0001, 0x5394: 0x0001, 0x5395: 0x0001, 0x5396: 0x0001, 0x5397: 0x0001,",
   "\t0x5398: 0x0001, 0x5399: 0x0001, 0x539a: 0x0001, 0x539b: 0x0001, 0x539c: 0x0001, 0x539d: 0x0001,",
   "\t0x539e: 0x0001, 0x539f: 0x0001, 0x53a1: 0x0001, 0x53a2: 0x0001,",
   "\t0x53a4: 0x0001, 0x53a7: 0x0001, 0x53a9: 0x0001,",
   "\t0x53aa: 0x0001, 0x53ab: 0x0001, 0x53ac: 0x0001, 0x53ad: 0x0001, 0x53ae: 0x0001, 0x53af: 0x0001,",
   "\t0x53b0: 0x0001, 0x53b1: 0x0001, 0x53b2: 0x0001, 0x53b4: 0x0001, 0x53b5: 0x0001,",
   "\t0x53b6: 0x0001, 0x53b7: 0x0001, 0x53b9: 0x0001, 0x53bb: 0x0001,",
   "\t// Block 0x14f, offset 0x53c0",
   "\t0x53c2: 0x0001,",
   "\t0x53c7: 0x0001, 0x53c9: 0x0001, 0x53cb: 0x0001,",
   "\t0x53cd: 0x0001, 0x53ce: 0x0001, 0x53cf: 0x0001, 0x53d1: 0x0001,",
   "\t0x53d2: 0x0001, 0x53d4: 0x0001, 0x53d7: 0x0001,",
   "\t0x53d9: 0x0001, 0x53db: 0x0001, 0x53dd: 0x0001,",
   "\t0x53df: 0x0001, 0x53e1: 0x0001, 0x53e2: 0x0001,",
   "\t0x53e4: 0x0001, 0x53e7: 0x0001, 0x53e8: 0x0001, 0x53e9: 0x0001,",
   "\t0x53ea: 0x0001, 0x53ec: 0x0001, 0x53ed: 0x0001, 0x53ee: 0x0001, 0x53ef: 0x0001,",
   "\t0x53f0: 0x0001, 0x53f1: 0x0001, 0x53f2: 0x0001, 0x53f4: 0x0001, 0x53f5: 0x0001,",
   "\t0x53f6: 0x0001, 0x53f7: 0x0001, 0x53f9: 0x0001, 0x53fa: 0x0001, 0x53fb: 0x0001,",
   "\t0x53fc: 0x0001, 0x53fe: 0x0001,"]
theorem v20_eq : v20 = (layout 6 4 320 ((Table.Values.blocks.drop 320).take 16)).map String.ofList := by
  kernel_rfl
/-- words/trie.go:3198-3351, `wordsValues` from block 0x150 on. -/
def v21 : List String :=
  ["\t// Block 0x150, offset 0x5400",
   "\t0x5400: 0x0001, 0x5401: 0x0001, 0x5402: 0x0001, 0x5403: 0x0001, 0x5404: 0x0001, 0x5405: 0x0001,",
   "\t0x5406: 0x0001, 0x5407: 0x0001, 0x5408: 0x0001, 0x5409: 0x0001, 0x540b: 0x0001,",
   "\t0x540c: 0x0001, 0x540d: 0x0001, 0x540e: 0x0001, 0x540f: 0x0001, 0x5410: 0x0001, 0x5411: 0x0001,",
   "\t0x5412: 0x0001, 0x5413: 0x0001, 0x5414: 0x0001, 0x5415: 0x0001, 0x5416: 0x0001, 0x5417: 0x0001,",
   "\t0x5418: 0x0001, 0x5419: 0x0001, 0x541a: 0x0001, 0x541b: 0x0001,",
   "\t0x5421: 0x0001, 0x5422: 0x0001, 0x5423: 0x0001,",
   "\t0x5425: 0x0001, 0x5426: 0x0001, 0x5427: 0x0001, 0x5428: 0x0001, 0x5429: 0x0001,",
   "\t0x542b: 0x0001, 0x542c: 0x0001, 0x542d: 0x0001, 0x542e: 0x0001, 0x542f: 0x0001,",
   "\t0x5430: 0x0001, 0x5431: 0x0001, 0x5432: 0x0001, 0x5433: 0x0001, 0x5434: 0x0001, 0x5435: 0x0001,",
   "\t0x5436: 0x0001, 0x5437: 0x0001, 0x5438: 0x0001, 0x5439: 0x0001, 0x543a: 0x0001, 0x543b: 0x0001,",
   "\t// Block 0x151, offset 0x5440",
   "\t0x5444: 0x0040,",
   "\t0x546c: 0x0040, 0x546d: 0x0040, 0x546e: 0x0040, 0x546f: 0x0040,",
   "\t// Block 0x152, offset 0x5480",
   "\t0x5494: 0x0040, 0x5495: 0x0040, 0x5496: 0x0040, 0x5497: 0x0040,",
   "\t0x5498: 0x0040, 0x5499: 0x0040, 0x549a: 0x0040, 0x549b: 0x0040, 0x549c: 0x0040, 0x549d: 0x0040,",
   "\t0x549e: 0x0040, 0x549f: 0x0040,",
   "\t0x54af: 0x0040,",
   "\t0x54b0: 0x0040,",
   "\t// Block 0x153, offset 0x54c0",
   "\t0x54c0: 0x0040,",
   "\t0x54cf: 0x0040, 0x54d0: 0x0040,",
   "\t0x54f6: 0x0040, 0x54f7: 0x0040, 0x54f8: 0x0040, 0x54f9: 0x0040, 0x54fa: 0x0040, 0x54fb: 0x0040,",
   "\t0x54fc: 0x0040, 0x54fd: 0x0040, 0x54fe: 0x0040, 0x54ff: 0x0040,",
   "\t// Block 0x154, offset 0x5500",
   "\t0x5530: 0x0001, 0x5531: 0x0001, 0x5532: 0x0001, 0x5533: 0x0001, 0x5534: 0x0001, 0x5535: 0x0001,",
   "\t0x5536: 0x0001, 0x5537: 0x0001, 0x5538: 0x0001, 0x5539: 0x0001, 0x553a: 0x0001, 0x553b: 0x0001,",
   "\t0x553c: 0x0001, 0x553d: 0x0001, 0x553e: 0x0001, 0x553f: 0x0001,",
   "\t// Block 0x155, offset 0x5540",
   "\t0x5540: 0x0001, 0x5541: 0x0001, 0x5542: 0x0001, 0x5543: 0x0001, 0x5544: 0x0001, 0x5545: 0x0001,",
   "\t0x5546: 0x0001, 0x5547: 0x0001, 0x5548: 0x0001, 0x5549: 0x0001,",
   "\t0x5550: 0x0001, 0x5551: 0x0001,",
   "\t0x5552: 0x0001, 0x5553: 0x0001, 0x5554: 0x0001, 0x5555: 0x0001, 0x5556: 0x0001, 0x5557: 0x0001,",
   "\t0x5558: 0x0001, 0x5559: 0x0001, 0x555a: 0x0001, 0x555b: 0x0001, 0x555c: 0x0001, 0x555d: 0x0001,",
   "\t0x555e: 0x0001, 0x555f: 0x0001, 0x5560: 0x0001, 0x5561: 0x0001, 0x5562: 0x0001, 0x5563: 0x0001,",
   "\t0x5564: 0x0001, 0x5565: 0x0001, 0x5566: 0x0001, 0x5567: 0x0001, 0x5568: 0x0001, 0x5569: 0x0001,",
   "\t0x5570: 0x0041, 0x5571: 0x0041, 0x5572: 0x0001, 0x5573: 0x0001, 0x5574: 0x0001, 0x5575: 0x0001,",
   "\t0x5576: 0x0001, 0x5577: 0x0001, 0x5578: 0x0001, 0x5579: 0x0001, 0x557a: 0x0001, 0x557b: 0x0001,",
   "\t0x557c: 0x0001, 0x557d: 0x0001, 0x557e: 0x0041, 0x557f: 0x0041,",
   "\t// Block 0x156, offset 0x5580",
   "\t0x5580: 0x0001, 0x5581: 0x0001, 0x5582: 0x0001, 0x5583: 0x0001, 0x5584: 0x0001, 0x5585: 0x0001,",
   "\t0x5586: 0x0001, 0x5587: 0x0001, 0x5588: 0x0001, 0x5589: 0x0001,",
   "\t0x558e: 0x0040, 0x5591: 0x0040,",
   "\t0x5592: 0x0040, 0x5593: 0x0040, 0x5594: 0x0040, 0x5595: 0x0040, 0x5596: 0x0040, 0x5597: 0x0040,",
   "\t0x5598: 0x0040, 0x5599: 0x0040, 0x559a: 0x0040,",
   "\t0x55ae: 0x0040, 0x55af: 0x0040,",
   "\t0x55b0: 0x0040, 0x55b1: 0x0040, 0x55b2: 0x0040, 0x55b3: 0x0040, 0x55b4: 0x0040, 0x55b5: 0x0040,",
   "\t0x55b6: 0x0040, 0x55b7: 0x0040, 0x55b8: 0x0040, 0x55b9: 0x0040, 0x55ba: 0x0040, 0x55bb: 0x0040,",
   "\t0x55bc: 0x0040, 0x55bd: 0x0040, 0x55be: 0x0040, 0x55bf: 0x0040,",
   "\t// Block 0x157, offset 0x55c0",
   "\t0x55c0: 0x0040, 0x55c1: 0x0040, 0x55c2: 0x0040, 0x55c3: 0x0040, 0x55c4: 0x0040, 0x55c5: 0x0040,",
   "\t0x55c6: 0x0040, 0x55c7: 0x0040, 0x55c8: 0x0040, 0x55c9: 0x0040, 0x55ca: 0x0040, 0x55cb: 0x0040,",
   "\t0x55cc: 0x0040, 0x55cd: 0x0040, 0x55ce: 0x0040, 0x55cf: 0x0040, 0x55d0: 0x0040, 0x55d1: 0x0040,",
   "\t0x55d2: 0x0040, 0x55d3: 0x0040, 0x55d4: 0x0040, 0x55d5: 0x0040, 0x55d6: 0x0040, 0x55d7: 0x0040,",
   "\t0x55d8: 0x0040, 0x55d9: 0x0040, 0x55da: 0x0040, 0x55db: 0x0040, 0x55dc: 0x0040, 0x55dd: 0x0040,",
   "\t0x55de: 0x0040, 0x55df: 0x0040, 0x55e0: 0x0040, 0x55e1: 0x0040, 0x55e2: 0x0040, 0x55e3: 0x0040,",
   "\t0x55e4: 0x0040, 0x55e5: 0x0040, 0x55e6: 0x10000, 0x55e7: 0x10000, 0x55e8: 0x10000, 0x55e9: 0x10000,",
   "\t0x55ea: 0x10000, 0x55eb: 0x10000, 0x55ec: 0x10000, 0x55ed: 0x10000, 0x55ee: 0x10000, 0x55ef: 0x10000,",
   "\t0x55f0: 0x10000, 0x55f1: 0x10000, 0x55f2: 0x10000, 0x55f3: 0x10000, 0x55f4: 0x10000, 0x55f5: 0x10000,",
   "\t0x55f6: 0x10000, 0x55f7: 0x10000, 0x55f8: 0x10000, 0x55f9: 0x10000, 0x55fa: 0x10000, 0x55fb: 0x10000,",
   "\t0x55fc: 0x10000, 0x55fd: 0x10000, 0x55fe: 0x10000, 0x55ff: 0x10000,",
   "\t// Block 0x158, offset 0x5600",
   "\t0x5600: 0x0002, 0x5601: 0x0040, 0x5602: 0x0040, 0x5603: 0x0040, 0x5604: 0x0040, 0x5605: 0x0040,",
   "\t0x5606: 0x0040, 0x5607: 0x0040, 0x5608: 0x0040, 0x5609: 0x0040, 0x560a: 0x0040, 0x560b: 0x0040,",
   "\t0x560c: 0x0040, 0x560d: 0x0040, 0x560e: 0x0040, 0x560f: 0x0040,",
   "\t0x561a: 0x0040,",
   "\t0x562f: 0x0040,",
   "\t0x5632: 0x0040, 0x5633: 0x0040, 0x5634: 0x0040, 0x5635: 0x0040,",
   "\t0x5636: 0x0040, 0x5637: 0x0040, 0x5638: 0x0040, 0x5639: 0x0040, 0x563a: 0x0040,",
   "\t0x563c: 0x0040, 0x563d: 0x0040, 0x563e: 0x0040, 0x563f: 0x0040,",
   "\t// Block 0x159, offset 0x5640",
   "\t0x5649: 0x0040, 0x564a: 0x0040, 0x564b: 0x0040,",
   "\t0x564c: 0x0040, 0x564d: 0x0040, 0x564e: 0x0040, 0x564f: 0x0040, 0x5650: 0x0040, 0x5651: 0x0040,",
   "\t0x5652: 0x0040, 0x5653: 0x0040, 0x5654: 0x0040, 0x5655: 0x0040, 0x5656: 0x0040, 0x5657: 0x0040,",
   "\t0x5658: 0x0040, 0x5659: 0x0040, 0x565a: 0x0040, 0x565b: 0x0040, 0x565c: 0x0040, 0x565d: 0x0040,",
   "\t0x565e: 0x0040, 0x565f: 0x0040,",
   "\t0x5666: 0x0040, 0x5667: 0x0040, 0x5668: 0x0040, 0x5669: 0x0040,",
   "\t0x566a: 0x0040, 0x566b: 0x0040, 0x566c: 0x0040, 0x566d: 0x0040, 0x566e: 0x0040, 0x566f: 0x0040,",
   "\t0x5670: 0x0040, 0x5671: 0x0040, 0x5672: 0x0040, 0x5673: 0x0040, 0x5674: 0x0040, 0x5675: 0x0040,",
   "\t0x5676: 0x0040, 0x5677: 0x0040, 0x5678: 0x0040, 0x5679: 0x0040, 0x567a: 0x0040, 0x567b: 0x0040,",
   "\t0x567c: 0x0040, 0x567d: 0x0040, 0x567e: 0x0040, 0x567f: 0x0040,",
   "\t// Block 0x15a, offset 0x5680",
   "\t0x5680: 0x0040, 0x5681: 0x0040, 0x5682: 0x0040, 0x5683: 0x0040, 0x5684: 0x0040, 0x5685: 0x0040,",
   "\t0x5686: 0x0040, 0x5687: 0x0040, 0x5688: 0x0040, 0x5689: 0x0040, 0x568a: 0x0040, 0x568b: 0x0040,",
   "\t0x568c: 0x0040, 0x568d: 0x0040, 0x568e: 0x0040, 0x568f: 0x0040, 0x5690: 0x0040, 0x5691: 0x0040,",
   "\t0x5692: 0x0040, 0x5693: 0x0040, 0x5694: 0x0040, 0x5695: 0x0040, 0x5696: 0x0040, 0x5697: 0x0040,",
   "\t0x5698: 0x0040, 0x5699: 0x0040, 0x569a: 0x0040, 0x569b: 0x0040, 0x569c: 0x0040, 0x569d: 0x0040,",
   "\t0x569e: 0x0040, 0x569f: 0x0040, 0x56a0: 0x0040, 0x56a1: 0x0040, 0x56a2: 0x0040, 0x56a3: 0x0040,",
   "\t0x56a4: 0x0040, 0x56a5: 0x0040, 0x56a6: 0x0040, 0x56a7: 0x0040, 0x56a8: 0x0040, 0x56a9: 0x0040,",
   "\t0x56aa: 0x0040, 0x56ab: 0x0040, 0x56ac: 0x0040, 0x56ad: 0x0040, 0x56ae: 0x0040, 0x56af: 0x0040,",
   "\t0x56b0: 0x0040, 0x56b1: 0x0040, 0x56b2: 0x0040, 0x56b3: 0x0040, 0x56b4: 0x0040, 0x56b5: 0x0040,",
   "\t0x56b6: 0x0040, 0x56b7: 0x0040, 0x56b8: 0x0040, 0x56b9: 0x0040, 0x56ba: 0x0040, 0x56bb: 0x0040,",
   "\t0x56bc: 0x0040, 0x56bd: 0x0040, 0x56be: 0x0040, 0x56bf: 0x0040,",
   "\t// Block 0x15b, offset 0x56c0",
   "\t0x56c0: 0x0040, 0x56c1: 0x0040, 0x56c2: 0x0040, 0x56c3: 0x0040, 0x56c4: 0x0040, 0x56c5: 0x0040,",
   "\t0x56c6: 0x0040, 0x56c7: 0x0040, 0x56c8: 0x0040, 0x56c9: 0x0040, 0x56ca: 0x0040, 0x56cb: 0x0040,",
   "\t0x56cc: 0x0040, 0x56cd: 0x0040, 0x56ce: 0x0040, 0x56cf: 0x0040, 0x56d0: 0x0040, 0x56d1: 0x0040,",
   "\t0x56d2: 0x0040, 0x56d3: 0x0040, 0x56d4: 0x0040, 0x56d5: 0x0040, 0x56d6: 0x0040, 0x56d7: 0x0040,",
   "\t0x56d8: 0x0040, 0x56d9: 0x0040, 0x56da: 0x0040, 0x56db: 0x0040, 0x56dc: 0x0040, 0x56dd: 0x0040,",
   "\t0x56de: 0x0040, 0x56df: 0x0040, 0x56e0: 0x0040, 0x56e1: 0x0040,",
   "\t0x56e4: 0x0040, 0x56e5: 0x0040, 0x56e6: 0x0040, 0x56e7: 0x0040, 0x56e8: 0x0040, 0x56e9: 0x0040,",
   "\t0x56ea: 0x0040, 0x56eb: 0x0040, 0x56ec: 0x0040, 0x56ed: 0x0040, 0x56ee: 0x0040, 0x56ef: 0x0040,",
   "\t0x56f0: 0x0040, 0x56f1: 0x0040, 0x56f2: 0x0040, 0x56f3: 0x0040, 0x56f4: 0x0040, 0x56f5: 0x0040,",
   "\t0x56f6: 0x0040, 0x56f7: 0x0040, 0x56f8: 0x0040, 0x56f9: 0x0040, 0x56fa: 0x0040, 0x56fb: 0x0040,",
   "\t0x56fc: 0x0040, 0x56fd: 0x0040, 0x56fe: 0x0040, 0x56ff: 0x0040,",
   "\t// Block 0x15c, offset 0x5700",
   "\t0x5700: 0x0040, 0x5701: 0x0040, 0x5702: 0x0040, 0x5703: 0x0040, 0x5704: 0x0040, 0x5705: 0x0040,",
   "\t0x5706: 0x0040, 0x5707: 0x0040, 0x5708: 0x0040, 0x5709: 0x0040, 0x570a: 0x0040, 0x570b: 0x0040,",
   "\t0x570c: 0x0040, 0x570d: 0x0040, 0x570e: 0x0040, 0x570f: 0x0040, 0x5710: 0x0040, 0x5711: 0x0040,",
   "\t0x5712: 0x0040, 0x5713: 0x0040, 0x5716: 0x0040, 0x5717: 0x0040,",
   "\t0x5719: 0x0040, 0x571a: 0x0040, 0x571b: 0x0040,",
   "\t0x571e: 0x0040, 0x571f: 0x0040, 0x5720: 0x0040, 0x5721: 0x0040, 0x5722: 0x0040, 0x5723: 0x0040,",
   "\t0x5724: 0x0040, 0x5725: 0x0040, 0x5726: 0x0040, 0x5727: 0x0040, 0x5728: 0x0040, 0x5729: 0x0040,",
   "\t0x572a: 0x0040, 0x572b: 0x0040, 0x572c: 0x0040, 0x572d: 0x0040, 0x572e: 0x0040, 0x572f: 0x0040,",
   "\t0x5730: 0x0040, 0x5731: 0x0040, 0x5732: 0x0040, 0x5733: 0x0040, 0x5734: 0x0040, 0x5735: 0x0040,",
   "\t0x5736: 0x0040, 0x5737: 0x0040, 0x5738: 0x0040, 0x5739: 0x0040, 0x573a: 0x0040, 0x573b: 0x0040,",
   "\t0x573c: 0x0040, 0x573d: 0x0040, 0x573e: 0x0040, 0x573f: 0x0040,",
   "\t// Block 0x15d, offset 0x5740",
   "\t0x5740: 0x0040, 0x5741: 0x0040, 0x5742: 0x0040, 0x5743: 0x0040, 0x5744: 0x0040, 0x5745: 0x0040,",
   "\t0x5746: 0x0040, 0x5747: 0x0040, 0x5748: 0x0040, 0x5749: 0x0040, 0x574a: 0x0040, 0x574b: 0x0040,",
   "\t0x574c: 0x0040, 0x574d: 0x0040, 0x574e: 0x0040, 0x574f: 0x0040, 0x5750: 0x0040, 0x5751: 0x0040,",
   "\t0x5752: 0x0040, 0x5753: 0x0040, 0x5754: 0x0040, 0x5755: 0x0040, 0x5756: 0x0040, 0x5757: 0x0040,",
   "\t0x5758: 0x0040, 0x5759: 0x0040, 0x575a: 0x0040, 0x575b: 0x0040, 0x575c: 0x0040, 0x575d: 0x0040,",
   "\t0x575e: 0x0040, 0x575f: 0x0040, 0x5760: 0x0040, 0x5761: 0x0040, 0x5762: 0x0040, 0x5763: 0x0040,",
   "\t0x5764: 0x0040, 0x5765: 0x0040, 0x5766: 0x0040, 0x5767: 0x0040, 0x5768: 0x0040, 0x5769: 0x0040,",
   "\t0x576a: 0x0040, 0x576b: 0x0040, 0x576c: 0x0040, 0x576d: 0x0040, 0x576e: 0x0040, 0x576f: 0x0040,",
   "\t0x5770: 0x0040, 0x5773: 0x0040, 0x5774: 0x0040, 0x5775: 0x0040,",
   "\t0x5777: 0x0040, 0x5778: 0x0040, 0x5779: 0x0040, 0x577a: 0x0040, 0x577b: 0x0010,",
   "\t0x577c: 0x0010, 0x577d: 0x0010, 0x577e: 0x0010, 0x577f: 0x0010,",
   "\t// Block 0x15e, offset 0x5780",
   "\t0x5780: 0x0040, 0x5781: 0x0040, 0x5782: 0x0040, 0x5783: 0x0040, 0x5784: 0x0040, 0x5785: 0x0040,",
   "\t0x5786: 0x0040, 0x5787: 0x0040, 0x5788: 0x0040, 0x5789: 0x0040, 0x578a: 0x0040, 0x578b: 0x0040,",
   "\t0x578c: 0x0040, 0x578d: 0x0040, 0x578e: 0x0040, 0x578f: 0x0040, 0x5790: 0x0040, 0x5791: 0x0040,",
   "\t0x5792: 0x0040, 0x5793: 0x0040, 0x5794: 0x0040, 0x5795: 0x0040, 0x5796: 0x0040, 0x5797: 0x0040,",
   "\t0x5798: 0x0040, 0x5799: 0x0040, 0x579a: 0x0040, 0x579b: 0x0040, 0x579c: 0x0040, 0x579d: 0x0040,",
   "\t0x579e: 0x0040, 0x579f: 0x0040, 0x57a0: 0x0040, 0x57a1: 0x0040, 0x57a2: 0x0040, 0x57a3: 0x0040,",
   "\t0x57a4: 0x0040, 0x57a5: 0x0040, 0x57a6: 0x0040, 0x57a7: 0x0040, 0x57a8: 0x0040, 0x57a9: 0x0040,",
   "\t0x57aa: 0x0040, 0x57ab: 0x0040, 0x57ac: 0x0040, 0x57ad: 0x0040, 0x57ae: 0x0040, 0x57af: 0x0040,",
   "\t0x57b0: 0x0040, 0x57b1: 0x0040, 0x57b2: 0x0040, 0x57b3: 0x0040, 0x57b4: 0x0040, 0x57b5: 0x0040,",
   "\t0x57b6: 0x0040, 0x57b7: 0x0040, 0x57b8: 0x0040, 0x57b9: 0x0040, 0x57ba: 0x0040, 0x57bb: 0x0040,",
   "\t0x57bc: 0x0040, 0x57bd: 0x0040, 0x57bf: 0x0040,",
   "\t// Block 0x15f, offset 0x57c0",
   "\t0x57c0: 0x0040, 0x57c1: 0x0040, 0x57c2: 0x0040, 0x57c3: 0x0040, 0x57c4: 0x0040, 0x57c5: 0x0040,",
   "\t0x57c6: 0x0040, 0x57c7: 0x0040, 0x57c8: 0x0040, 0x57c9: 0x0040, 0x57ca: 0x0040, 0x57cb: 0x0040,",
   "\t0x57cc: 0x0040, 0x57cd: 0x0040, 0x57ce: 0x0040, 0x57cf: 0x0040, 0x57d0: 0x0040, 0x57d1: 0x0040,",
   "\t0x57d2: 0x0040, 0x57d3: 0x0040, 0x57d4: 0x0040, 0x57d5: 0x0040, 0x57d6: 0x0040, 0x57d7: 0x0040,",
   "\t0x57d8: 0x0040, 0x57d9: 0x0040, 0x57da: 0x0040, 0x57db: 0x0040, 0x57dc: 0x0040, 0x57dd: 0x0040,",
   "\t0x57de: 0x0040, 0x57df: 0x0040, 0x57e0: 0x0040, 0x57e1: 0x0040, 0x57e2: 0x0040, 0x57e3: 0x0040,",
   "\t0x57e4: 0x0040, 0x57e5: 0x0040, 0x57e6: 0x0040, 0x57e7: 0x0040, 0x57e8: 0x0040, 0x57e9: 0x0040,",
   "\t0x57ea: 0x0040, 0x57eb: 0x0040, 0x57ec: 0x0040, 0x57ed: 0x0040, 0x57ee: 0x0040, 0x57ef: 0x0040,",
   "\t0x57f0: 0x0040, 0x57f1: 0x0040, 0x57f2: 0x0040, 0x57f3: 0x0040, 0x57f4: 0x0040, 0x57f5: 0x0040,",
   "\t0x57f6: 0x0040, 0x57f7: 0x0040, 0x57f8: 0x0040, 0x57f9: 0x0040, 0x57fa: 0x0040, 0x57fb: 0x0040,",
   "\t0x57fc: 0x0040, 0x57fd: 0x0040,"]
theorem v21_eq : v21 = (layout 6 4 336 ((Table.Values.blocks.drop 336).take 16)).map String.ofList := by
  kernel_rfl
/-- words/trie.go:3352-3485, `wordsValues` from block 0x160 on. -/
def v22 : List String :=
  ["\t// Block 0x160, offset 0x5800",
   "\t0x5809: 0x0040, 0x580a: 0x0040, 0x580b: 0x0040,",
   "\t0x580c: 0x0040, 0x580d: 0x0040, 0x580e: 0x0040, 0x5810: 0x0040, 0x5811: 0x0040,",
   "\t0x5812: 0x0040, 0x5813: 0x0040, 0x5814: 0x0040, 0x5815: 0x0040, 0x5816: 0x0040, 0x5817: 0x0040,",
   "\t0x5818: 0x0040, 0x5819: 0x0040, 0x581a: 0x0040, 0x581b: 0x0040, 0x581c: 0x0040, 0x581d: 0x0040,",
   "\t0x581e: 0x0040, 0x581f: 0x0040, 0x5820: 0x0040, 0x5821: 0x0040, 0x5822: 0x0040, 0x5823: 0x0040,",
   "\t0x5824: 0x0040, 0x5825: 0x0040, 0x5826: 0x0040, 0x5827: 0x0040,",
   "\t0x582f: 0x0040,",
   "\t0x5830: 0x0040, 0x5833: 0x0040, 0x5834: 0x0040, 0x5835: 0x0040,",
   "\t0x5836: 0x0040, 0x5837: 0x0040, 0x5838: 0x0040, 0x5839: 0x0040, 0x583a: 0x0040,",
   "\t// Block 0x161, offset 0x5840",
   "\t0x5847: 0x0040, 0x584a: 0x0040, 0x584b: 0x0040,",
   "\t0x584c: 0x0040, 0x584d: 0x0040, 0x5850: 0x0040,",
   "\t0x5855: 0x0040, 0x5856: 0x0040,",
   "\t0x5864: 0x0040, 0x5865: 0x0040, 0x5868: 0x0040,",
   "\t0x5871: 0x0040, 0x5872: 0x0040,",
   "\t0x587c: 0x0040,",
   "\t// Block 0x162, offset 0x5880",
   "\t0x5882: 0x0040, 0x5883: 0x0040, 0x5884: 0x0040,",
   "\t0x5891: 0x0040,",
   "\t0x5892: 0x0040, 0x5893: 0x0040,",
   "\t0x589c: 0x0040, 0x589d: 0x0040,",
   "\t0x589e: 0x0040, 0x58a1: 0x0040, 0x58a3: 0x0040,",
   "\t0x58a8: 0x0040,",
   "\t0x58af: 0x0040,",
   "\t0x58b3: 0x0040,",
   "\t0x58ba: 0x0040, 0x58bb: 0x0040,",
   "\t0x58bc: 0x0040, 0x58bd: 0x0040, 0x58be: 0x0040, 0x58bf: 0x0040,",
   "\t// Block 0x163, offset 0x58c0",
   "\t0x58c0: 0x0040, 0x58c1: 0x0040, 0x58c2: 0x0040, 0x58c3: 0x0040, 0x58c4: 0x0040, 0x58c5: 0x0040,",
   "\t0x58c6: 0x0040, 0x58c7: 0x0040, 0x58c8: 0x0040, 0x58c9: 0x0040, 0x58ca: 0x0040, 0x58cb: 0x0040,",
   "\t0x58cc: 0x0040, 0x58cd: 0x0040, 0x58ce: 0x0040, 0x58cf: 0x0040,",
   "\t// Block 0x164, offset 0x5900",
   "\t0x5900: 0x0040, 0x5901: 0x0040, 0x5902: 0x0040, 0x5903: 0x0040, 0x5904: 0x0040, 0x5905: 0x0040,",
   "\t0x590b: 0x0040,",
   "\t0x590c: 0x0040, 0x590d: 0x0040, 0x590e: 0x0040, 0x590f: 0x0040, 0x5910: 0x0040, 0x5911: 0x0040,",
   "\t0x5912: 0x0040, 0x5915: 0x0040, 0x5916: 0x0040, 0x5917: 0x0040,",
   "\t0x5918: 0x0040, 0x5919: 0x0040, 0x591a: 0x0040, 0x591b: 0x0040, 0x591c: 0x0040, 0x591d: 0x0040,",
   "\t0x591e: 0x0040, 0x591f: 0x0040, 0x5920: 0x0040, 0x5921: 0x0040, 0x5922: 0x0040, 0x5923: 0x0040,",
   "\t0x5924: 0x0040, 0x5925: 0x0040, 0x5929: 0x0040,",
   "\t0x592b: 0x0040, 0x592c: 0x0040, 0x592d: 0x0040, 0x592e: 0x0040, 0x592f: 0x0040,",
   "\t0x5930: 0x0040, 0x5933: 0x0040, 0x5934: 0x0040, 0x5935: 0x0040,",
   "\t0x5936: 0x0040, 0x5937: 0x0040, 0x5938: 0x0040, 0x5939: 0x0040, 0x593a: 0x0040, 0x593b: 0x0040,",
   "\t0x593c: 0x0040, 0x593d: 0x0040, 0x593e: 0x0040, 0x593f: 0x0040,",
   "\t// Block 0x165, offset 0x5940",
   "\t0x595a: 0x0040, 0x595b: 0x0040, 0x595c: 0x0040, 0x595d: 0x0040,",
   "\t0x595e: 0x0040, 0x595f: 0x0040, 0x5960: 0x0040, 0x5961: 0x0040, 0x5962: 0x0040, 0x5963: 0x0040,",
   "\t0x5964: 0x0040, 0x5965: 0x0040, 0x5966: 0x0040, 0x5967: 0x0040, 0x5968: 0x0040, 0x5969: 0x0040,",
   "\t0x596a: 0x0040, 0x596b: 0x0040, 0x596c: 0x0040, 0x596d: 0x0040, 0x596e: 0x0040, 0x596f: 0x0040,",
   "\t0x5970: 0x0040, 0x5971: 0x0040, 0x5972: 0x0040, 0x5973: 0x0040, 0x5974: 0x0040, 0x5975: 0x0040,",
   "\t0x5976: 0x0040, 0x5977: 0x0040, 0x5978: 0x0040, 0x5979: 0x0040, 0x597a: 0x0040, 0x597b: 0x0040,",
   "\t0x597c: 0x0040, 0x597d: 0x0040, 0x597e: 0x0040, 0x597f: 0x0040,",
   "\t// Block 0x166, offset 0x5980",
   "\t0x598c: 0x0040, 0x598d: 0x0040, 0x598e: 0x0040, 0x598f: 0x0040,",
   "\t// Block 0x167, offset 0x59c0",
   "\t0x59c8: 0x0040, 0x59c9: 0x0040, 0x59ca: 0x0040, 0x59cb: 0x0040,",
   "\t0x59cc: 0x0040, 0x59cd: 0x0040, 0x59ce: 0x0040, 0x59cf: 0x0040,",
   "\t0x59da: 0x0040, 0x59db: 0x0040, 0x59dc: 0x0040, 0x59dd: 0x0040,",
   "\t0x59de: 0x0040, 0x59df: 0x0040,",
   "\t// Block 0x168, offset 0x5a00",
   "\t0x5a08: 0x0040, 0x5a09: 0x0040, 0x5a0a: 0x0040, 0x5a0b: 0x0040,",
   "\t0x5a0c: 0x0040, 0x5a0d: 0x0040, 0x5a0e: 0x0040, 0x5a0f: 0x0040,",
   "\t0x5a2e: 0x0040, 0x5a2f: 0x0040,",
   "\t0x5a3c: 0x0040, 0x5a3d: 0x0040, 0x5a3e: 0x0040, 0x5a3f: 0x0040,",
   "\t// Block 0x169, offset 0x5a40",
   "\t0x5a42: 0x0040, 0x5a43: 0x0040, 0x5a44: 0x0040, 0x5a45: 0x0040,",
   "\t0x5a46: 0x0040, 0x5a47: 0x0040, 0x5a48: 0x0040, 0x5a49: 0x0040, 0x5a4a: 0x0040, 0x5a4b: 0x0040,",
   "\t0x5a4c: 0x0040, 0x5a4d: 0x0040, 0x5a4e: 0x0040, 0x5a4f: 0x0040,",
   "\t0x5a59: 0x0040, 0x5a5a: 0x0040, 0x5a5b: 0x0040, 0x5a5c: 0x0040, 0x5a5d: 0x0040,",
   "\t0x5a5e: 0x0040, 0x5a5f: 0x0040, 0x5a60: 0x0040, 0x5a61: 0x0040, 0x5a62: 0x0040, 0x5a63: 0x0040,",
   "\t0x5a64: 0x0040, 0x5a65: 0x0040, 0x5a66: 0x0040, 0x5a67: 0x0040, 0x5a68: 0x0040, 0x5a69: 0x0040,",
   "\t0x5a6a: 0x0040, 0x5a6b: 0x0040, 0x5a6c: 0x0040, 0x5a6d: 0x0040, 0x5a6e: 0x0040, 0x5a6f: 0x0040,",
   "\t0x5a70: 0x0040, 0x5a71: 0x0040, 0x5a72: 0x0040, 0x5a73: 0x0040, 0x5a74: 0x0040, 0x5a75: 0x0040,",
   "\t0x5a76: 0x0040, 0x5a77: 0x0040, 0x5a78: 0x0040, 0x5a79: 0x0040, 0x5a7a: 0x0040, 0x5a7b: 0x0040,",
   "\t0x5a7c: 0x0040, 0x5a7d: 0x0040, 0x5a7e: 0x0040, 0x5a7f: 0x0040,",
   "\t// Block 0x16a, offset 0x5a80",
   "\t0x5a8c: 0x0040, 0x5a8d: 0x0040, 0x5a8e: 0x0040, 0x5a8f: 0x0040, 0x5a90: 0x0040, 0x5a91: 0x0040,",
   "\t0x5a92: 0x0040, 0x5a93: 0x0040, 0x5a94: 0x0040, 0x5a95: 0x0040, 0x5a96: 0x0040, 0x5a97: 0x0040,",
   "\t0x5a98: 0x0040, 0x5a99: 0x0040, 0x5a9a: 0x0040, 0x5a9b: 0x0040, 0x5a9c: 0x0040, 0x5a9d: 0x0040,",
   "\t0x5a9e: 0x0040, 0x5a9f: 0x0040, 0x5aa0: 0x0040, 0x5aa1: 0x0040, 0x5aa2: 0x0040, 0x5aa3: 0x0040,",
   "\t0x5aa4: 0x0040, 0x5aa5: 0x0040, 0x5aa6: 0x0040, 0x5aa7: 0x0040, 0x5aa8: 0x0040, 0x5aa9: 0x0040,",
   "\t0x5aaa: 0x0040, 0x5aab: 0x0040, 0x5aac: 0x0040, 0x5aad: 0x0040, 0x5aae: 0x0040, 0x5aaf: 0x0040,",
   "\t0x5ab0: 0x0040, 0x5ab1: 0x0040, 0x5ab2: 0x0040, 0x5ab3: 0x0040, 0x5ab4: 0x0040, 0x5ab5: 0x0040,",
   "\t0x5ab6: 0x0040, 0x5ab7: 0x0040, 0x5ab8: 0x0040, 0x5ab9: 0x0040, 0x5aba: 0x0040,",
   "\t0x5abc: 0x0040, 0x5abd: 0x0040, 0x5abe: 0x0040, 0x5abf: 0x0040,",
   "\t// Block 0x16b, offset 0x5ac0",
   "\t0x5ac0: 0x0040, 0x5ac1: 0x0040, 0x5ac2: 0x0040, 0x5ac3: 0x0040, 0x5ac4: 0x0040, 0x5ac5: 0x0040,",
   "\t0x5ac7: 0x0040, 0x5ac8: 0x0040, 0x5ac9: 0x0040, 0x5aca: 0x0040, 0x5acb: 0x0040,",
   "\t0x5acc: 0x0040, 0x5acd: 0x0040, 0x5ace: 0x0040, 0x5acf: 0x0040, 0x5ad0: 0x0040, 0x5ad1: 0x0040,",
   "\t0x5ad2: 0x0040, 0x5ad3: 0x0040, 0x5ad4: 0x0040, 0x5ad5: 0x0040, 0x5ad6: 0x0040, 0x5ad7: 0x0040,",
   "\t0x5ad8: 0x0040, 0x5ad9: 0x0040, 0x5ada: 0x0040, 0x5adb: 0x0040, 0x5adc: 0x0040, 0x5add: 0x0040,",
   "\t0x5ade: 0x0040, 0x5adf: 0x0040, 0x5ae0: 0x0040, 0x5ae1: 0x0040, 0x5ae2: 0x0040, 0x5ae3: 0x0040,",
   "\t0x5ae4: 0x0040, 0x5ae5: 0x0040, 0x5ae6: 0x0040, 0x5ae7: 0x0040, 0x5ae8: 0x0040, 0x5ae9: 0x0040,",
   "\t0x5aea: 0x0040, 0x5aeb: 0x0040, 0x5aec: 0x0040, 0x5aed: 0x0040, 0x5aee: 0x0040, 0x5aef: 0x0040,",
   "\t0x5af0: 0x0040, 0x5af1: 0x0040, 0x5af2: 0x0040, 0x5af3: 0x0040, 0x5af4: 0x0040, 0x5af5: 0x0040,",
   "\t0x5af6: 0x0040, 0x5af7: 0x0040, 0x5af8: 0x0040, 0x5af9: 0x0040, 0x5afa: 0x0040, 0x5afb: 0x0040,",
   "\t0x5afc: 0x0040, 0x5afd: 0x0040, 0x5afe: 0x0040, 0x5aff: 0x0040,",
   "\t// Block 0x16c, offset 0x5b00",
   "\t0x5b18: 0x0040, 0x5b19: 0x0040, 0x5b1a: 0x0040, 0x5b1b: 0x0040, 0x5b1c: 0x0040, 0x5b1d: 0x0040,",
   "\t0x5b1e: 0x0040, 0x5b1f: 0x0040,",
   "\t0x5b2e: 0x0040, 0x5b2f: 0x0040,",
   "\t0x5b30: 0x0040, 0x5b31: 0x0040, 0x5b32: 0x0040, 0x5b33: 0x0040, 0x5b34: 0x0040, 0x5b35: 0x0040,",
   "\t0x5b36: 0x0040, 0x5b37: 0x0040, 0x5b38: 0x0040, 0x5b39: 0x0040, 0x5b3a: 0x0040, 0x5b3b: 0x0040,",
   "\t0x5b3c: 0x0040, 0x5b3d: 0x0040, 0x5b3e: 0x0040, 0x5b3f: 0x0040,",
   "\t// Block 0x16d, offset 0x5b40",
   "\t0x5b40: 0x0002, 0x5b41: 0x0002, 0x5b42: 0x0002, 0x5b43: 0x0002, 0x5b44: 0x0002, 0x5b45: 0x0002,",
   "\t0x5b46: 0x0002, 0x5b47: 0x0002, 0x5b48: 0x0002, 0x5b49: 0x0002, 0x5b4a: 0x0002, 0x5b4b: 0x0002,",
   "\t0x5b4c: 0x0002, 0x5b4d: 0x0002, 0x5b4e: 0x0002, 0x5b4f: 0x0002, 0x5b50: 0x0002, 0x5b51: 0x0002,",
   "\t0x5b52: 0x0002, 0x5b53: 0x0002, 0x5b54: 0x0002, 0x5b55: 0x0002, 0x5b56: 0x0002, 0x5b57: 0x0002,",
   "\t0x5b58: 0x0002, 0x5b59: 0x0002, 0x5b5a: 0x0002, 0x5b5b: 0x0002, 0x5b5c: 0x0002, 0x5b5d: 0x0002,",
   "\t0x5b5e: 0x0002, 0x5b5f: 0x0002,",
   "\t// Block 0x16e, offset 0x5b80",
   "\t0x5b80: 0x0002, 0x5b81: 0x0002, 0x5b82: 0x0002, 0x5b83: 0x0002, 0x5b84: 0x0002, 0x5b85: 0x0002,",
   "\t0x5b86: 0x0002, 0x5b87: 0x0002, 0x5b88: 0x0002, 0x5b89: 0x0002, 0x5b8a: 0x0002, 0x5b8b: 0x0002,",
   "\t0x5b8c: 0x0002, 0x5b8d: 0x0002, 0x5b8e: 0x0002, 0x5b8f: 0x0002, 0x5b90: 0x0002, 0x5b91: 0x0002,",
   "\t0x5b92: 0x0002, 0x5b93: 0x0002, 0x5b94: 0x0002, 0x5b95: 0x0002, 0x5b96: 0x0002, 0x5b97: 0x0002,",
   "\t0x5b98: 0x0002, 0x5b99: 0x0002, 0x5b9a: 0x0002, 0x5b9b: 0x0002, 0x5b9c: 0x0002, 0x5b9d: 0x0002,",
   "\t0x5b9e: 0x0002, 0x5b9f: 0x0002, 0x5ba0: 0x0002, 0x5ba1: 0x0002, 0x5ba2: 0x0002, 0x5ba3: 0x0002,",
   "\t0x5ba4: 0x0002, 0x5ba5: 0x0002, 0x5ba6: 0x0002, 0x5ba7: 0x0002, 0x5ba8: 0x0002, 0x5ba9: 0x0002,",
   "\t0x5baa: 0x0002, 0x5bab: 0x0002, 0x5bac: 0x0002, 0x5bad: 0x0002, 0x5bae: 0x0002, 0x5baf: 0x0002,",
   "\t0x5bb0: 0x0002, 0x5bb1: 0x0002, 0x5bb2: 0x0002, 0x5bb3: 0x0002, 0x5bb4: 0x0002, 0x5bb5: 0x0002,",
   "\t0x5bb6: 0x0002, 0x5bb7: 0x0002, 0x5bb8: 0x0002, 0x5bb9: 0x0002,",
   "\t// Block 0x16f, offset 0x5bc0",
   "\t0x5bc0: 0x0002, 0x5bc1: 0x0002, 0x5bc2: 0x0002, 0x5bc3: 0x0002, 0x5bc4: 0x0002, 0x5bc5: 0x0002,",
   "\t0x5bc6: 0x0002, 0x5bc7: 0x0002, 0x5bc8: 0x0002, 0x5bc9: 0x0002, 0x5bca: 0x0002, 0x5bcb: 0x0002,",
   "\t0x5bcc: 0x0002, 0x5bcd: 0x0002, 0x5bce: 0x0002, 0x5bcf: 0x0002, 0x5bd0: 0x0002, 0x5bd1: 0x0002,",
   "\t0x5bd2: 0x0002, 0x5bd3: 0x0002, 0x5bd4: 0x0002, 0x5bd5: 0x0002, 0x5bd6: 0x0002, 0x5bd7: 0x0002,",
   "\t0x5bd8: 0x0002, 0x5bd9: 0x0002, 0x5bda: 0x0002, 0x5bdb: 0x0002, 0x5bdc: 0x0002, 0x5bdd: 0x0002,",
   "\t0x5be0: 0x0002, 0x5be1: 0x0002, 0x5be2: 0x0002, 0x5be3: 0x0002,",
   "\t0x5be4: 0x0002, 0x5be5: 0x0002, 0x5be6: 0x0002, 0x5be7: 0x0002, 0x5be8: 0x0002, 0x5be9: 0x0002,",
   "\t0x5bea: 0x0002, 0x5beb: 0x0002, 0x5bec: 0x0002, 0x5bed: 0x0002, 0x5bee: 0x0002, 0x5bef: 0x0002,",
   "\t0x5bf0: 0x0002, 0x5bf1: 0x0002, 0x5bf2: 0x0002, 0x5bf3: 0x0002, 0x5bf4: 0x0002, 0x5bf5: 0x0002,",
   "\t0x5bf6: 0x0002, 0x5bf7: 0x0002, 0x5bf8: 0x0002, 0x5bf9: 0x0002, 0x5bfa: 0x0002, 0x5bfb: 0x0002,",
   "\t0x5bfc: 0x0002, 0x5bfd: 0x0002, 0x5bfe: 0x0002, 0x5bff: 0x0002,"]
theorem v22_eq : v22 = (layout 6 4 352 ((Table.Values.blocks.drop 352).take 16)).map String.ofList := by
  kernel_rfl
/-- words/trie.go:3486-3546, `wordsValues` from block 0x170 on. -/
def v23 : List String :=
  ["\t// Block 0x170, offset 0x5c00",
   "\t0x5c00: 0x0002, 0x5c01: 0x0002, 0x5c02: 0x0002, 0x5c03: 0x0002, 0x5c04: 0x0002, 0x5c05: 0x0002,",
   "\t0x5c06: 0x0002, 0x5c07: 0x0002, 0x5c08: 0x0002, 0x5c09: 0x0002, 0x5c0a: 0x0002, 0x5c0b: 0x0002,",
   "\t0x5c0c: 0x0002, 0x5c0d: 0x0002, 0x5c0e: 0x0002, 0x5c0f: 0x0002, 0x5c10: 0x0002, 0x5c11: 0x0002,",
   "\t0x5c12: 0x0002, 0x5c13: 0x0002, 0x5c14: 0x0002, 0x5c15: 0x0002, 0x5c16: 0x0002, 0x5c17: 0x0002,",
   "\t0x5c18: 0x0002, 0x5c19: 0x0002, 0x5c1a: 0x0002, 0x5c1b: 0x0002, 0x5c1c: 0x0002, 0x5c1d: 0x0002,",
   "\t0x5c1e: 0x0002, 0x5c1f: 0x0002, 0x5c20: 0x0002, 0x5c21: 0x0002,",
   "\t0x5c30: 0x0002, 0x5c31: 0x0002, 0x5c32: 0x0002, 0x5c33: 0x0002, 0x5c34: 0x0002, 0x5c35: 0x0002,",
   "\t0x5c36: 0x0002, 0x5c37: 0x0002, 0x5c38: 0x0002, 0x5c39: 0x0002, 0x5c3a: 0x0002, 0x5c3b: 0x0002,",
   "\t0x5c3c: 0x0002, 0x5c3d: 0x0002, 0x5c3e: 0x0002, 0x5c3f: 0x0002,",
   "\t// Block 0x171, offset 0x5c40",
   "\t0x5c40: 0x0002, 0x5c41: 0x0002, 0x5c42: 0x0002, 0x5c43: 0x0002, 0x5c44: 0x0002, 0x5c45: 0x0002,",
   "\t0x5c46: 0x0002, 0x5c47: 0x0002, 0x5c48: 0x0002, 0x5c49: 0x0002, 0x5c4a: 0x0002, 0x5c4b: 0x0002,",
   "\t0x5c4c: 0x0002, 0x5c4d: 0x0002, 0x5c4e: 0x0002, 0x5c4f: 0x0002, 0x5c50: 0x0002, 0x5c51: 0x0002,",
   "\t0x5c52: 0x0002, 0x5c53: 0x0002, 0x5c54: 0x0002, 0x5c55: 0x0002, 0x5c56: 0x0002, 0x5c57: 0x0002,",
   "\t0x5c58: 0x0002, 0x5c59: 0x0002, 0x5c5a: 0x0002, 0x5c5b: 0x0002, 0x5c5c: 0x0002, 0x5c5d: 0x0002,",
   "\t0x5c5e: 0x0002, 0x5c5f: 0x0002, 0x5c60: 0x0002,",
   "\t// Block 0x172, offset 0x5c80",
   "\t0x5c80: 0x0002, 0x5c81: 0x0002, 0x5c82: 0x0002, 0x5c83: 0x0002, 0x5c84: 0x0002, 0x5c85: 0x0002,",
   "\t0x5c86: 0x0002, 0x5c87: 0x0002, 0x5c88: 0x0002, 0x5c89: 0x0002, 0x5c8a: 0x0002, 0x5c8b: 0x0002,",
   "\t0x5c8c: 0x0002, 0x5c8d: 0x0002, 0x5c8e: 0x0002, 0x5c8f: 0x0002, 0x5c90: 0x0002, 0x5c91: 0x0002,",
   "\t0x5c92: 0x0002, 0x5c93: 0x0002, 0x5c94: 0x0002, 0x5c95: 0x0002, 0x5c96: 0x0002, 0x5c97: 0x0002,",
   "\t0x5c98: 0x0002, 0x5c99: 0x0002, 0x5c9a: 0x0002, 0x5c9b: 0x0002, 0x5c9c: 0x0002, 0x5c9d: 0x0002,",
   "\t// Block 0x173, offset 0x5cc0",
   "\t0x5cc0: 0x0002, 0x5cc1: 0x0002, 0x5cc2: 0x0002, 0x5cc3: 0x0002, 0x5cc4: 0x0002, 0x5cc5: 0x0002,",
   "\t0x5cc6: 0x0002, 0x5cc7: 0x0002, 0x5cc8: 0x0002, 0x5cc9: 0x0002, 0x5cca: 0x0002,",
   "\t0x5cd0: 0x0002, 0x5cd1: 0x0002,",
   "\t0x5cd2: 0x0002, 0x5cd3: 0x0002, 0x5cd4: 0x0002, 0x5cd5: 0x0002, 0x5cd6: 0x0002, 0x5cd7: 0x0002,",
   "\t0x5cd8: 0x0002, 0x5cd9: 0x0002, 0x5cda: 0x0002, 0x5cdb: 0x0002, 0x5cdc: 0x0002, 0x5cdd: 0x0002,",
   "\t0x5cde: 0x0002, 0x5cdf: 0x0002, 0x5ce0: 0x0002, 0x5ce1: 0x0002, 0x5ce2: 0x0002, 0x5ce3: 0x0002,",
   "\t0x5ce4: 0x0002, 0x5ce5: 0x0002, 0x5ce6: 0x0002, 0x5ce7: 0x0002, 0x5ce8: 0x0002, 0x5ce9: 0x0002,",
   "\t0x5cea: 0x0002, 0x5ceb: 0x0002, 0x5cec: 0x0002, 0x5ced: 0x0002, 0x5cee: 0x0002, 0x5cef: 0x0002,",
   "\t0x5cf0: 0x0002, 0x5cf1: 0x0002, 0x5cf2: 0x0002, 0x5cf3: 0x0002, 0x5cf4: 0x0002, 0x5cf5: 0x0002,",
   "\t0x5cf6: 0x0002, 0x5cf7: 0x0002, 0x5cf8: 0x0002, 0x5cf9: 0x0002, 0x5cfa: 0x0002, 0x5cfb: 0x0002,",
   "\t0x5cfc: 0x0002, 0x5cfd: 0x0002, 0x5cfe: 0x0002, 0x5cff: 0x0002,",
   "\t// Block 0x174, offset 0x5d00",
   "\t0x5d00: 0x0002, 0x5d01: 0x0002, 0x5d02: 0x0002, 0x5d03: 0x0002, 0x5d04: 0x0002, 0x5d05: 0x0002,",
   "\t0x5d06: 0x0002, 0x5d07: 0x0002, 0x5d08: 0x0002, 0x5d09: 0x0002, 0x5d0a: 0x0002, 0x5d0b: 0x0002,",
   "\t0x5d0c: 0x0002, 0x5d0d: 0x0002, 0x5d0e: 0x0002, 0x5d0f: 0x0002, 0x5d10: 0x0002, 0x5d11: 0x0002,",
   "\t0x5d12: 0x0002, 0x5d13: 0x0002, 0x5d14: 0x0002, 0x5d15: 0x0002, 0x5d16: 0x0002, 0x5d17: 0x0002,",
   "\t0x5d18: 0x0002, 0x5d19: 0x0002, 0x5d1a: 0x0002, 0x5d1b: 0x0002, 0x5d1c: 0x0002, 0x5d1d: 0x0002,",
   "\t0x5d1e: 0x0002, 0x5d1f: 0x0002, 0x5d20: 0x0002, 0x5d21: 0x0002, 0x5d22: 0x0002, 0x5d23: 0x0002,",
   "\t0x5d24: 0x0002, 0x5d25: 0x0002, 0x5d26: 0x0002, 0x5d27: 0x0002, 0x5d28: 0x0002, 0x5d29: 0x0002,",
   "\t0x5d2a: 0x0002, 0x5d2b: 0x0002, 0x5d2c: 0x0002, 0x5d2d: 0x0002, 0x5d2e: 0x0002, 0x5d2f: 0x0002,",
   "\t// Block 0x175, offset 0x5d40",
   "\t0x5d41: 0x0080,",
   "\t0x5d60: 0x0010, 0x5d61: 0x0010, 0x5d62: 0x0010, 0x5d63: 0x0010,",
   "\t0x5d64: 0x0010, 0x5d65: 0x0010, 0x5d66: 0x0010, 0x5d67: 0x0010, 0x5d68: 0x0010, 0x5d69: 0x0010,",
   "\t0x5d6a: 0x0010, 0x5d6b: 0x0010, 0x5d6c: 0x0010, 0x5d6d: 0x0010, 0x5d6e: 0x0010, 0x5d6f: 0x0010,",
   "\t0x5d70: 0x0010, 0x5d71: 0x0010, 0x5d72: 0x0010, 0x5d73: 0x0010, 0x5d74: 0x0010, 0x5d75: 0x0010,",
   "\t0x5d76: 0x0010, 0x5d77: 0x0010, 0x5d78: 0x0010, 0x5d79: 0x0010, 0x5d7a: 0x0010, 0x5d7b: 0x0010,",
   "\t0x5d7c: 0x0010, 0x5d7d: 0x0010, 0x5d7e: 0x0010, 0x5d7f: 0x0010,",
   "\t// Block 0x176, offset 0x5d80",
   "\t0x5d80: 0x0010, 0x5d81: 0x0010, 0x5d82: 0x0010, 0x5d83: 0x0010, 0x5d84: 0x0010, 0x5d85: 0x0010,",
   "\t0x5d86: 0x0010, 0x5d87: 0x0010, 0x5d88: 0x0010, 0x5d89: 0x0010, 0x5d8a: 0x0010, 0x5d8b: 0x0010,",
   "\t0x5d8c: 0x0010, 0x5d8d: 0x0010, 0x5d8e: 0x0010, 0x5d8f: 0x0010, 0x5d90: 0x0010, 0x5d91: 0x0010,",
   "\t0x5d92: 0x0010, 0x5d93: 0x0010, 0x5d94: 0x0010, 0x5d95: 0x0010, 0x5d96: 0x0010, 0x5d97: 0x0010,",
   "\t0x5d98: 0x0010, 0x5d99: 0x0010, 0x5d9a: 0x0010, 0x5d9b: 0x0010, 0x5d9c: 0x0010, 0x5d9d: 0x0010,",
   "\t0x5d9e: 0x0010, 0x5d9f: 0x0010, 0x5da0: 0x0010, 0x5da1: 0x0010, 0x5da2: 0x0010, 0x5da3: 0x0010,",
   "\t0x5da4: 0x0010, 0x5da5: 0x0010, 0x5da6: 0x0010, 0x5da7: 0x0010, 0x5da8: 0x0010, 0x5da9: 0x0010,",
   "\t0x5daa: 0x0010, 0x5dab: 0x0010, 0x5dac: 0x0010, 0x5dad: 0x0010, 0x5dae: 0x0010, 0x5daf: 0x0010,"]
theorem v23_eq : v23 = (layout 6 4 368 ((Table.Values.blocks.drop 368).take 16)).map String.ofList := by
  kernel_rfl
/-- words/trie.go:112-3546, the table `wordsValues`. -/
def values : List String := v0 ++ (v1 ++ (v2 ++ (v3 ++ (v4 ++ (v5 ++ (v6 ++ (v7 ++ (v8 ++ (v9 ++ (v10 ++ (v11 ++ (v12 ++ (v13 ++ (v14 ++ (v15 ++ (v16 ++ (v17 ++ (v18 ++ (v19 ++ (v20 ++ (v21 ++ (v22 ++ (v23)))))))))))))))))))))))
theorem values_eq : values = (layout 6 4 0 Table.Values.blocks).map String.ofList := by
  rw [values, v0_eq, v1_eq, v2_eq, v3_eq, v4_eq, v5_eq, v6_eq, v7_eq, v8_eq, v9_eq, v10_eq, v11_eq, v12_eq, v13_eq, v14_eq, v15_eq, v16_eq, v17_eq, v18_eq, v19_eq, v20_eq, v21_eq, v22_eq, v23_eq,
    layout_start 6 4 Table.Values.blocks, layout_step 6 4 0 16 16 rfl Table.Values.blocks, layout_step 6 4 16 16 32 rfl Table.Values.blocks, layout_step 6 4 32 16 48 rfl Table.Values.blocks, layout_step 6 4 48 16 64 rfl Table.Values.blocks, layout_step 6 4 64 16 80 rfl Table.Values.blocks, layout_step 6 4 80 16 96 rfl Table.Values.blocks, layout_step 6 4 96 16 112 rfl Table.Values.blocks, layout_step 6 4 112 16 128 rfl Table.Values.blocks, layout_step 6 4 128 16 144 rfl Table.Values.blocks, layout_step 6 4 144 16 160 rfl Table.Values.blocks, layout_step 6 4 160 16 176 rfl Table.Values.blocks, layout_step 6 4 176 16 192 rfl Table.Values.blocks, layout_step 6 4 192 16 208 rfl Table.Values.blocks, layout_step 6 4 208 16 224 rfl Table.Values.blocks, layout_step 6 4 224 16 240 rfl Table.Values.blocks, layout_step 6 4 240 16 256 rfl Table.Values.blocks, layout_step 6 4 256 16 272 rfl Table.Values.blocks, layout_step 6 4 272 16 288 rfl Table.Values.blocks, layout_step 6 4 288 16 304 rfl Table.Values.blocks, layout_step 6 4 304 16 320 rfl Table.Values.blocks, layout_step 6 4 320 16 336 rfl Table.Values.blocks, layout_step 6 4 336 16 352 rfl Table.Values.blocks, layout_step 6 4 352 16 368 rfl Table.Values.blocks, layout_step 6 4 368 16 384 rfl Table.Values.blocks,
    layout_end 6 4 (n := 384) (by decide), List.append_nil]
  simp only [List.map_append]
/-- words/trie.go:3547-3551, down to the table `wordsIndex`. -/
def mid : List String :=
  ["}",
   "",
   "// wordsIndex: 36 blocks, 2304 entries, 4608 bytes",
   "// Block 0 is the zero block.",
   "var wordsIndex = [2304]property{"]
/-- words/trie.go:3547-3551, as characters. -/
def midChars : List (List Char) :=
  [chars "}",
   chars "",
   chars "// wordsIndex: 36 blocks, 2304 entries, 4608 bytes",
   chars "// Block 0 is the zero block.",
   chars "var wordsIndex = [2304]property{"]
theorem mid_eq : mid = midChars.map String.ofList := by
  kernel_rfl
/-- words/trie.go:3552-3658, `wordsIndex` from block 0x0 on. -/
def i0 : List String :=
  ["\t// Block 0x0, offset 0x0",
   "\t// Block 0x1, offset 0x40",
   "\t// Block 0x2, offset 0x80",
   "\t// Block 0x3, offset 0xc0",
   "\t0xc2: 0x01, 0xc3: 0x02, 0xc4: 0x03, 0xc5: 0x03, 0xc6: 0x03, 0xc7: 0x03,",
   "\t0xc8: 0x03, 0xc9: 0x03, 0xca: 0x03, 0xcb: 0x04, 0xcc: 0x05, 0xcd: 0x06, 0xce: 0x07, 0xcf: 0x08,",
   "\t0xd0: 0x03, 0xd1: 0x03, 0xd2: 0x09, 0xd3: 0x03, 0xd4: 0x0a, 0xd5: 0x0b, 0xd6: 0x0c, 0xd7: 0x0d,",
   "\t0xd8: 0x0e, 0xd9: 0x0f, 0xda: 0x03, 0xdb: 0x10, 0xdc: 0x11, 0xdd: 0x12, 0xde: 0x13, 0xdf: 0x14,",
   "\t0xe0: 0x02, 0xe1: 0x03, 0xe2: 0x04, 0xe3: 0x05, 0xe4: 0x06, 0xe5: 0x07, 0xe6: 0x07, 0xe7: 0x07,",
   "\t0xe8: 0x07, 0xe9: 0x07, 0xea: 0x08, 0xeb: 0x09, 0xec: 0x09, 0xed: 0x0a, 0xef: 0x0b,",
   "\t0xf0: 0x1f, 0xf3: 0x21,",
   "\t// Block 0x4, offset 0x100",
   "\t0x120: 0x15, 0x121: 0x16, 0x122: 0x17, 0x123: 0x18, 0x124: 0x19, 0x125: 0x1a, 0x126: 0x1b, 0x127: 0x1c,",
   "\t0x128: 0x1d, 0x129: 0x1e, 0x12a: 0x1f, 0x12b: 0x20, 0x12c: 0x21, 0x12d: 0x22, 0x12e: 0x23, 0x12f: 0x24,",
   "\t0x130: 0x25, 0x131: 0x26, 0x132: 0x27, 0x133: 0x28, 0x134: 0x29, 0x135: 0x2a, 0x136: 0x2b, 0x137: 0x2c,",
   "\t0x138: 0x2d, 0x139: 0x2e, 0x13a: 0x2f, 0x13b: 0x30, 0x13c: 0x31, 0x13d: 0x32, 0x13e: 0x33, 0x13f: 0x34,",
   "\t// Block 0x5, offset 0x140",
   "\t0x140: 0x35, 0x141: 0x36, 0x142: 0x37, 0x143: 0x38, 0x144: 0x03, 0x145: 0x03, 0x146: 0x03, 0x147: 0x03,",
   "\t0x148: 0x03, 0x149: 0x39, 0x14a: 0x3a, 0x14b: 0x3b, 0x14c: 0x3c, 0x14d: 0x3d, 0x14e: 0x3e, 0x14f: 0x3f,",
   "\t0x150: 0x40, 0x151: 0x03, 0x152: 0x03, 0x153: 0x03, 0x154: 0x03, 0x155: 0x03, 0x156: 0x03, 0x157: 0x03,",
   "\t0x158: 0x03, 0x159: 0x41, 0x15a: 0x42, 0x15b: 0x43, 0x15c: 0x44, 0x15d: 0x45, 0x15e: 0x46, 0x15f: 0x47,",
   "\t0x160: 0x48, 0x161: 0x49, 0x162: 0x4a, 0x163: 0x4b, 0x164: 0x4c, 0x165: 0x4d, 0x167: 0x4e,",
   "\t0x168: 0x4f, 0x169: 0x50, 0x16a: 0x51, 0x16b: 0x52, 0x16c: 0x53, 0x16d: 0x54, 0x16e: 0x55, 0x16f: 0x56,",
   "\t0x170: 0x57, 0x171: 0x58, 0x172: 0x59, 0x173: 0x5a, 0x174: 0x03, 0x175: 0x03, 0x176: 0x03, 0x177: 0x05,",
   "\t0x178: 0x03, 0x179: 0x03, 0x17a: 0x03, 0x17b: 0x03, 0x17c: 0x5b, 0x17d: 0x5c, 0x17e: 0x5d, 0x17f: 0x5e,",
   "\t// Block 0x6, offset 0x180",
   "\t0x180: 0x5f, 0x181: 0x60, 0x182: 0x61, 0x183: 0x62, 0x184: 0x63, 0x185: 0x64, 0x186: 0x65,",
   "\t0x18c: 0x66, 0x18f: 0x67,",
   "\t0x192: 0x68, 0x193: 0x69, 0x196: 0x6a, 0x197: 0x6b,",
   "\t0x198: 0x6c, 0x199: 0x6d, 0x19a: 0x6e, 0x19b: 0x6f, 0x19c: 0x70, 0x19d: 0x71, 0x19e: 0x72,",
   "\t0x1a4: 0x73,",
   "\t0x1ac: 0x74, 0x1ad: 0x75,",
   "\t0x1b0: 0x03, 0x1b1: 0x03, 0x1b2: 0x03, 0x1b3: 0x76, 0x1b4: 0x77, 0x1b5: 0x78, 0x1b6: 0x79, 0x1b7: 0x7a,",
   "\t0x1b8: 0x7b, 0x1ba: 0x7c, 0x1bb: 0x7d, 0x1bc: 0x7e, 0x1bd: 0x7e, 0x1be: 0x7e, 0x1bf: 0x7f,",
   "\t// Block 0x7, offset 0x1c0",
   "\t0x1c0: 0x80, 0x1c1: 0x81, 0x1c2: 0x82, 0x1c3: 0x83, 0x1c4: 0x84, 0x1c5: 0x03, 0x1c6: 0x85, 0x1c7: 0x86,",
   "\t0x1ca: 0x87, 0x1cb: 0x88, 0x1cc: 0x89, 0x1cd: 0x8a,",
   "\t0x1d0: 0x7e, 0x1d1: 0x7e, 0x1d2: 0x7e, 0x1d3: 0x7e, 0x1d4: 0x7e, 0x1d5: 0x7e, 0x1d6: 0x7e, 0x1d7: 0x7e,",
   "\t0x1d8: 0x7e, 0x1d9: 0x7e, 0x1da: 0x7e, 0x1db: 0x7e, 0x1dc: 0x7e, 0x1dd: 0x7e, 0x1de: 0x7e, 0x1df: 0x7e,",
   "\t0x1e0: 0x7e, 0x1e1: 0x7e, 0x1e2: 0x7e, 0x1e3: 0x7e, 0x1e4: 0x7e, 0x1e5: 0x7e, 0x1e6: 0x7e, 0x1e7: 0x7e,",
   "\t0x1e8: 0x7e, 0x1e9: 0x7e, 0x1ea: 0x7e, 0x1eb: 0x7e, 0x1ec: 0x7e, 0x1ed: 0x7e, 0x1ee: 0x7e, 0x1ef: 0x7e,",
   "\t0x1f0: 0x7e, 0x1f1: 0x7e, 0x1f2: 0x7e, 0x1f3: 0x7e, 0x1f4: 0x7e, 0x1f5: 0x7e, 0x1f6: 0x7e, 0x1f7: 0x7e,",
   "\t0x1f8: 0x7e, 0x1f9: 0x7e, 0x1fa: 0x7e, 0x1fb: 0x7e, 0x1fc: 0x7e, 0x1fd: 0x7e, 0x1fe: 0x7e, 0x1ff: 0x7e,",
   "\t// Block 0x8, offset 0x200",
   "\t0x200: 0x7e, 0x201: 0x7e, 0x202: 0x7e, 0x203: 0x7e, 0x204: 0x7e, 0x205: 0x7e, 0x206: 0x7e, 0x207: 0x7e,",
   "\t0x208: 0x7e, 0x209: 0x7e, 0x20a: 0x7e, 0x20b: 0x7e, 0x20c: 0x7e, 0x20d: 0x7e, 0x20e: 0x7e, 0x20f: 0x7e,",
   "\t0x210: 0x7e, 0x211: 0x7e, 0x212: 0x7e, 0x213: 0x7e, 0x214: 0x7e, 0x215: 0x7e, 0x216: 0x7e, 0x217: 0x7e,",
   "\t0x218: 0x7e, 0x219: 0x7e, 0x21a: 0x7e, 0x21b: 0x7e, 0x21c: 0x7e, 0x21d: 0x7e, 0x21e: 0x7e, 0x21f: 0x7e,",
   "\t0x220: 0x7e, 0x221: 0x7e, 0x222: 0x7e, 0x223: 0x7e, 0x224: 0x7e, 0x225: 0x7e, 0x226: 0x7e, 0x227: 0x7e,",
   "\t0x228: 0x7e, 0x229: 0x7e, 0x22a: 0x7e, 0x22b: 0x7e, 0x22c: 0x7e, 0x22d: 0x7e, 0x22e: 0x7e, 0x22f: 0x7e,",
   "\t0x230: 0x7e, 0x231: 0x7e, 0x232: 0x7e, 0x233: 0x7e, 0x234: 0x7e, 0x235: 0x7e, 0x236: 0x7e,",
   "\t0x238: 0x7e, 0x239: 0x7e, 0x23a: 0x7e, 0x23b: 0x7e, 0x23c: 0x7e, 0x23d: 0x7e, 0x23e: 0x7e, 0x23f: 0x7e,",
   "\t// Block 0x9, offset 0x240",
   "\t0x240: 0x7e, 0x241: 0x7e, 0x242: 0x7e, 0x243: 0x7e, 0x244: 0x7e, 0x245: 0x7e, 0x246: 0x7e, 0x247: 0x7e,",
   "\t0x248: 0x7e, 0x249: 0x7e, 0x24a: 0x7e, 0x24b: 0x7e, 0x24c: 0x7e, 0x24d: 0x7e, 0x24e: 0x7e, 0x24f: 0x7e,",
   "\t0x250: 0x7e, 0x251: 0x7e, 0x252: 0x7e, 0x253: 0x7e, 0x254: 0x7e, 0x255: 0x7e, 0x256: 0x7e, 0x257: 0x7e,",
   "\t0x258: 0x7e, 0x259: 0x7e, 0x25a: 0x7e, 0x25b: 0x7e, 0x25c: 0x7e, 0x25d: 0x7e, 0x25e: 0x7e, 0x25f: 0x7e,",
   "\t0x260: 0x7e, 0x261: 0x7e, 0x262: 0x7e, 0x263: 0x7e, 0x264: 0x7e, 0x265: 0x7e, 0x266: 0x7e, 0x267: 0x7e,",
   "\t0x268: 0x7e, 0x269: 0x7e, 0x26a: 0x7e, 0x26b: 0x7e, 0x26c: 0x7e, 0x26d: 0x7e, 0x26e: 0x7e, 0x26f: 0x7e,",
   "\t0x270: 0x7e, 0x271: 0x7e, 0x272: 0x7e, 0x273: 0x7e, 0x274: 0x7e, 0x275: 0x7e, 0x276: 0x7e, 0x277: 0x7e,",
   "\t0x278: 0x7e, 0x279: 0x7e, 0x27a: 0x7e, 0x27b: 0x7e, 0x27c: 0x7e, 0x27d: 0x7e, 0x27e: 0x7e, 0x27f: 0x7e,",
   "\t// Block 0xa, offset 0x280",
   "\t0x280: 0x03, 0x281: 0x03, 0x282: 0x03, 0x283: 0x03, 0x284: 0x03, 0x285: 0x03, 0x286: 0x03, 0x287: 0x03,",
   "\t0x288: 0x03, 0x289: 0x03, 0x28a: 0x03, 0x28b: 0x03, 0x28c: 0x03, 0x28d: 0x03, 0x28e: 0x03, 0x28f: 0x03,",
   "\t0x290: 0x03, 0x291: 0x03, 0x292: 0x8b, 0x293: 0x8c, 0x294: 0x03, 0x295: 0x03, 0x296: 0x03, 0x297: 0x03,",
   "\t0x298: 0x8d, 0x299: 0x8e, 0x29a: 0x8f, 0x29b: 0x90, 0x29c: 0x91, 0x29d: 0x03, 0x29e: 0x03, 0x29f: 0x92,",
   "\t0x2a0: 0x93, 0x2a1: 0x94, 0x2a2: 0x95, 0x2a3: 0x96, 0x2a4: 0x97, 0x2a5: 0x98, 0x2a6: 0x99, 0x2a7: 0x9a,",
   "\t0x2a8: 0x9b, 0x2a9: 0x9c, 0x2aa: 0x9d, 0x2ab: 0x9e, 0x2ac: 0x9f, 0x2ad: 0xa0, 0x2ae: 0x03, 0x2af: 0xa1,",
   "\t0x2b0: 0x03, 0x2b1: 0x03, 0x2b2: 0x03, 0x2b3: 0x03, 0x2b4: 0x03, 0x2b5: 0x03, 0x2b6: 0x03, 0x2b7: 0x03,",
   "\t0x2b8: 0x03, 0x2b9: 0x03, 0x2ba: 0x03, 0x2bb: 0x03, 0x2bc: 0x03, 0x2bd: 0x03, 0x2be: 0x03, 0x2bf: 0x03,",
   "\t// Block 0xb, offset 0x2c0",
   "\t0x2c0: 0x03, 0x2c1: 0x03, 0x2c2: 0x03, 0x2c3: 0x03, 0x2c4: 0x03, 0x2c5: 0x03, 0x2c6: 0x03, 0x2c7: 0x03,",
   "\t0x2c8: 0x03, 0x2c9: 0x03, 0x2ca: 0x03, 0x2cb: 0x03, 0x2cc: 0x03, 0x2cd: 0x03, 0x2ce: 0x03, 0x2cf: 0x03,",
   "\t0x2d0: 0x03, 0x2d1: 0x03, 0x2d2: 0x03, 0x2d3: 0x03, 0x2d4: 0x03, 0x2d5: 0x03, 0x2d6: 0x03, 0x2d7: 0x03,",
   "\t0x2d8: 0x03, 0x2d9: 0x03, 0x2da: 0x03, 0x2db: 0x03, 0x2dc: 0x03, 0x2dd: 0x03, 0x2de: 0x03, 0x2df: 0x03,",
   "\t0x2e0: 0x03, 0x2e1: 0x03, 0x2e2: 0x03, 0x2e3: 0x03, 0x2e4: 0x03, 0x2e5: 0x03, 0x2e6: 0x03, 0x2e7: 0x03,",
   "\t0x2e8: 0x03, 0x2e9: 0x03, 0x2ea: 0x03, 0x2eb: 0x03, 0x2ec: 0x03, 0x2ed: 0x03, 0x2ee: 0x03, 0x2ef: 0x03,",
   "\t0x2f0: 0x03, 0x2f1: 0x03, 0x2f2: 0x03, 0x2f3: 0x03, 0x2f4: 0x03, 0x2f5: 0x03, 0x2f6: 0x03, 0x2f7: 0x03,",
   "\t0x2f8: 0x03, 0x2f9: 0x03, 0x2fa: 0x03, 0x2fb: 0x03, 0x2fc: 0x03, 0x2fd: 0x03, 0x2fe: 0x03, 0x2ff: 0x03,",
   "\t// Block 0xc, offset 0x300",
   "\t0x300: 0x03, 0x301: 0x03, 0x302: 0x03, 0x303: 0x03, 0x304: 0x03, 0x305: 0x03, 0x306: 0x03, 0x307: 0x03,",
   "\t0x308: 0x03, 0x309: 0x03, 0x30a: 0x03, 0x30b: 0x03, 0x30c: 0x03, 0x30d: 0x03, 0x30e: 0x03, 0x30f: 0x03,",
   "\t0x310: 0x03, 0x311: 0x03, 0x312: 0x03, 0x313: 0x03, 0x314: 0x03, 0x315: 0x03, 0x316: 0x03, 0x317: 0x03,",
   "\t0x318: 0x03, 0x319: 0x03, 0x31a: 0x03, 0x31b: 0x03, 0x31c: 0x03, 0x31d: 0x03, 0x31e: 0xa2, 0x31f: 0xa3,",
   "\t// Block 0xd, offset 0x340",
   "\t0x364: 0x7e, 0x365: 0x7e, 0x366: 0x7e, 0x367: 0x7e,",
   "\t0x368: 0x7e, 0x369: 0xa4, 0x36a: 0x7e, 0x36b: 0xa5, 0x36c: 0xa6, 0x36d: 0xa7, 0x36e: 0xa8, 0x36f: 0xa9,",
   "\t0x370: 0x03, 0x371: 0x03, 0x372: 0x03, 0x373: 0x03, 0x374: 0xaa, 0x375: 0xab, 0x376: 0xac, 0x377: 0xad,",
   "\t0x378: 0xae, 0x379: 0xaf, 0x37a: 0x03, 0x37b: 0xb0, 0x37c: 0xb1, 0x37d: 0xb2, 0x37e: 0xb3, 0x37f: 0xb4,",
   "\t// Block 0xe, offset 0x380",
   "\t0x380: 0xb5, 0x381: 0xb6, 0x382: 0x03, 0x383: 0xb7, 0x385: 0xb8, 0x387: 0xb9,",
   "\t0x38a: 0xba, 0x38b: 0xbb, 0x38c: 0xbc, 0x38d: 0xbd, 0x38e: 0xbe, 0x38f: 0xbf,",
   "\t0x390: 0x03, 0x391: 0x03, 0x392: 0xc0, 0x393: 0xc1, 0x394: 0xc2, 0x395: 0xc3, 0x396: 0xc4, 0x397: 0x94,",
   "\t0x398: 0x03, 0x399: 0x03, 0x39a: 0x03, 0x39b: 0x03, 0x39c: 0xc5, 0x39d: 0xc6, 0x39e: 0xc7,",
   "\t0x3a0: 0xc8, 0x3a1: 0xc9, 0x3a2: 0xca, 0x3a3: 0xcb, 0x3a4: 0xcc, 0x3a5: 0xcd, 0x3a6: 0xce,",
   "\t0x3a8: 0xcf, 0x3a9: 0xd0, 0x3aa: 0xd1, 0x3ab: 0xd2, 0x3ac: 0x4b, 0x3ad: 0xd3, 0x3ae: 0xd4,",
   "\t0x3b0: 0x03, 0x3b1: 0xd5, 0x3b2: 0xd6, 0x3b3: 0xd6, 0x3b4: 0xd7, 0x3b5: 0xd8, 0x3b6: 0xd9,",
   "\t0x3ba: 0xda, 0x3bb: 0xdb, 0x3bc: 0xdc, 0x3bd: 0xdd, 0x3be: 0xde, 0x3bf: 0xdf,",
   "\t// Block 0xf, offset 0x3c0",
   "\t0x3c0: 0xe0, 0x3c1: 0xe1, 0x3c2: 0xe2, 0x3c3: 0xe3, 0x3c4: 0xe4, 0x3c5: 0xe5, 0x3c6: 0xe6, 0x3c7: 0xe7,",
   "\t0x3c8: 0xe8, 0x3c9: 0xe9, 0x3ca: 0xea, 0x3cb: 0xeb, 0x3cc: 0xec, 0x3cd: 0xed, 0x3ce: 0xee, 0x3cf: 0xef,",
   "\t0x3d0: 0xf0, 0x3d1: 0xf1, 0x3d2: 0xf2, 0x3d3: 0xf3, 0x3d6: 0xf4, 0x3d7: 0xf5,",
   "\t0x3d8: 0xf2, 0x3d9: 0xf6, 0x3da: 0xf7, 0x3db: 0xf8, 0x3dc: 0xf9,",
   "\t0x3e0: 0xfa, 0x3e2: 0xfb, 0x3e3: 0xfc, 0x3e4: 0xfd, 0x3e5: 0xfe, 0x3e6: 0xff, 0x3e7: 0x100,",
   "\t0x3e8: 0x101, 0x3e9: 0x102, 0x3ea: 0x103, 0x3eb: 0x49, 0x3ed: 0x104, 0x3ef: 0x105,",
   "\t0x3f0: 0x106, 0x3f1: 0x107, 0x3f2: 0x108, 0x3f4: 0x109, 0x3f5: 0x10a, 0x3f6: 0x10b, 0x3f7: 0x10c,",
   "\t0x3fb: 0x10d, 0x3fc: 0x10e, 0x3fd: 0x10f, 0x3fe: 0x110,"]
theorem i0_eq : i0 = (layout 8 2 0 ((Table.Index.blocks.drop 0).take 16)).map String.ofList := by
  kernel_rfl
/-- words/trie.go:3659-3760, `wordsIndex` from block 0x10 on. -/
def i1 : List String :=
  ["\t// Block 0x10, offset 0x400",
   "\t0x400: 0x03, 0x401: 0x03, 0x402: 0x03, 0x403: 0x03, 0x404: 0x03, 0x405: 0x03, 0x406: 0x03, 0x407: 0x03,",
   "\t0x408: 0x03, 0x409: 0x03, 0x40a: 0x03, 0x40b: 0x03, 0x40c: 0x03, 0x40d: 0x03, 0x40e: 0xcd,",
   "\t0x410: 0x03, 0x411: 0x111, 0x412: 0x03, 0x413: 0x03, 0x414: 0x03, 0x415: 0x112,",
   "\t0x43e: 0xab, 0x43f: 0x113,",
   "\t// Block 0x11, offset 0x440",
   "\t0x440: 0x03, 0x441: 0x03, 0x442: 0x03, 0x443: 0x03, 0x444: 0x03, 0x445: 0x03, 0x446: 0x03, 0x447: 0x03,",
   "\t0x448: 0x03, 0x449: 0x03, 0x44a: 0x03, 0x44b: 0x03, 0x44c: 0x03, 0x44d: 0x03, 0x44e: 0x03, 0x44f: 0x03,",
   "\t0x450: 0x114, 0x451: 0x115, 0x452: 0x03, 0x453: 0x03, 0x454: 0x03, 0x455: 0x03, 0x456: 0x03, 0x457: 0x03,",
   "\t0x458: 0x03, 0x459: 0x03, 0x45a: 0x03, 0x45b: 0x03, 0x45c: 0x03, 0x45d: 0x03, 0x45e: 0x03, 0x45f: 0x03,",
   "\t0x460: 0x03, 0x461: 0x03, 0x462: 0x03, 0x463: 0x03, 0x464: 0x03, 0x465: 0x03, 0x466: 0x03, 0x467: 0x03,",
   "\t0x468: 0x03, 0x469: 0x03, 0x46a: 0x03, 0x46b: 0x03, 0x46c: 0x03, 0x46d: 0x03, 0x46e: 0x03, 0x46f: 0x03,",
   "\t0x470: 0x03, 0x471: 0x03, 0x472: 0x03, 0x473: 0x03, 0x474: 0x03, 0x475: 0x03, 0x476: 0x03, 0x477: 0x03,",
   "\t0x478: 0x03, 0x479: 0x03, 0x47a: 0x03, 0x47b: 0x03, 0x47c: 0x03, 0x47d: 0x03, 0x47e: 0x03, 0x47f: 0x03,",
   "\t// Block 0x12, offset 0x480",
   "\t0x480: 0x03, 0x481: 0x03, 0x482: 0x03, 0x483: 0x03, 0x484: 0x03, 0x485: 0x03, 0x486: 0x03, 0x487: 0x03,",
   "\t0x488: 0x03, 0x489: 0x03, 0x48a: 0x03, 0x48b: 0x03, 0x48c: 0x03, 0x48d: 0x03, 0x48e: 0x03, 0x48f: 0xb7,",
   "\t0x490: 0x03, 0x491: 0x03, 0x492: 0x03, 0x493: 0x03, 0x494: 0x03, 0x495: 0x03, 0x496: 0x03, 0x497: 0x03,",
   "\t0x498: 0x03, 0x499: 0x116,",
   "\t// Block 0x13, offset 0x4c0",
   "\t0x4c4: 0x117,",
   "\t0x4e0: 0x03, 0x4e1: 0x03, 0x4e2: 0x03, 0x4e3: 0x03, 0x4e4: 0x03, 0x4e5: 0x03, 0x4e6: 0x03, 0x4e7: 0x03,",
   "\t0x4e8: 0x49, 0x4e9: 0x118, 0x4ea: 0x119, 0x4eb: 0x11a, 0x4ec: 0x11b, 0x4ed: 0x11c, 0x4ee: 0x11d,",
   "\t0x4f5: 0x11e,",
   "\t0x4f9: 0x03, 0x4fa: 0x11f, 0x4fb: 0x120, 0x4fc: 0x03, 0x4fd: 0x121, 0x4fe: 0x122, 0x4ff: 0x123,",
   "\t// Block 0x14, offset 0x500",
   "\t0x53f: 0x124,",
   "\t// Block 0x15, offset 0x540",
   "\t0x540: 0x125, 0x541: 0x7e, 0x542: 0x7e, 0x543: 0x7e, 0x544: 0x126, 0x545: 0x127,",
   "\t0x570: 0x03, 0x571: 0x128, 0x572: 0x129,",
   "\t// Block 0x16, offset 0x580",
   "\t0x5b3: 0x12a,",
   "\t0x5bc: 0x12b, 0x5bd: 0x12c,",
   "\t// Block 0x17, offset 0x5c0",
   "\t0x5c5: 0x12d, 0x5c6: 0x12e,",
   "\t0x5c9: 0x12f,",
   "\t0x5d0: 0x03, 0x5d1: 0x130, 0x5d2: 0x131, 0x5d3: 0x132, 0x5d4: 0x133, 0x5d5: 0x134, 0x5d6: 0x03, 0x5d7: 0x03,",
   "\t0x5d8: 0x03, 0x5d9: 0x03, 0x5da: 0x135, 0x5db: 0x136, 0x5dc: 0x137, 0x5dd: 0x138, 0x5de: 0x139, 0x5df: 0x13a,",
   "\t0x5e8: 0x13b, 0x5e9: 0x13c, 0x5ea: 0x13d,",
   "\t0x5fc: 0x13e,",
   "\t// Block 0x18, offset 0x600",
   "\t0x600: 0x13f, 0x601: 0x140, 0x602: 0x141, 0x604: 0x142, 0x605: 0x143,",
   "\t0x60a: 0x144, 0x60b: 0x145,",
   "\t0x613: 0x146, 0x617: 0x147,",
   "\t0x61b: 0x148, 0x61f: 0x149,",
   "\t0x620: 0x03, 0x621: 0x03, 0x622: 0x03, 0x623: 0x14a, 0x624: 0x03, 0x625: 0x14b,",
   "\t0x638: 0x14c, 0x639: 0x14d, 0x63a: 0x14e,",
   "\t// Block 0x19, offset 0x640",
   "\t0x640: 0x14f, 0x642: 0x150, 0x643: 0x151, 0x644: 0x152, 0x645: 0x153, 0x646: 0x154, 0x647: 0x155,",
   "\t0x648: 0x156, 0x649: 0x157, 0x64a: 0x158, 0x64b: 0x158, 0x64c: 0x159, 0x64d: 0x158, 0x64e: 0x15a, 0x64f: 0x15b,",
   "\t0x650: 0x158, 0x651: 0x158, 0x652: 0x158, 0x653: 0x15c, 0x654: 0x15d, 0x655: 0x15e, 0x656: 0x15f, 0x657: 0x160,",
   "\t0x658: 0x158, 0x659: 0x161, 0x65a: 0x158, 0x65b: 0x162, 0x65f: 0x163,",
   "\t0x660: 0x164, 0x661: 0x165, 0x662: 0x166, 0x663: 0x167, 0x664: 0x168, 0x665: 0x169, 0x666: 0x158, 0x667: 0x158,",
   "\t0x669: 0x16a, 0x66a: 0x158, 0x66b: 0x158, 0x66f: 0x12a,",
   "\t0x670: 0x158, 0x671: 0x158, 0x672: 0x158, 0x673: 0x158, 0x674: 0x158, 0x675: 0x158, 0x676: 0x158, 0x677: 0x158,",
   "\t0x678: 0x158, 0x679: 0x158, 0x67a: 0x158, 0x67b: 0x158, 0x67c: 0x158, 0x67d: 0x158, 0x67e: 0x158, 0x67f: 0x15d,",
   "\t// Block 0x1a, offset 0x680",
   "\t0x680: 0x7e, 0x681: 0x7e, 0x682: 0x7e, 0x683: 0x7e, 0x684: 0x7e, 0x685: 0x7e, 0x686: 0x7e, 0x687: 0x7e,",
   "\t0x688: 0x7e, 0x689: 0x7e, 0x68a: 0x7e, 0x68b: 0x7e, 0x68c: 0x7e, 0x68d: 0x7e, 0x68e: 0x7e, 0x68f: 0x7e,",
   "\t0x690: 0x7e, 0x691: 0x7e, 0x692: 0x7e, 0x693: 0x7e, 0x694: 0x7e, 0x695: 0x7e, 0x696: 0x7e, 0x697: 0x7e,",
   "\t0x698: 0x7e, 0x699: 0x7e, 0x69a: 0x7e, 0x69b: 0x16b, 0x69c: 0x7e, 0x69d: 0x7e, 0x69e: 0x7e, 0x69f: 0x7e,",
   "\t0x6a0: 0x7e, 0x6a1: 0x7e, 0x6a2: 0x7e, 0x6a3: 0x7e, 0x6a4: 0x7e, 0x6a5: 0x7e, 0x6a6: 0x7e, 0x6a7: 0x7e,",
   "\t0x6a8: 0x7e, 0x6a9: 0x7e, 0x6aa: 0x7e, 0x6ab: 0x7e, 0x6ac: 0x7e, 0x6ad: 0x7e, 0x6ae: 0x7e, 0x6af: 0x7e,",
   "\t0x6b0: 0x7e, 0x6b1: 0x7e, 0x6b2: 0x7e, 0x6b3: 0x7e, 0x6b4: 0x7e, 0x6b5: 0x7e, 0x6b6: 0x7e, 0x6b7: 0x7e,",
   "\t0x6b8: 0x7e, 0x6b9: 0x7e, 0x6ba: 0x7e, 0x6bb: 0x7e, 0x6bc: 0x7e, 0x6bd: 0x7e, 0x6be: 0x7e, 0x6bf: 0x7e,",
   "\t// Block 0x1b, offset 0x6c0",
   "\t0x6c0: 0x7e, 0x6c1: 0x7e, 0x6c2: 0x7e, 0x6c3: 0x7e, 0x6c4: 0x7e, 0x6c5: 0x7e, 0x6c6: 0x7e, 0x6c7: 0x7e,",
   "\t0x6c8: 0x7e, 0x6c9: 0x7e, 0x6ca: 0x7e, 0x6cb: 0x7e, 0x6cc: 0x7e, 0x6cd: 0x7e, 0x6ce: 0x7e, 0x6cf: 0x7e,",
   "\t0x6d0: 0x7e, 0x6d1: 0x7e, 0x6d2: 0x7e, 0x6d3: 0x7e, 0x6d4: 0x7e, 0x6d5: 0x7e, 0x6d6: 0x7e, 0x6d7: 0x7e,",
   "\t0x6d8: 0x7e, 0x6d9: 0x7e, 0x6da: 0x7e, 0x6db: 0x7e, 0x6dc: 0x16c, 0x6dd: 0x7e, 0x6de: 0x7e, 0x6df: 0x7e,",
   "\t0x6e0: 0x16d, 0x6e1: 0x7e, 0x6e2: 0x7e, 0x6e3: 0x7e, 0x6e4: 0x7e, 0x6e5: 0x7e, 0x6e6: 0x7e, 0x6e7: 0x7e,",
   "\t0x6e8: 0x7e, 0x6e9: 0x7e, 0x6ea: 0x7e, 0x6eb: 0x7e, 0x6ec: 0x7e, 0x6ed: 0x7e, 0x6ee: 0x7e, 0x6ef: 0x7e,",
   "\t0x6f0: 0x7e, 0x6f1: 0x7e, 0x6f2: 0x7e, 0x6f3: 0x7e, 0x6f4: 0x7e, 0x6f5: 0x7e, 0x6f6: 0x7e, 0x6f7: 0x7e,",
   "\t0x6f8: 0x7e, 0x6f9: 0x7e, 0x6fa: 0x7e, 0x6fb: 0x7e, 0x6fc: 0x7e, 0x6fd: 0x7e, 0x6fe: 0x7e, 0x6ff: 0x7e,",
   "\t// Block 0x1c, offset 0x700",
   "\t0x700: 0x7e, 0x701: 0x7e, 0x702: 0x7e, 0x703: 0x7e, 0x704: 0x7e, 0x705: 0x7e, 0x706: 0x7e, 0x707: 0x7e,",
   "\t0x708: 0x7e, 0x709: 0x7e, 0x70a: 0x7e, 0x70b: 0x7e, 0x70c: 0x7e, 0x70d: 0x7e, 0x70e: 0x7e, 0x70f: 0x7e,",
   "\t0x710: 0x7e, 0x711: 0x7e, 0x712: 0x7e, 0x713: 0x7e, 0x714: 0x7e, 0x715: 0x7e, 0x716: 0x7e, 0x717: 0x7e,",
   "\t0x718: 0x7e, 0x719: 0x7e, 0x71a: 0x7e, 0x71b: 0x7e, 0x71c: 0x7e, 0x71d: 0x7e, 0x71e: 0x7e, 0x71f: 0x7e,",
   "\t0x720: 0x7e, 0x721: 0x7e, 0x722: 0x7e, 0x723: 0x7e, 0x724: 0x7e, 0x725: 0x7e, 0x726: 0x7e, 0x727: 0x7e,",
   "\t0x728: 0x7e, 0x729: 0x7e, 0x72a: 0x7e, 0x72b: 0x7e, 0x72c: 0x7e, 0x72d: 0x7e, 0x72e: 0x7e, 0x72f: 0x7e,",
   "\t0x730: 0x7e, 0x731: 0x7e, 0x732: 0x7e, 0x733: 0x7e, 0x734: 0x7e, 0x735: 0x7e, 0x736: 0x7e, 0x737: 0x7e,",
   "\t0x738: 0x7e, 0x739: 0x7e, 0x73a: 0x16e, 0x73b: 0x7e, 0x73c: 0x7e, 0x73d: 0x7e, 0x73e: 0x7e, 0x73f: 0x7e,",
   "\t// Block 0x1d, offset 0x740",
   "\t0x740: 0x7e, 0x741: 0x7e, 0x742: 0x7e, 0x743: 0x7e, 0x744: 0x7e, 0x745: 0x7e, 0x746: 0x7e, 0x747: 0x7e,",
   "\t0x748: 0x7e, 0x749: 0x7e, 0x74a: 0x7e, 0x74b: 0x7e, 0x74c: 0x7e, 0x74d: 0x7e, 0x74e: 0x7e, 0x74f: 0x7e,",
   "\t0x750: 0x7e, 0x751: 0x7e, 0x752: 0x7e, 0x753: 0x7e, 0x754: 0x7e, 0x755: 0x7e, 0x756: 0x7e, 0x757: 0x7e,",
   "\t0x758: 0x7e, 0x759: 0x7e, 0x75a: 0x7e, 0x75b: 0x7e, 0x75c: 0x7e, 0x75d: 0x7e, 0x75e: 0x7e, 0x75f: 0x7e,",
   "\t0x760: 0x7e, 0x761: 0x7e, 0x762: 0x7e, 0x763: 0x7e, 0x764: 0x7e, 0x765: 0x7e, 0x766: 0x7e, 0x767: 0x7e,",
   "\t0x768: 0x7e, 0x769: 0x7e, 0x76a: 0x7e, 0x76b: 0x7e, 0x76c: 0x7e, 0x76d: 0x7e, 0x76e: 0x7e, 0x76f: 0x16f,",
   "\t// Block 0x1e, offset 0x780",
   "\t0x7a0: 0x7e, 0x7a1: 0x7e, 0x7a2: 0x7e, 0x7a3: 0x7e, 0x7a4: 0x7e, 0x7a5: 0x7e, 0x7a6: 0x7e, 0x7a7: 0x7e,",
   "\t0x7a8: 0x170,",
   "\t// Block 0x1f, offset 0x7c0",
   "\t0x7c0: 0x7e, 0x7c1: 0x7e, 0x7c2: 0x7e, 0x7c3: 0x7e, 0x7c4: 0x7e, 0x7c5: 0x7e, 0x7c6: 0x7e, 0x7c7: 0x7e,",
   "\t0x7c8: 0x7e, 0x7c9: 0x7e, 0x7ca: 0x7e, 0x7cb: 0x7e, 0x7cc: 0x7e, 0x7cd: 0x171, 0x7ce: 0x7e, 0x7cf: 0x7e,",
   "\t0x7d0: 0x7e, 0x7d1: 0x7e, 0x7d2: 0x7e, 0x7d3: 0x7e, 0x7d4: 0x7e, 0x7d5: 0x7e, 0x7d6: 0x7e, 0x7d7: 0x7e,",
   "\t0x7d8: 0x7e, 0x7d9: 0x7e, 0x7da: 0x7e, 0x7db: 0x7e, 0x7dc: 0x7e, 0x7dd: 0x7e, 0x7de: 0x7e, 0x7df: 0x7e,",
   "\t0x7e0: 0x7e, 0x7e1: 0x7e, 0x7e2: 0x7e, 0x7e3: 0x7e, 0x7e4: 0x7e, 0x7e5: 0x7e, 0x7e6: 0x7e, 0x7e7: 0x7e,",
   "\t0x7e8: 0x7e, 0x7e9: 0x7e, 0x7ea: 0x7e, 0x7eb: 0x7e, 0x7ec: 0x7e, 0x7ed: 0x7e, 0x7ee: 0x7e, 0x7ef: 0x7e,",
   "\t0x7f0: 0x7e, 0x7f1: 0x7e, 0x7f2: 0x7e, 0x7f3: 0x7e, 0x7f4: 0x7e, 0x7f5: 0x7e, 0x7f6: 0x7e, 0x7f7: 0x7e,",
   "\t0x7f8: 0x7e, 0x7f9: 0x7e, 0x7fa: 0x7e, 0x7fb: 0x7e, 0x7fc: 0x7e, 0x7fd: 0x7e, 0x7fe: 0x7e, 0x7ff: 0x7e,"]
theorem i1_eq : i1 = (layout 8 2 16 ((Table.Index.blocks.drop 16).take 16)).map String.ofList := by
  kernel_rfl
/-- words/trie.go:3761-3773, `wordsIndex` from block 0x20 on. -/
def i2 : List String :=
  ["\t// Block 0x20, offset 0x800",
   "\t0x800: 0x7e, 0x801: 0x7e, 0x802: 0x7e, 0x803: 0x7e, 0x804: 0x7e, 0x805: 0x7e, 0x806: 0x7e, 0x807: 0x7e,",
   "\t0x808: 0x7e, 0x809: 0x7e, 0x80a: 0x7e, 0x80b: 0x7e, 0x80c: 0x7e, 0x80d: 0x7e, 0x80e: 0x172,",
   "\t// Block 0x21, offset 0x840",
   "\t0x850: 0x0c, 0x851: 0x0d, 0x852: 0x0e, 0x853: 0x0f, 0x854: 0x10, 0x856: 0x11,",
   "\t0x85a: 0x12, 0x85b: 0x13, 0x85c: 0x14, 0x85d: 0x15, 0x85e: 0x16, 0x85f: 0x17,",
   "\t0x860: 0x07, 0x861: 0x07, 0x862: 0x07, 0x863: 0x07, 0x864: 0x07, 0x865: 0x07, 0x866: 0x07, 0x867: 0x07,",
   "\t0x868: 0x07, 0x869: 0x07, 0x86a: 0x18, 0x86b: 0x19, 0x86c: 0x1a, 0x86d: 0x07, 0x86e: 0x1b, 0x86f: 0x1c,",
   "\t0x870: 0x07, 0x871: 0x1d, 0x872: 0x1e,",
   "\t// Block 0x22, offset 0x880",
   "\t0x880: 0x173, 0x881: 0x05, 0x884: 0x05, 0x885: 0x05, 0x886: 0x05, 0x887: 0x174,",
   "\t// Block 0x23, offset 0x8c0",
   "\t0x8e0: 0x20,"]
theorem i2_eq : i2 = (layout 8 2 32 ((Table.Index.blocks.drop 32).take 16)).map String.ofList := by
  kernel_rfl
/-- words/trie.go:3552-3773, the table `wordsIndex`. -/
def index : List String := i0 ++ (i1 ++ (i2))
theorem index_eq : index = (layout 8 2 0 Table.Index.blocks).map String.ofList := by
  rw [index, i0_eq, i1_eq, i2_eq,
    layout_start 8 2 Table.Index.blocks, layout_step 8 2 0 16 16 rfl Table.Index.blocks, layout_step 8 2 16 16 32 rfl Table.Index.blocks, layout_step 8 2 32 16 48 rfl Table.Index.blocks,
    layout_end 8 2 (n := 48) (by decide), List.append_nil]
  simp only [List.map_append]
/-- words/trie.go:3774-3775, the end. -/
def tail : List String :=
  ["}",
   ""]
/-- words/trie.go:3774-3775, as characters. -/
def tailChars : List (List Char) :=
  [chars "}",
   chars ""]
theorem tail_eq : tail = tailChars.map String.ofList := by
  kernel_rfl
end Uax29.Words.Text
/-- words/trie.go, its lines. -/
def Uax29.Words.text : List String := Text.head ++ (Text.values ++ (Text.mid ++ (Text.index ++ Text.tail)))
