import Verif.Table.GraphemesValues
import Verif.Table.GraphemesIndex
import Verif.Proofs.GoLayout
/-!
GENERATED by tools/gen_text.py from graphemes/trie.go. Do not edit.
The lines of graphemes/trie.go, and the comparison of its tables with those of tools/gen_tables.py.
-/
set_option maxRecDepth 100000
namespace Uax29.Graphemes.Text
open Gen
/-- graphemes/trie.go:1-108, down to the table `graphemesValues`. -/
def head : List String :=
  ["package graphemes",
   "",
   "// generated by github.com/clipperhouse/uax29/v2",
   "// from https://www.unicode.org/Public/17.0.0/ucd/auxiliary/GraphemeBreakProperty.txt",
   "",
   "type property uint32",
   "",
   "const (",
   "\t_CR property = 1 << iota",
   "\t_Control",
   "\t_Extend",
   "\t_ExtendedPictographic",
   "\t_InCBConsonant",
   "\t_InCBExtend",
   "\t_InCBLinker",
   "\t_L",
   "\t_LF",
   "\t_LV",
   "\t_LVT",
   "\t_Prepend",
   "\t_RegionalIndicator",
   "\t_SpacingMark",
   "\t_T",
   "\t_V",
   "\t_ZWJ",
   ")",
   "",
   "// lookup returns the trie value for the first UTF-8 encoding in s and",
   "// the width in bytes of this encoding. The size will be 0 if s does not",
   "// hold enough bytes to complete the encoding. len(s) must be greater than 0.",
   "func lookup[T ~string | ~[]byte](s T) (v property, sz int) {",
   "\tc0 := s[0]",
   "\tswitch {",
   "\tcase c0 < 0x80: // is ASCII",
   "\t\treturn graphemesValues[c0], 1",
   "\tcase c0 < 0xC2:",
   "\t\treturn 0, 1 // Illegal UTF-8: not a starter, not ASCII.",
   "\tcase c0 < 0xE0: // 2-byte UTF-8",
   "\t\tif len(s) < 2 {",
   "\t\t\treturn 0, 0",
   "\t\t}",
   "\t\ti := graphemesIndex[c0]",
   "\t\tc1 := s[1]",
   "\t\tif c1 < 0x80 || 0xC0 <= c1 {",
   "\t\t\treturn 0, 1 // Illegal UTF-8: not a continuation byte.",
   "\t\t}",
   "\t\treturn lookupValue(uint32(i), c1), 2",
   "\tcase c0 < 0xF0: // 3-byte UTF-8",
   "\t\tif len(s) < 3 {",
   "\t\t\treturn 0, 0",
   "\t\t}",
   "\t\ti := graphemesIndex[c0]",
   "\t\tc1 := s[1]",
   "\t\tif c1 < 0x80 || 0xC0 <= c1 {",
   "\t\t\treturn 0, 1 // Illegal UTF-8: not a continuation byte.",
   "\t\t}",
   "\t\to := uint32(i)<<6 + uint32(c1)",
   "\t\ti = graphemesIndex[o]",
   "\t\tc2 := s[2]",
   "\t\tif c2 < 0x80 || 0xC0 <= c2 {",
   "\t\t\treturn 0, 2 // Illegal UTF-8: not a continuation byte.",
   "\t\t}",
   "\t\treturn lookupValue(uint32(i), c2), 3",
   "\tcase c0 < 0xF8: // 4-byte UTF-8",
   "\t\tif len(s) < 4 {",
   "\t\t\treturn 0, 0",
   "\t\t}",
   "\t\ti := graphemesIndex[c0]",
   "\t\tc1 := s[1]",
   "\t\tif c1 < 0x80 || 0xC0 <= c1 {",
   "\t\t\treturn 0, 1 // Illegal UTF-8: not a continuation byte.",
   "\t\t}",
   "\t\to := uint32(i)<<6 + uint32(c1)",
   "\t\ti = graphemesIndex[o]",
   "\t\tc2 := s[2]",
   "\t\tif c2 < 0x80 || 0xC0 <= c2 {",
   "\t\t\treturn 0, 2 // Illegal UTF-8: not a continuation byte.",
   "\t\t}",
   "\t\to = uint32(i)<<6 + uint32(c2)",
   "\t\ti = graphemesIndex[o]",
   "\t\tc3 := s[3]",
   "\t\tif c3 < 0x80 || 0xC0 <= c3 {",
   "\t\t\treturn 0, 3 // Illegal UTF-8: not a continuation byte.",
   "\t\t}",
   "\t\treturn lookupValue(uint32(i), c3), 4",
   "\t}",
   "\t// Illegal rune",
   "\treturn 0, 1",
   "}",
   "",
   "// graphemesTrie. Total size: 61760 bytes (60.31 KiB). Checksum: af733ba94cd94ba6.",
   "// type graphemesTrie struct { }",
   "",
   "// func newGraphemesTrie(i int) *graphemesTrie {",
   "// \treturn &graphemesTrie{}",
   "// }",
   "",
   "// lookupValue determines the type of block n and looks up the value for b.",
   "func lookupValue(n uint32, b byte) property {",
   "\tswitch {",
   "\tdefault:",
   "\t\treturn property(graphemesValues[n<<6+uint32(b)])",
   "\t}",
   "}",
   "",
   "// graphemesValues: 235 blocks, 15040 entries, 60160 bytes",
   "// The third block is the zero block.",
   "var graphemesValues = [15040]property{"]
/-- graphemes/trie.go:1-108, as characters. -/
def headChars : List (List Char) :=
  [chars "package graphemes",
   chars "",
   chars "// generated by github.com/clipperhouse/uax29/v2",
   chars "// from https://www.unicode.org/Public/17.0.0/ucd/auxiliary/GraphemeBreakProperty.txt",
   chars "",
   chars "type property uint32",
   chars "",
   chars "const (",
   chars "\t_CR property = 1 << iota",
   chars "\t_Control",
   chars "\t_Extend",
   chars "\t_ExtendedPictographic",
   chars "\t_InCBConsonant",
   chars "\t_InCBExtend",
   chars "\t_InCBLinker",
   chars "\t_L",
   chars "\t_LF",
   chars "\t_LV",
   chars "\t_LVT",
   chars "\t_Prepend",
   chars "\t_RegionalIndicator",
   chars "\t_SpacingMark",
   chars "\t_T",
   chars "\t_V",
   chars "\t_ZWJ",
   chars ")",
   chars "",
   chars "// lookup returns the trie value for the first UTF-8 encoding in s and",
   chars "// the width in bytes of this encoding. The size will be 0 if s does not",
   chars "// hold enough bytes to complete the encoding. len(s) must be greater than 0.",
   chars "func lookup[T ~string | ~[]byte](s T) (v property, sz int) {",
   chars "\tc0 := s[0]",
   chars "\tswitch {",
   chars "\tcase c0 < 0x80: // is ASCII",
   chars "\t\treturn graphemesValues[c0], 1",
   chars "\tcase c0 < 0xC2:",
   chars "\t\treturn 0, 1 // Illegal UTF-8: not a starter, not ASCII.",
   chars "\tcase c0 < 0xE0: // 2-byte UTF-8",
   chars "\t\tif len(s) < 2 {",
   chars "\t\t\treturn 0, 0",
   chars "\t\t}",
   chars "\t\ti := graphemesIndex[c0]",
   chars "\t\tc1 := s[1]",
   chars "\t\tif c1 < 0x80 || 0xC0 <= c1 {",
   chars "\t\t\treturn 0, 1 // Illegal UTF-8: not a continuation byte.",
   chars "\t\t}",
   chars "\t\treturn lookupValue(uint32(i), c1), 2",
   chars "\tcase c0 < 0xF0: // 3-byte UTF-8",
   chars "\t\tif len(s) < 3 {",
   chars "\t\t\treturn 0, 0",
   chars "\t\t}",
   chars "\t\ti := graphemesIndex[c0]",
   chars "\t\tc1 := s[1]",
   chars "\t\tif c1 < 0x80 || 0xC0 <= c1 {",
   chars "\t\t\treturn 0, 1 // Illegal UTF-8: not a continuation byte.",
   chars "\t\t}",
   chars "\t\to := uint32(i)<<6 + uint32(c1)",
   chars "\t\ti = graphemesIndex[o]",
   chars "\t\tc2 := s[2]",
   chars "\t\tif c2 < 0x80 || 0xC0 <= c2 {",
   chars "\t\t\treturn 0, 2 // Illegal UTF-8: not a continuation byte.",
   chars "\t\t}",
   chars "\t\treturn lookupValue(uint32(i), c2), 3",
   chars "\tcase c0 < 0xF8: // 4-byte UTF-8",
   chars "\t\tif len(s) < 4 {",
   chars "\t\t\treturn 0, 0",
   chars "\t\t}",
   chars "\t\ti := graphemesIndex[c0]",
   chars "\t\tc1 := s[1]",
   chars "\t\tif c1 < 0x80 || 0xC0 <= c1 {",
   chars "\t\t\treturn 0, 1 // Illegal UTF-8: not a continuation byte.",
   chars "\t\t}",
   chars "\t\to := uint32(i)<<6 + uint32(c1)",
   chars "\t\ti = graphemesIndex[o]",
   chars "\t\tc2 := s[2]",
   chars "\t\tif c2 < 0x80 || 0xC0 <= c2 {",
   chars "\t\t\treturn 0, 2 // Illegal UTF-8: not a continuation byte.",
   chars "\t\t}",
   chars "\t\to = uint32(i)<<6 + uint32(c2)",
   chars "\t\ti = graphemesIndex[o]",
   chars "\t\tc3 := s[3]",
   chars "\t\tif c3 < 0x80 || 0xC0 <= c3 {",
   chars "\t\t\treturn 0, 3 // Illegal UTF-8: not a continuation byte.",
   chars "\t\t}",
   chars "\t\treturn lookupValue(uint32(i), c3), 4",
   chars "\t}",
   chars "\t// Illegal rune",
   chars "\treturn 0, 1",
   chars "}",
   chars "",
   chars "// graphemesTrie. Total size: 61760 bytes (60.31 KiB). Checksum: af733ba94cd94ba6.",
   chars "// type graphemesTrie struct { }",
   chars "",
   chars "// func newGraphemesTrie(i int) *graphemesTrie {",
   chars "// \treturn &graphemesTrie{}",
   chars "// }",
   chars "",
   chars "// lookupValue determines the type of block n and looks up the value for b.",
   chars "func lookupValue(n uint32, b byte) property {",
   chars "\tswitch {",
   chars "\tdefault:",
   chars "\t\treturn property(graphemesValues[n<<6+uint32(b)])",
   chars "\t}",
   chars "}",
   chars "",
   chars "// graphemesValues: 235 blocks, 15040 entries, 60160 bytes",
   chars "// The third block is the zero block.",
   chars "var graphemesValues = [15040]property{"]
theorem head_eq : head = headChars.map String.ofList := by
  kernel_rfl
/-- graphemes/trie.go:109-198, `graphemesValues` from block 0x0 on. -/
def v0 : List String :=
  ["\t// Block 0x0, offset 0x0",
   "\t0x00: 0x0002, 0x01: 0x0002, 0x02: 0x0002, 0x03: 0x0002, 0x04: 0x0002, 0x05: 0x0002,",
   "\t0x06: 0x0002, 0x07: 0x0002, 0x08: 0x0002, 0x09: 0x0002, 0x0a: 0x0100, 0x0b: 0x0002,",
   "\t0x0c: 0x0002, 0x0d: 0x0001, 0x0e: 0x0002, 0x0f: 0x0002, 0x10: 0x0002, 0x11: 0x0002,",
   "\t0x12: 0x0002, 0x13: 0x0002, 0x14: 0x0002, 0x15: 0x0002, 0x16: 0x0002, 0x17: 0x0002,",
   "\t0x18: 0x0002, 0x19: 0x0002, 0x1a: 0x0002, 0x1b: 0x0002, 0x1c: 0x0002, 0x1d: 0x0002,",
   "\t0x1e: 0x0002, 0x1f: 0x0002,",
   "\t// Block 0x1, offset 0x40",
   "\t0x7f: 0x0002,",
   "\t// Block 0x2, offset 0x80",
   "\t// Block 0x3, offset 0xc0",
   "\t0xc0: 0x0002, 0xc1: 0x0002, 0xc2: 0x0002, 0xc3: 0x0002, 0xc4: 0x0002, 0xc5: 0x0002,",
   "\t0xc6: 0x0002, 0xc7: 0x0002, 0xc8: 0x0002, 0xc9: 0x0002, 0xca: 0x0002, 0xcb: 0x0002,",
   "\t0xcc: 0x0002, 0xcd: 0x0002, 0xce: 0x0002, 0xcf: 0x0002, 0xd0: 0x0002, 0xd1: 0x0002,",
   "\t0xd2: 0x0002, 0xd3: 0x0002, 0xd4: 0x0002, 0xd5: 0x0002, 0xd6: 0x0002, 0xd7: 0x0002,",
   "\t0xd8: 0x0002, 0xd9: 0x0002, 0xda: 0x0002, 0xdb: 0x0002, 0xdc: 0x0002, 0xdd: 0x0002,",
   "\t0xde: 0x0002, 0xdf: 0x0002,",
   "\t0xe9: 0x0008,",
   "\t0xed: 0x0002, 0xee: 0x0008,",
   "\t// Block 0x4, offset 0x100",
   "\t0x100: 0x0024, 0x101: 0x0024, 0x102: 0x0024, 0x103: 0x0024, 0x104: 0x0024, 0x105: 0x0024,",
   "\t0x106: 0x0024, 0x107: 0x0024, 0x108: 0x0024, 0x109: 0x0024, 0x10a: 0x0024, 0x10b: 0x0024,",
   "\t0x10c: 0x0024, 0x10d: 0x0024, 0x10e: 0x0024, 0x10f: 0x0024, 0x110: 0x0024, 0x111: 0x0024,",
   "\t0x112: 0x0024, 0x113: 0x0024, 0x114: 0x0024, 0x115: 0x0024, 0x116: 0x0024, 0x117: 0x0024,",
   "\t0x118: 0x0024, 0x119: 0x0024, 0x11a: 0x0024, 0x11b: 0x0024, 0x11c: 0x0024, 0x11d: 0x0024,",
   "\t0x11e: 0x0024, 0x11f: 0x0024, 0x120: 0x0024, 0x121: 0x0024, 0x122: 0x0024, 0x123: 0x0024,",
   "\t0x124: 0x0024, 0x125: 0x0024, 0x126: 0x0024, 0x127: 0x0024, 0x128: 0x0024, 0x129: 0x0024,",
   "\t0x12a: 0x0024, 0x12b: 0x0024, 0x12c: 0x0024, 0x12d: 0x0024, 0x12e: 0x0024, 0x12f: 0x0024,",
   "\t0x130: 0x0024, 0x131: 0x0024, 0x132: 0x0024, 0x133: 0x0024, 0x134: 0x0024, 0x135: 0x0024,",
   "\t0x136: 0x0024, 0x137: 0x0024, 0x138: 0x0024, 0x139: 0x0024, 0x13a: 0x0024, 0x13b: 0x0024,",
   "\t0x13c: 0x0024, 0x13d: 0x0024, 0x13e: 0x0024, 0x13f: 0x0024,",
   "\t// Block 0x5, offset 0x140",
   "\t0x140: 0x0024, 0x141: 0x0024, 0x142: 0x0024, 0x143: 0x0024, 0x144: 0x0024, 0x145: 0x0024,",
   "\t0x146: 0x0024, 0x147: 0x0024, 0x148: 0x0024, 0x149: 0x0024, 0x14a: 0x0024, 0x14b: 0x0024,",
   "\t0x14c: 0x0024, 0x14d: 0x0024, 0x14e: 0x0024, 0x14f: 0x0024, 0x150: 0x0024, 0x151: 0x0024,",
   "\t0x152: 0x0024, 0x153: 0x0024, 0x154: 0x0024, 0x155: 0x0024, 0x156: 0x0024, 0x157: 0x0024,",
   "\t0x158: 0x0024, 0x159: 0x0024, 0x15a: 0x0024, 0x15b: 0x0024, 0x15c: 0x0024, 0x15d: 0x0024,",
   "\t0x15e: 0x0024, 0x15f: 0x0024, 0x160: 0x0024, 0x161: 0x0024, 0x162: 0x0024, 0x163: 0x0024,",
   "\t0x164: 0x0024, 0x165: 0x0024, 0x166: 0x0024, 0x167: 0x0024, 0x168: 0x0024, 0x169: 0x0024,",
   "\t0x16a: 0x0024, 0x16b: 0x0024, 0x16c: 0x0024, 0x16d: 0x0024, 0x16e: 0x0024, 0x16f: 0x0024,",
   "\t// Block 0x6, offset 0x180",
   "\t0x183: 0x0024, 0x184: 0x0024, 0x185: 0x0024,",
   "\t0x186: 0x0024, 0x187: 0x0024, 0x188: 0x0024, 0x189: 0x0024,",
   "\t// Block 0x7, offset 0x1c0",
   "\t0x1d1: 0x0024,",
   "\t0x1d2: 0x0024, 0x1d3: 0x0024, 0x1d4: 0x0024, 0x1d5: 0x0024, 0x1d6: 0x0024, 0x1d7: 0x0024,",
   "\t0x1d8: 0x0024, 0x1d9: 0x0024, 0x1da: 0x0024, 0x1db: 0x0024, 0x1dc: 0x0024, 0x1dd: 0x0024,",
   "\t0x1de: 0x0024, 0x1df: 0x0024, 0x1e0: 0x0024, 0x1e1: 0x0024, 0x1e2: 0x0024, 0x1e3: 0x0024,",
   "\t0x1e4: 0x0024, 0x1e5: 0x0024, 0x1e6: 0x0024, 0x1e7: 0x0024, 0x1e8: 0x0024, 0x1e9: 0x0024,",
   "\t0x1ea: 0x0024, 0x1eb: 0x0024, 0x1ec: 0x0024, 0x1ed: 0x0024, 0x1ee: 0x0024, 0x1ef: 0x0024,",
   "\t0x1f0: 0x0024, 0x1f1: 0x0024, 0x1f2: 0x0024, 0x1f3: 0x0024, 0x1f4: 0x0024, 0x1f5: 0x0024,",
   "\t0x1f6: 0x0024, 0x1f7: 0x0024, 0x1f8: 0x0024, 0x1f9: 0x0024, 0x1fa: 0x0024, 0x1fb: 0x0024,",
   "\t0x1fc: 0x0024, 0x1fd: 0x0024, 0x1ff: 0x0024,",
   "\t// Block 0x8, offset 0x200",
   "\t0x201: 0x0024, 0x202: 0x0024, 0x204: 0x0024, 0x205: 0x0024,",
   "\t0x207: 0x0024,",
   "\t// Block 0x9, offset 0x240",
   "\t0x240: 0x0800, 0x241: 0x0800, 0x242: 0x0800, 0x243: 0x0800, 0x244: 0x0800, 0x245: 0x0800,",
   "\t0x250: 0x0024, 0x251: 0x0024,",
   "\t0x252: 0x0024, 0x253: 0x0024, 0x254: 0x0024, 0x255: 0x0024, 0x256: 0x0024, 0x257: 0x0024,",
   "\t0x258: 0x0024, 0x259: 0x0024, 0x25a: 0x0024, 0x25c: 0x0002,",
   "\t// Block 0xa, offset 0x280",
   "\t0x28b: 0x0024,",
   "\t0x28c: 0x0024, 0x28d: 0x0024, 0x28e: 0x0024, 0x28f: 0x0024, 0x290: 0x0024, 0x291: 0x0024,",
   "\t0x292: 0x0024, 0x293: 0x0024, 0x294: 0x0024, 0x295: 0x0024, 0x296: 0x0024, 0x297: 0x0024,",
   "\t0x298: 0x0024, 0x299: 0x0024, 0x29a: 0x0024, 0x29b: 0x0024, 0x29c: 0x0024, 0x29d: 0x0024,",
   "\t0x29e: 0x0024, 0x29f: 0x0024,",
   "\t0x2b0: 0x0024,",
   "\t// Block 0xb, offset 0x2c0",
   "\t0x2d6: 0x0024, 0x2d7: 0x0024,",
   "\t0x2d8: 0x0024, 0x2d9: 0x0024, 0x2da: 0x0024, 0x2db: 0x0024, 0x2dc: 0x0024, 0x2dd: 0x0800,",
   "\t0x2df: 0x0024, 0x2e0: 0x0024, 0x2e1: 0x0024, 0x2e2: 0x0024, 0x2e3: 0x0024,",
   "\t0x2e4: 0x0024, 0x2e7: 0x0024, 0x2e8: 0x0024,",
   "\t0x2ea: 0x0024, 0x2eb: 0x0024, 0x2ec: 0x0024, 0x2ed: 0x0024,",
   "\t// Block 0xc, offset 0x300",
   "\t0x30f: 0x0800, 0x311: 0x0024,",
   "\t0x330: 0x0024, 0x331: 0x0024, 0x332: 0x0024, 0x333: 0x0024, 0x334: 0x0024, 0x335: 0x0024,",
   "\t0x336: 0x0024, 0x337: 0x0024, 0x338: 0x0024, 0x339: 0x0024, 0x33a: 0x0024, 0x33b: 0x0024,",
   "\t0x33c: 0x0024, 0x33d: 0x0024, 0x33e: 0x0024, 0x33f: 0x0024,",
   "\t// Block 0xd, offset 0x340",
   "\t0x340: 0x0024, 0x341: 0x0024, 0x342: 0x0024, 0x343: 0x0024, 0x344: 0x0024, 0x345: 0x0024,",
   "\t0x346: 0x0024, 0x347: 0x0024, 0x348: 0x0024, 0x349: 0x0024, 0x34a: 0x0024,",
   "\t// Block 0xe, offset 0x380",
   "\t0x3a6: 0x0024, 0x3a7: 0x0024, 0x3a8: 0x0024, 0x3a9: 0x0024,",
   "\t0x3aa: 0x0024, 0x3ab: 0x0024, 0x3ac: 0x0024, 0x3ad: 0x0024, 0x3ae: 0x0024, 0x3af: 0x0024,",
   "\t0x3b0: 0x0024,",
   "\t// Block 0xf, offset 0x3c0",
   "\t0x3eb: 0x0024, 0x3ec: 0x0024, 0x3ed: 0x0024, 0x3ee: 0x0024, 0x3ef: 0x0024,",
   "\t0x3f0: 0x0024, 0x3f1: 0x0024, 0x3f2: 0x0024, 0x3f3: 0x0024,",
   "\t0x3fd: 0x0024,"]
theorem v0_eq : v0 = (layout 6 4 0 ((Table.Values.blocks.drop 0).take 16)).map String.ofList := by
  kernel_rfl
/-- graphemes/trie.go:199-311, `graphemesValues` from block 0x10 on. -/
def v1 : List String :=
  ["\t// Block 0x10, offset 0x400",
   "\t0x416: 0x0024, 0x417: 0x0024,",
   "\t0x418: 0x0024, 0x419: 0x0024, 0x41b: 0x0024, 0x41c: 0x0024, 0x41d: 0x0024,",
   "\t0x41e: 0x0024, 0x41f: 0x0024, 0x420: 0x0024, 0x421: 0x0024, 0x422: 0x0024, 0x423: 0x0024,",
   "\t0x425: 0x0024, 0x426: 0x0024, 0x427: 0x0024, 0x429: 0x0024,",
   "\t0x42a: 0x0024, 0x42b: 0x0024, 0x42c: 0x0024, 0x42d: 0x0024,",
   "\t// Block 0x11, offset 0x440",
   "\t0x459: 0x0024, 0x45a: 0x0024, 0x45b: 0x0024,",
   "\t// Block 0x12, offset 0x480",
   "\t0x490: 0x0800, 0x491: 0x0800,",
   "\t0x497: 0x0024,",
   "\t0x498: 0x0024, 0x499: 0x0024, 0x49a: 0x0024, 0x49b: 0x0024, 0x49c: 0x0024, 0x49d: 0x0024,",
   "\t0x49e: 0x0024, 0x49f: 0x0024,",
   "\t// Block 0x13, offset 0x4c0",
   "\t0x4ca: 0x0024, 0x4cb: 0x0024,",
   "\t0x4cc: 0x0024, 0x4cd: 0x0024, 0x4ce: 0x0024, 0x4cf: 0x0024, 0x4d0: 0x0024, 0x4d1: 0x0024,",
   "\t0x4d2: 0x0024, 0x4d3: 0x0024, 0x4d4: 0x0024, 0x4d5: 0x0024, 0x4d6: 0x0024, 0x4d7: 0x0024,",
   "\t0x4d8: 0x0024, 0x4d9: 0x0024, 0x4da: 0x0024, 0x4db: 0x0024, 0x4dc: 0x0024, 0x4dd: 0x0024,",
   "\t0x4de: 0x0024, 0x4df: 0x0024, 0x4e0: 0x0024, 0x4e1: 0x0024, 0x4e2: 0x0800, 0x4e3: 0x0024,",
   "\t0x4e4: 0x0024, 0x4e5: 0x0024, 0x4e6: 0x0024, 0x4e7: 0x0024, 0x4e8: 0x0024, 0x4e9: 0x0024,",
   "\t0x4ea: 0x0024, 0x4eb: 0x0024, 0x4ec: 0x0024, 0x4ed: 0x0024, 0x4ee: 0x0024, 0x4ef: 0x0024,",
   "\t0x4f0: 0x0024, 0x4f1: 0x0024, 0x4f2: 0x0024, 0x4f3: 0x0024, 0x4f4: 0x0024, 0x4f5: 0x0024,",
   "\t0x4f6: 0x0024, 0x4f7: 0x0024, 0x4f8: 0x0024, 0x4f9: 0x0024, 0x4fa: 0x0024, 0x4fb: 0x0024,",
   "\t0x4fc: 0x0024, 0x4fd: 0x0024, 0x4fe: 0x0024, 0x4ff: 0x0024,",
   "\t// Block 0x14, offset 0x500",
   "\t0x500: 0x0024, 0x501: 0x0024, 0x502: 0x0024, 0x503: 0x2000,",
   "\t0x515: 0x0010, 0x516: 0x0010, 0x517: 0x0010,",
   "\t0x518: 0x0010, 0x519: 0x0010, 0x51a: 0x0010, 0x51b: 0x0010, 0x51c: 0x0010, 0x51d: 0x0010,",
   "\t0x51e: 0x0010, 0x51f: 0x0010, 0x520: 0x0010, 0x521: 0x0010, 0x522: 0x0010, 0x523: 0x0010,",
   "\t0x524: 0x0010, 0x525: 0x0010, 0x526: 0x0010, 0x527: 0x0010, 0x528: 0x0010, 0x529: 0x0010,",
   "\t0x52a: 0x0010, 0x52b: 0x0010, 0x52c: 0x0010, 0x52d: 0x0010, 0x52e: 0x0010, 0x52f: 0x0010,",
   "\t0x530: 0x0010, 0x531: 0x0010, 0x532: 0x0010, 0x533: 0x0010, 0x534: 0x0010, 0x535: 0x0010,",
   "\t0x536: 0x0010, 0x537: 0x0010, 0x538: 0x0010, 0x539: 0x0010, 0x53a: 0x0024, 0x53b: 0x2000,",
   "\t0x53c: 0x0024, 0x53e: 0x2000, 0x53f: 0x2000,",
   "\t// Block 0x15, offset 0x540",
   "\t0x540: 0x2000, 0x541: 0x0024, 0x542: 0x0024, 0x543: 0x0024, 0x544: 0x0024, 0x545: 0x0024,",
   "\t0x546: 0x0024, 0x547: 0x0024, 0x548: 0x0024, 0x549: 0x2000, 0x54a: 0x2000, 0x54b: 0x2000,",
   "\t0x54c: 0x2000, 0x54d: 0x0044, 0x54e: 0x2000, 0x54f: 0x2000, 0x551: 0x0024,",
   "\t0x552: 0x0024, 0x553: 0x0024, 0x554: 0x0024, 0x555: 0x0024, 0x556: 0x0024, 0x557: 0x0024,",
   "\t0x558: 0x0010, 0x559: 0x0010, 0x55a: 0x0010, 0x55b: 0x0010, 0x55c: 0x0010, 0x55d: 0x0010,",
   "\t0x55e: 0x0010, 0x55f: 0x0010, 0x562: 0x0024, 0x563: 0x0024,",
   "\t0x578: 0x0010, 0x579: 0x0010, 0x57a: 0x0010, 0x57b: 0x0010,",
   "\t0x57c: 0x0010, 0x57d: 0x0010, 0x57e: 0x0010, 0x57f: 0x0010,",
   "\t// Block 0x16, offset 0x580",
   "\t0x581: 0x0024, 0x582: 0x2000, 0x583: 0x2000,",
   "\t0x595: 0x0010, 0x596: 0x0010, 0x597: 0x0010,",
   "\t0x598: 0x0010, 0x599: 0x0010, 0x59a: 0x0010, 0x59b: 0x0010, 0x59c: 0x0010, 0x59d: 0x0010,",
   "\t0x59e: 0x0010, 0x59f: 0x0010, 0x5a0: 0x0010, 0x5a1: 0x0010, 0x5a2: 0x0010, 0x5a3: 0x0010,",
   "\t0x5a4: 0x0010, 0x5a5: 0x0010, 0x5a6: 0x0010, 0x5a7: 0x0010, 0x5a8: 0x0010,",
   "\t0x5aa: 0x0010, 0x5ab: 0x0010, 0x5ac: 0x0010, 0x5ad: 0x0010, 0x5ae: 0x0010, 0x5af: 0x0010,",
   "\t0x5b0: 0x0010, 0x5b2: 0x0010,",
   "\t0x5b6: 0x0010, 0x5b7: 0x0010, 0x5b8: 0x0010, 0x5b9: 0x0010,",
   "\t0x5bc: 0x0024, 0x5be: 0x0024, 0x5bf: 0x2000,",
   "\t// Block 0x17, offset 0x5c0",
   "\t0x5c0: 0x2000, 0x5c1: 0x0024, 0x5c2: 0x0024, 0x5c3: 0x0024, 0x5c4: 0x0024,",
   "\t0x5c7: 0x2000, 0x5c8: 0x2000, 0x5cb: 0x2000,",
   "\t0x5cc: 0x2000, 0x5cd: 0x0044,",
   "\t0x5d7: 0x0024,",
   "\t0x5dc: 0x0010, 0x5dd: 0x0010,",
   "\t0x5df: 0x0010, 0x5e2: 0x0024, 0x5e3: 0x0024,",
   "\t0x5f0: 0x0010, 0x5f1: 0x0010,",
   "\t0x5fe: 0x0024,",
   "\t// Block 0x18, offset 0x600",
   "\t0x601: 0x0024, 0x602: 0x0024, 0x603: 0x2000,",
   "\t0x63c: 0x0024, 0x63e: 0x2000, 0x63f: 0x2000,",
   "\t// Block 0x19, offset 0x640",
   "\t0x640: 0x2000, 0x641: 0x0024, 0x642: 0x0024,",
   "\t0x647: 0x0024, 0x648: 0x0024, 0x64b: 0x0024,",
   "\t0x64c: 0x0024, 0x64d: 0x0024, 0x651: 0x0024,",
   "\t0x670: 0x0024, 0x671: 0x0024, 0x675: 0x0024,",
   "\t// Block 0x1a, offset 0x680",
   "\t0x681: 0x0024, 0x682: 0x0024, 0x683: 0x2000,",
   "\t0x695: 0x0010, 0x696: 0x0010, 0x697: 0x0010,",
   "\t0x698: 0x0010, 0x699: 0x0010, 0x69a: 0x0010, 0x69b: 0x0010, 0x69c: 0x0010, 0x69d: 0x0010,",
   "\t0x69e: 0x0010, 0x69f: 0x0010, 0x6a0: 0x0010, 0x6a1: 0x0010, 0x6a2: 0x0010, 0x6a3: 0x0010,",
   "\t0x6a4: 0x0010, 0x6a5: 0x0010, 0x6a6: 0x0010, 0x6a7: 0x0010, 0x6a8: 0x0010,",
   "\t0x6aa: 0x0010, 0x6ab: 0x0010, 0x6ac: 0x0010, 0x6ad: 0x0010, 0x6ae: 0x0010, 0x6af: 0x0010,",
   "\t0x6b0: 0x0010, 0x6b2: 0x0010, 0x6b3: 0x0010, 0x6b5: 0x0010,",
   "\t0x6b6: 0x0010, 0x6b7: 0x0010, 0x6b8: 0x0010, 0x6b9: 0x0010,",
   "\t0x6bc: 0x0024, 0x6be: 0x2000, 0x6bf: 0x2000,",
   "\t// Block 0x1b, offset 0x6c0",
   "\t0x6c0: 0x2000, 0x6c1: 0x0024, 0x6c2: 0x0024, 0x6c3: 0x0024, 0x6c4: 0x0024, 0x6c5: 0x0024,",
   "\t0x6c7: 0x0024, 0x6c8: 0x0024, 0x6c9: 0x2000, 0x6cb: 0x2000,",
   "\t0x6cc: 0x2000, 0x6cd: 0x0044,",
   "\t0x6e2: 0x0024, 0x6e3: 0x0024,",
   "\t0x6f9: 0x0010, 0x6fa: 0x0024, 0x6fb: 0x0024,",
   "\t0x6fc: 0x0024, 0x6fd: 0x0024, 0x6fe: 0x0024, 0x6ff: 0x0024,",
   "\t// Block 0x1c, offset 0x700",
   "\t0x701: 0x0024, 0x702: 0x2000, 0x703: 0x2000,",
   "\t0x715: 0x0010, 0x716: 0x0010, 0x717: 0x0010,",
   "\t0x718: 0x0010, 0x719: 0x0010, 0x71a: 0x0010, 0x71b: 0x0010, 0x71c: 0x0010, 0x71d: 0x0010,",
   "\t0x71e: 0x0010, 0x71f: 0x0010, 0x720: 0x0010, 0x721: 0x0010, 0x722: 0x0010, 0x723: 0x0010,",
   "\t0x724: 0x0010, 0x725: 0x0010, 0x726: 0x0010, 0x727: 0x0010, 0x728: 0x0010,",
   "\t0x72a: 0x0010, 0x72b: 0x0010, 0x72c: 0x0010, 0x72d: 0x0010, 0x72e: 0x0010, 0x72f: 0x0010,",
   "\t0x730: 0x0010, 0x732: 0x0010, 0x733: 0x0010, 0x735: 0x0010,",
   "\t0x736: 0x0010, 0x737: 0x0010, 0x738: 0x0010, 0x739: 0x0010,",
   "\t0x73c: 0x0024, 0x73e: 0x0024, 0x73f: 0x0024,",
   "\t// Block 0x1d, offset 0x740",
   "\t0x740: 0x2000, 0x741: 0x0024, 0x742: 0x0024, 0x743: 0x0024, 0x744: 0x0024,",
   "\t0x747: 0x2000, 0x748: 0x2000, 0x74b: 0x2000,",
   "\t0x74c: 0x2000, 0x74d: 0x0044,",
   "\t0x755: 0x0024, 0x756: 0x0024, 0x757: 0x0024,",
   "\t0x75c: 0x0010, 0x75d: 0x0010,",
   "\t0x75f: 0x0010, 0x762: 0x0024, 0x763: 0x0024,",
   "\t0x771: 0x0010,",
   "\t// Block 0x1e, offset 0x780",
   "\t0x782: 0x0024,",
   "\t0x7be: 0x0024, 0x7bf: 0x2000,",
   "\t// Block 0x1f, offset 0x7c0",
   "\t0x7c0: 0x0024, 0x7c1: 0x2000, 0x7c2: 0x2000,",
   "\t0x7c6: 0x2000, 0x7c7: 0x2000, 0x7c8: 0x2000, 0x7ca: 0x2000, 0x7cb: 0x2000,",
   "\t0x7cc: 0x2000, 0x7cd: 0x0024,",
   "\t0x7d7: 0x0024,"]
theorem v1_eq : v1 = (layout 6 4 16 ((Table.Values.blocks.drop 16).take 16)).map String.ofList := by
  kernel_rfl
/-- graphemes/trie.go:312-399, `graphemesValues` from block 0x20 on. -/
def v2 : List String :=
  ["\t// Block 0x20, offset 0x800",
   "\t0x800: 0x0024, 0x801: 0x2000, 0x802: 0x2000, 0x803: 0x2000, 0x804: 0x0024,",
   "\t0x815: 0x0010, 0x816: 0x0010, 0x817: 0x0010,",
   "\t0x818: 0x0010, 0x819: 0x0010, 0x81a: 0x0010, 0x81b: 0x0010, 0x81c: 0x0010, 0x81d: 0x0010,",
   "\t0x81e: 0x0010, 0x81f: 0x0010, 0x820: 0x0010, 0x821: 0x0010, 0x822: 0x0010, 0x823: 0x0010,",
   "\t0x824: 0x0010, 0x825: 0x0010, 0x826: 0x0010, 0x827: 0x0010, 0x828: 0x0010,",
   "\t0x82a: 0x0010, 0x82b: 0x0010, 0x82c: 0x0010, 0x82d: 0x0010, 0x82e: 0x0010, 0x82f: 0x0010,",
   "\t0x830: 0x0010, 0x831: 0x0010, 0x832: 0x0010, 0x833: 0x0010, 0x834: 0x0010, 0x835: 0x0010,",
   "\t0x836: 0x0010, 0x837: 0x0010, 0x838: 0x0010, 0x839: 0x0010,",
   "\t0x83c: 0x0024, 0x83e: 0x0024, 0x83f: 0x0024,",
   "\t// Block 0x21, offset 0x840",
   "\t0x840: 0x0024, 0x841: 0x2000, 0x842: 0x2000, 0x843: 0x2000, 0x844: 0x2000,",
   "\t0x846: 0x0024, 0x847: 0x0024, 0x848: 0x0024, 0x84a: 0x0024, 0x84b: 0x0024,",
   "\t0x84c: 0x0024, 0x84d: 0x0044,",
   "\t0x855: 0x0024, 0x856: 0x0024,",
   "\t0x858: 0x0010, 0x859: 0x0010, 0x85a: 0x0010,",
   "\t0x862: 0x0024, 0x863: 0x0024,",
   "\t// Block 0x22, offset 0x880",
   "\t0x881: 0x0024, 0x882: 0x2000, 0x883: 0x2000,",
   "\t0x8bc: 0x0024, 0x8be: 0x2000, 0x8bf: 0x0024,",
   "\t// Block 0x23, offset 0x8c0",
   "\t0x8c0: 0x0024, 0x8c1: 0x2000, 0x8c2: 0x0024, 0x8c3: 0x2000, 0x8c4: 0x2000,",
   "\t0x8c6: 0x0024, 0x8c7: 0x0024, 0x8c8: 0x0024, 0x8ca: 0x0024, 0x8cb: 0x0024,",
   "\t0x8cc: 0x0024, 0x8cd: 0x0024,",
   "\t0x8d5: 0x0024, 0x8d6: 0x0024,",
   "\t0x8e2: 0x0024, 0x8e3: 0x0024,",
   "\t0x8f3: 0x2000,",
   "\t// Block 0x24, offset 0x900",
   "\t0x900: 0x0024, 0x901: 0x0024, 0x902: 0x2000, 0x903: 0x2000,",
   "\t0x915: 0x0010, 0x916: 0x0010, 0x917: 0x0010,",
   "\t0x918: 0x0010, 0x919: 0x0010, 0x91a: 0x0010, 0x91b: 0x0010, 0x91c: 0x0010, 0x91d: 0x0010,",
   "\t0x91e: 0x0010, 0x91f: 0x0010, 0x920: 0x0010, 0x921: 0x0010, 0x922: 0x0010, 0x923: 0x0010,",
   "\t0x924: 0x0010, 0x925: 0x0010, 0x926: 0x0010, 0x927: 0x0010, 0x928: 0x0010, 0x929: 0x0010,",
   "\t0x92a: 0x0010, 0x92b: 0x0010, 0x92c: 0x0010, 0x92d: 0x0010, 0x92e: 0x0010, 0x92f: 0x0010,",
   "\t0x930: 0x0010, 0x931: 0x0010, 0x932: 0x0010, 0x933: 0x0010, 0x934: 0x0010, 0x935: 0x0010,",
   "\t0x936: 0x0010, 0x937: 0x0010, 0x938: 0x0010, 0x939: 0x0010, 0x93a: 0x0010, 0x93b: 0x0024,",
   "\t0x93c: 0x0024, 0x93e: 0x0024, 0x93f: 0x2000,",
   "\t// Block 0x25, offset 0x940",
   "\t0x940: 0x2000, 0x941: 0x0024, 0x942: 0x0024, 0x943: 0x0024, 0x944: 0x0024,",
   "\t0x946: 0x2000, 0x947: 0x2000, 0x948: 0x2000, 0x94a: 0x2000, 0x94b: 0x2000,",
   "\t0x94c: 0x2000, 0x94d: 0x0044, 0x94e: 0x0800,",
   "\t0x957: 0x0024,",
   "\t0x962: 0x0024, 0x963: 0x0024,",
   "\t// Block 0x26, offset 0x980",
   "\t0x981: 0x0024, 0x982: 0x2000, 0x983: 0x2000,",
   "\t// Block 0x27, offset 0x9c0",
   "\t0x9ca: 0x0024,",
   "\t0x9cf: 0x0024, 0x9d0: 0x2000, 0x9d1: 0x2000,",
   "\t0x9d2: 0x0024, 0x9d3: 0x0024, 0x9d4: 0x0024, 0x9d6: 0x0024,",
   "\t0x9d8: 0x2000, 0x9d9: 0x2000, 0x9da: 0x2000, 0x9db: 0x2000, 0x9dc: 0x2000, 0x9dd: 0x2000,",
   "\t0x9de: 0x2000, 0x9df: 0x0024,",
   "\t0x9f2: 0x2000, 0x9f3: 0x2000,",
   "\t// Block 0x28, offset 0xa00",
   "\t0xa31: 0x0024, 0xa33: 0x2000, 0xa34: 0x0024, 0xa35: 0x0024,",
   "\t0xa36: 0x0024, 0xa37: 0x0024, 0xa38: 0x0024, 0xa39: 0x0024, 0xa3a: 0x0024,",
   "\t// Block 0x29, offset 0xa40",
   "\t0xa47: 0x0024, 0xa48: 0x0024, 0xa49: 0x0024, 0xa4a: 0x0024, 0xa4b: 0x0024,",
   "\t0xa4c: 0x0024, 0xa4d: 0x0024, 0xa4e: 0x0024,",
   "\t// Block 0x2a, offset 0xa80",
   "\t0xab1: 0x0024, 0xab3: 0x2000, 0xab4: 0x0024, 0xab5: 0x0024,",
   "\t0xab6: 0x0024, 0xab7: 0x0024, 0xab8: 0x0024, 0xab9: 0x0024, 0xaba: 0x0024, 0xabb: 0x0024,",
   "\t0xabc: 0x0024,",
   "\t// Block 0x2b, offset 0xac0",
   "\t0xac8: 0x0024, 0xac9: 0x0024, 0xaca: 0x0024, 0xacb: 0x0024,",
   "\t0xacc: 0x0024, 0xacd: 0x0024, 0xace: 0x0024,",
   "\t// Block 0x2c, offset 0xb00",
   "\t0xb18: 0x0024, 0xb19: 0x0024,",
   "\t0xb35: 0x0024,",
   "\t0xb37: 0x0024, 0xb39: 0x0024,",
   "\t0xb3e: 0x2000, 0xb3f: 0x2000,",
   "\t// Block 0x2d, offset 0xb40",
   "\t0xb71: 0x0024, 0xb72: 0x0024, 0xb73: 0x0024, 0xb74: 0x0024, 0xb75: 0x0024,",
   "\t0xb76: 0x0024, 0xb77: 0x0024, 0xb78: 0x0024, 0xb79: 0x0024, 0xb7a: 0x0024, 0xb7b: 0x0024,",
   "\t0xb7c: 0x0024, 0xb7d: 0x0024, 0xb7e: 0x0024, 0xb7f: 0x2000,",
   "\t// Block 0x2e, offset 0xb80",
   "\t0xb80: 0x0024, 0xb81: 0x0024, 0xb82: 0x0024, 0xb83: 0x0024, 0xb84: 0x0024,",
   "\t0xb86: 0x0024, 0xb87: 0x0024,",
   "\t0xb8d: 0x0024, 0xb8e: 0x0024, 0xb8f: 0x0024, 0xb90: 0x0024, 0xb91: 0x0024,",
   "\t0xb92: 0x0024, 0xb93: 0x0024, 0xb94: 0x0024, 0xb95: 0x0024, 0xb96: 0x0024, 0xb97: 0x0024,",
   "\t0xb99: 0x0024, 0xb9a: 0x0024, 0xb9b: 0x0024, 0xb9c: 0x0024, 0xb9d: 0x0024,",
   "\t0xb9e: 0x0024, 0xb9f: 0x0024, 0xba0: 0x0024, 0xba1: 0x0024, 0xba2: 0x0024, 0xba3: 0x0024,",
   "\t0xba4: 0x0024, 0xba5: 0x0024, 0xba6: 0x0024, 0xba7: 0x0024, 0xba8: 0x0024, 0xba9: 0x0024,",
   "\t0xbaa: 0x0024, 0xbab: 0x0024, 0xbac: 0x0024, 0xbad: 0x0024, 0xbae: 0x0024, 0xbaf: 0x0024,",
   "\t0xbb0: 0x0024, 0xbb1: 0x0024, 0xbb2: 0x0024, 0xbb3: 0x0024, 0xbb4: 0x0024, 0xbb5: 0x0024,",
   "\t0xbb6: 0x0024, 0xbb7: 0x0024, 0xbb8: 0x0024, 0xbb9: 0x0024, 0xbba: 0x0024, 0xbbb: 0x0024,",
   "\t0xbbc: 0x0024,",
   "\t// Block 0x2f, offset 0xbc0",
   "\t0xbc6: 0x0024,"]
theorem v2_eq : v2 = (layout 6 4 32 ((Table.Values.blocks.drop 32).take 16)).map String.ofList := by
  kernel_rfl
/-- graphemes/trie.go:400-523, `graphemesValues` from block 0x30 on. -/
def v3 : List String :=
  ["\t// Block 0x30, offset 0xc00",
   "\t0xc00: 0x0010, 0xc01: 0x0010, 0xc02: 0x0010, 0xc03: 0x0010, 0xc04: 0x0010, 0xc05: 0x0010,",
   "\t0xc06: 0x0010, 0xc07: 0x0010, 0xc08: 0x0010, 0xc09: 0x0010, 0xc0a: 0x0010, 0xc0b: 0x0010,",
   "\t0xc0c: 0x0010, 0xc0d: 0x0010, 0xc0e: 0x0010, 0xc0f: 0x0010, 0xc10: 0x0010, 0xc11: 0x0010,",
   "\t0xc12: 0x0010, 0xc13: 0x0010, 0xc14: 0x0010, 0xc15: 0x0010, 0xc16: 0x0010, 0xc17: 0x0010,",
   "\t0xc18: 0x0010, 0xc19: 0x0010, 0xc1a: 0x0010, 0xc1b: 0x0010, 0xc1c: 0x0010, 0xc1d: 0x0010,",
   "\t0xc1e: 0x0010, 0xc1f: 0x0010, 0xc20: 0x0010, 0xc21: 0x0010, 0xc22: 0x0010, 0xc23: 0x0010,",
   "\t0xc24: 0x0010, 0xc25: 0x0010, 0xc26: 0x0010, 0xc27: 0x0010, 0xc28: 0x0010, 0xc29: 0x0010,",
   "\t0xc2a: 0x0010, 0xc2d: 0x0024, 0xc2e: 0x0024, 0xc2f: 0x0024,",
   "\t0xc30: 0x0024, 0xc31: 0x2000, 0xc32: 0x0024, 0xc33: 0x0024, 0xc34: 0x0024, 0xc35: 0x0024,",
   "\t0xc36: 0x0024, 0xc37: 0x0024, 0xc39: 0x0044, 0xc3a: 0x0024, 0xc3b: 0x2000,",
   "\t0xc3c: 0x2000, 0xc3d: 0x0024, 0xc3e: 0x0024, 0xc3f: 0x0010,",
   "\t// Block 0x31, offset 0xc40",
   "\t0xc50: 0x0010, 0xc51: 0x0010,",
   "\t0xc52: 0x0010, 0xc53: 0x0010, 0xc54: 0x0010, 0xc55: 0x0010, 0xc56: 0x2000, 0xc57: 0x2000,",
   "\t0xc58: 0x0024, 0xc59: 0x0024, 0xc5a: 0x0010, 0xc5b: 0x0010, 0xc5c: 0x0010, 0xc5d: 0x0010,",
   "\t0xc5e: 0x0024, 0xc5f: 0x0024, 0xc60: 0x0024, 0xc61: 0x0010,",
   "\t0xc65: 0x0010, 0xc66: 0x0010,",
   "\t0xc6e: 0x0010, 0xc6f: 0x0010,",
   "\t0xc70: 0x0010, 0xc71: 0x0024, 0xc72: 0x0024, 0xc73: 0x0024, 0xc74: 0x0024, 0xc75: 0x0010,",
   "\t0xc76: 0x0010, 0xc77: 0x0010, 0xc78: 0x0010, 0xc79: 0x0010, 0xc7a: 0x0010, 0xc7b: 0x0010,",
   "\t0xc7c: 0x0010, 0xc7d: 0x0010, 0xc7e: 0x0010, 0xc7f: 0x0010,",
   "\t// Block 0x32, offset 0xc80",
   "\t0xc80: 0x0010, 0xc81: 0x0010, 0xc82: 0x0024, 0xc84: 0x2000, 0xc85: 0x0024,",
   "\t0xc86: 0x0024,",
   "\t0xc8d: 0x0024, 0xc8e: 0x0010,",
   "\t0xc9d: 0x0024,",
   "\t// Block 0x33, offset 0xcc0",
   "\t0xcc0: 0x0080, 0xcc1: 0x0080, 0xcc2: 0x0080, 0xcc3: 0x0080, 0xcc4: 0x0080, 0xcc5: 0x0080,",
   "\t0xcc6: 0x0080, 0xcc7: 0x0080, 0xcc8: 0x0080, 0xcc9: 0x0080, 0xcca: 0x0080, 0xccb: 0x0080,",
   "\t0xccc: 0x0080, 0xccd: 0x0080, 0xcce: 0x0080, 0xccf: 0x0080, 0xcd0: 0x0080, 0xcd1: 0x0080,",
   "\t0xcd2: 0x0080, 0xcd3: 0x0080, 0xcd4: 0x0080, 0xcd5: 0x0080, 0xcd6: 0x0080, 0xcd7: 0x0080,",
   "\t0xcd8: 0x0080, 0xcd9: 0x0080, 0xcda: 0x0080, 0xcdb: 0x0080, 0xcdc: 0x0080, 0xcdd: 0x0080,",
   "\t0xcde: 0x0080, 0xcdf: 0x0080, 0xce0: 0x0080, 0xce1: 0x0080, 0xce2: 0x0080, 0xce3: 0x0080,",
   "\t0xce4: 0x0080, 0xce5: 0x0080, 0xce6: 0x0080, 0xce7: 0x0080, 0xce8: 0x0080, 0xce9: 0x0080,",
   "\t0xcea: 0x0080, 0xceb: 0x0080, 0xcec: 0x0080, 0xced: 0x0080, 0xcee: 0x0080, 0xcef: 0x0080,",
   "\t0xcf0: 0x0080, 0xcf1: 0x0080, 0xcf2: 0x0080, 0xcf3: 0x0080, 0xcf4: 0x0080, 0xcf5: 0x0080,",
   "\t0xcf6: 0x0080, 0xcf7: 0x0080, 0xcf8: 0x0080, 0xcf9: 0x0080, 0xcfa: 0x0080, 0xcfb: 0x0080,",
   "\t0xcfc: 0x0080, 0xcfd: 0x0080, 0xcfe: 0x0080, 0xcff: 0x0080,",
   "\t// Block 0x34, offset 0xd00",
   "\t0xd00: 0x0080, 0xd01: 0x0080, 0xd02: 0x0080, 0xd03: 0x0080, 0xd04: 0x0080, 0xd05: 0x0080,",
   "\t0xd06: 0x0080, 0xd07: 0x0080, 0xd08: 0x0080, 0xd09: 0x0080, 0xd0a: 0x0080, 0xd0b: 0x0080,",
   "\t0xd0c: 0x0080, 0xd0d: 0x0080, 0xd0e: 0x0080, 0xd0f: 0x0080, 0xd10: 0x0080, 0xd11: 0x0080,",
   "\t0xd12: 0x0080, 0xd13: 0x0080, 0xd14: 0x0080, 0xd15: 0x0080, 0xd16: 0x0080, 0xd17: 0x0080,",
   "\t0xd18: 0x0080, 0xd19: 0x0080, 0xd1a: 0x0080, 0xd1b: 0x0080, 0xd1c: 0x0080, 0xd1d: 0x0080,",
   "\t0xd1e: 0x0080, 0xd1f: 0x0080, 0xd20: 0x8000, 0xd21: 0x8000, 0xd22: 0x8000, 0xd23: 0x8000,",
   "\t0xd24: 0x8000, 0xd25: 0x8000, 0xd26: 0x8000, 0xd27: 0x8000, 0xd28: 0x8000, 0xd29: 0x8000,",
   "\t0xd2a: 0x8000, 0xd2b: 0x8000, 0xd2c: 0x8000, 0xd2d: 0x8000, 0xd2e: 0x8000, 0xd2f: 0x8000,",
   "\t0xd30: 0x8000, 0xd31: 0x8000, 0xd32: 0x8000, 0xd33: 0x8000, 0xd34: 0x8000, 0xd35: 0x8000,",
   "\t0xd36: 0x8000, 0xd37: 0x8000, 0xd38: 0x8000, 0xd39: 0x8000, 0xd3a: 0x8000, 0xd3b: 0x8000,",
   "\t0xd3c: 0x8000, 0xd3d: 0x8000, 0xd3e: 0x8000, 0xd3f: 0x8000,",
   "\t// Block 0x35, offset 0xd40",
   "\t0xd40: 0x8000, 0xd41: 0x8000, 0xd42: 0x8000, 0xd43: 0x8000, 0xd44: 0x8000, 0xd45: 0x8000,",
   "\t0xd46: 0x8000, 0xd47: 0x8000, 0xd48: 0x8000, 0xd49: 0x8000, 0xd4a: 0x8000, 0xd4b: 0x8000,",
   "\t0xd4c: 0x8000, 0xd4d: 0x8000, 0xd4e: 0x8000, 0xd4f: 0x8000, 0xd50: 0x8000, 0xd51: 0x8000,",
   "\t0xd52: 0x8000, 0xd53: 0x8000, 0xd54: 0x8000, 0xd55: 0x8000, 0xd56: 0x8000, 0xd57: 0x8000,",
   "\t0xd58: 0x8000, 0xd59: 0x8000, 0xd5a: 0x8000, 0xd5b: 0x8000, 0xd5c: 0x8000, 0xd5d: 0x8000,",
   "\t0xd5e: 0x8000, 0xd5f: 0x8000, 0xd60: 0x8000, 0xd61: 0x8000, 0xd62: 0x8000, 0xd63: 0x8000,",
   "\t0xd64: 0x8000, 0xd65: 0x8000, 0xd66: 0x8000, 0xd67: 0x8000, 0xd68: 0x4000, 0xd69: 0x4000,",
   "\t0xd6a: 0x4000, 0xd6b: 0x4000, 0xd6c: 0x4000, 0xd6d: 0x4000, 0xd6e: 0x4000, 0xd6f: 0x4000,",
   "\t0xd70: 0x4000, 0xd71: 0x4000, 0xd72: 0x4000, 0xd73: 0x4000, 0xd74: 0x4000, 0xd75: 0x4000,",
   "\t0xd76: 0x4000, 0xd77: 0x4000, 0xd78: 0x4000, 0xd79: 0x4000, 0xd7a: 0x4000, 0xd7b: 0x4000,",
   "\t0xd7c: 0x4000, 0xd7d: 0x4000, 0xd7e: 0x4000, 0xd7f: 0x4000,",
   "\t// Block 0x36, offset 0xd80",
   "\t0xd80: 0x4000, 0xd81: 0x4000, 0xd82: 0x4000, 0xd83: 0x4000, 0xd84: 0x4000, 0xd85: 0x4000,",
   "\t0xd86: 0x4000, 0xd87: 0x4000, 0xd88: 0x4000, 0xd89: 0x4000, 0xd8a: 0x4000, 0xd8b: 0x4000,",
   "\t0xd8c: 0x4000, 0xd8d: 0x4000, 0xd8e: 0x4000, 0xd8f: 0x4000, 0xd90: 0x4000, 0xd91: 0x4000,",
   "\t0xd92: 0x4000, 0xd93: 0x4000, 0xd94: 0x4000, 0xd95: 0x4000, 0xd96: 0x4000, 0xd97: 0x4000,",
   "\t0xd98: 0x4000, 0xd99: 0x4000, 0xd9a: 0x4000, 0xd9b: 0x4000, 0xd9c: 0x4000, 0xd9d: 0x4000,",
   "\t0xd9e: 0x4000, 0xd9f: 0x4000, 0xda0: 0x4000, 0xda1: 0x4000, 0xda2: 0x4000, 0xda3: 0x4000,",
   "\t0xda4: 0x4000, 0xda5: 0x4000, 0xda6: 0x4000, 0xda7: 0x4000, 0xda8: 0x4000, 0xda9: 0x4000,",
   "\t0xdaa: 0x4000, 0xdab: 0x4000, 0xdac: 0x4000, 0xdad: 0x4000, 0xdae: 0x4000, 0xdaf: 0x4000,",
   "\t0xdb0: 0x4000, 0xdb1: 0x4000, 0xdb2: 0x4000, 0xdb3: 0x4000, 0xdb4: 0x4000, 0xdb5: 0x4000,",
   "\t0xdb6: 0x4000, 0xdb7: 0x4000, 0xdb8: 0x4000, 0xdb9: 0x4000, 0xdba: 0x4000, 0xdbb: 0x4000,",
   "\t0xdbc: 0x4000, 0xdbd: 0x4000, 0xdbe: 0x4000, 0xdbf: 0x4000,",
   "\t// Block 0x37, offset 0xdc0",
   "\t0xddd: 0x0024,",
   "\t0xdde: 0x0024, 0xddf: 0x0024,",
   "\t// Block 0x38, offset 0xe00",
   "\t0xe12: 0x0024, 0xe13: 0x0024, 0xe14: 0x0024, 0xe15: 0x0024,",
   "\t0xe32: 0x0024, 0xe33: 0x0024, 0xe34: 0x0024,",
   "\t// Block 0x39, offset 0xe40",
   "\t0xe52: 0x0024, 0xe53: 0x0024,",
   "\t0xe72: 0x0024, 0xe73: 0x0024,",
   "\t// Block 0x3a, offset 0xe80",
   "\t0xe80: 0x0010, 0xe81: 0x0010, 0xe82: 0x0010, 0xe83: 0x0010, 0xe84: 0x0010, 0xe85: 0x0010,",
   "\t0xe86: 0x0010, 0xe87: 0x0010, 0xe88: 0x0010, 0xe89: 0x0010, 0xe8a: 0x0010, 0xe8b: 0x0010,",
   "\t0xe8c: 0x0010, 0xe8d: 0x0010, 0xe8e: 0x0010, 0xe8f: 0x0010, 0xe90: 0x0010, 0xe91: 0x0010,",
   "\t0xe92: 0x0010, 0xe93: 0x0010, 0xe94: 0x0010, 0xe95: 0x0010, 0xe96: 0x0010, 0xe97: 0x0010,",
   "\t0xe98: 0x0010, 0xe99: 0x0010, 0xe9a: 0x0010, 0xe9b: 0x0010, 0xe9c: 0x0010, 0xe9d: 0x0010,",
   "\t0xe9e: 0x0010, 0xe9f: 0x0010, 0xea0: 0x0010, 0xea1: 0x0010, 0xea2: 0x0010, 0xea3: 0x0010,",
   "\t0xea4: 0x0010, 0xea5: 0x0010, 0xea6: 0x0010, 0xea7: 0x0010, 0xea8: 0x0010, 0xea9: 0x0010,",
   "\t0xeaa: 0x0010, 0xeab: 0x0010, 0xeac: 0x0010, 0xead: 0x0010, 0xeae: 0x0010, 0xeaf: 0x0010,",
   "\t0xeb0: 0x0010, 0xeb1: 0x0010, 0xeb2: 0x0010, 0xeb3: 0x0010, 0xeb4: 0x0024, 0xeb5: 0x0024,",
   "\t0xeb6: 0x2000, 0xeb7: 0x0024, 0xeb8: 0x0024, 0xeb9: 0x0024, 0xeba: 0x0024, 0xebb: 0x0024,",
   "\t0xebc: 0x0024, 0xebd: 0x0024, 0xebe: 0x2000, 0xebf: 0x2000,",
   "\t// Block 0x3b, offset 0xec0",
   "\t0xec0: 0x2000, 0xec1: 0x2000, 0xec2: 0x2000, 0xec3: 0x2000, 0xec4: 0x2000, 0xec5: 0x2000,",
   "\t0xec6: 0x0024, 0xec7: 0x2000, 0xec8: 0x2000, 0xec9: 0x0024, 0xeca: 0x0024, 0xecb: 0x0024,",
   "\t0xecc: 0x0024, 0xecd: 0x0024, 0xece: 0x0024, 0xecf: 0x0024, 0xed0: 0x0024, 0xed1: 0x0024,",
   "\t0xed2: 0x0044, 0xed3: 0x0024,",
   "\t0xedd: 0x0024,",
   "\t// Block 0x3c, offset 0xf00",
   "\t0xf0b: 0x0024,",
   "\t0xf0c: 0x0024, 0xf0d: 0x0024, 0xf0e: 0x0002, 0xf0f: 0x0024,",
   "\t// Block 0x3d, offset 0xf40",
   "\t0xf45: 0x0024,",
   "\t0xf46: 0x0024,",
   "\t0xf69: 0x0024,",
   "\t// Block 0x3e, offset 0xf80",
   "\t0xfa0: 0x0024, 0xfa1: 0x0024, 0xfa2: 0x0024, 0xfa3: 0x2000,",
   "\t0xfa4: 0x2000, 0xfa5: 0x2000, 0xfa6: 0x2000, 0xfa7: 0x0024, 0xfa8: 0x0024, 0xfa9: 0x2000,",
   "\t0xfaa: 0x2000, 0xfab: 0x2000,",
   "\t0xfb0: 0x2000, 0xfb1: 0x2000, 0xfb2: 0x0024, 0xfb3: 0x2000, 0xfb4: 0x2000, 0xfb5: 0x2000,",
   "\t0xfb6: 0x2000, 0xfb7: 0x2000, 0xfb8: 0x2000, 0xfb9: 0x0024, 0xfba: 0x0024, 0xfbb: 0x0024,",
   "\t// Block 0x3f, offset 0xfc0",
   "\t0xfd7: 0x0024,",
   "\t0xfd8: 0x0024, 0xfd9: 0x2000, 0xfda: 0x2000, 0xfdb: 0x0024,",
   "\t0xfe0: 0x0010, 0xfe1: 0x0010, 0xfe2: 0x0010, 0xfe3: 0x0010,",
   "\t0xfe4: 0x0010, 0xfe5: 0x0010, 0xfe6: 0x0010, 0xfe7: 0x0010, 0xfe8: 0x0010, 0xfe9: 0x0010,",
   "\t0xfea: 0x0010, 0xfeb: 0x0010, 0xfec: 0x0010, 0xfed: 0x0010, 0xfee: 0x0010, 0xfef: 0x0010,",
   "\t0xff0: 0x0010, 0xff1: 0x0010, 0xff2: 0x0010, 0xff3: 0x0010, 0xff4: 0x0010, 0xff5: 0x0010,",
   "\t0xff6: 0x0010, 0xff7: 0x0010, 0xff8: 0x0010, 0xff9: 0x0010, 0xffa: 0x0010, 0xffb: 0x0010,",
   "\t0xffc: 0x0010, 0xffd: 0x0010, 0xffe: 0x0010, 0xfff: 0x0010,"]
theorem v3_eq : v3 = (layout 6 4 48 ((Table.Values.blocks.drop 48).take 16)).map String.ofList := by
  kernel_rfl
/-- graphemes/trie.go:524-631, `graphemesValues` from block 0x40 on. -/
def v4 : List String :=
  ["\t// Block 0x40, offset 0x1000",
   "\t0x1000: 0x0010, 0x1001: 0x0010, 0x1002: 0x0010, 0x1003: 0x0010, 0x1004: 0x0010, 0x1005: 0x0010,",
   "\t0x1006: 0x0010, 0x1007: 0x0010, 0x1008: 0x0010, 0x1009: 0x0010, 0x100a: 0x0010, 0x100b: 0x0010,",
   "\t0x100c: 0x0010, 0x100d: 0x0010, 0x100e: 0x0010, 0x100f: 0x0010, 0x1010: 0x0010, 0x1011: 0x0010,",
   "\t0x1012: 0x0010, 0x1013: 0x0010, 0x1014: 0x0010, 0x1015: 0x2000, 0x1016: 0x0024, 0x1017: 0x2000,",
   "\t0x1018: 0x0024, 0x1019: 0x0024, 0x101a: 0x0024, 0x101b: 0x0024, 0x101c: 0x0024, 0x101d: 0x0024,",
   "\t0x101e: 0x0024, 0x1020: 0x0044, 0x1022: 0x0024,",
   "\t0x1025: 0x0024, 0x1026: 0x0024, 0x1027: 0x0024, 0x1028: 0x0024, 0x1029: 0x0024,",
   "\t0x102a: 0x0024, 0x102b: 0x0024, 0x102c: 0x0024, 0x102d: 0x2000, 0x102e: 0x2000, 0x102f: 0x2000,",
   "\t0x1030: 0x2000, 0x1031: 0x2000, 0x1032: 0x2000, 0x1033: 0x0024, 0x1034: 0x0024, 0x1035: 0x0024,",
   "\t0x1036: 0x0024, 0x1037: 0x0024, 0x1038: 0x0024, 0x1039: 0x0024, 0x103a: 0x0024, 0x103b: 0x0024,",
   "\t0x103c: 0x0024, 0x103f: 0x0024,",
   "\t// Block 0x41, offset 0x1040",
   "\t0x1070: 0x0024, 0x1071: 0x0024, 0x1072: 0x0024, 0x1073: 0x0024, 0x1074: 0x0024, 0x1075: 0x0024,",
   "\t0x1076: 0x0024, 0x1077: 0x0024, 0x1078: 0x0024, 0x1079: 0x0024, 0x107a: 0x0024, 0x107b: 0x0024,",
   "\t0x107c: 0x0024, 0x107d: 0x0024, 0x107e: 0x0024, 0x107f: 0x0024,",
   "\t// Block 0x42, offset 0x1080",
   "\t0x1080: 0x0024, 0x1081: 0x0024, 0x1082: 0x0024, 0x1083: 0x0024, 0x1084: 0x0024, 0x1085: 0x0024,",
   "\t0x1086: 0x0024, 0x1087: 0x0024, 0x1088: 0x0024, 0x1089: 0x0024, 0x108a: 0x0024, 0x108b: 0x0024,",
   "\t0x108c: 0x0024, 0x108d: 0x0024, 0x108e: 0x0024, 0x108f: 0x0024, 0x1090: 0x0024, 0x1091: 0x0024,",
   "\t0x1092: 0x0024, 0x1093: 0x0024, 0x1094: 0x0024, 0x1095: 0x0024, 0x1096: 0x0024, 0x1097: 0x0024,",
   "\t0x1098: 0x0024, 0x1099: 0x0024, 0x109a: 0x0024, 0x109b: 0x0024, 0x109c: 0x0024, 0x109d: 0x0024,",
   "\t0x10a0: 0x0024, 0x10a1: 0x0024, 0x10a2: 0x0024, 0x10a3: 0x0024,",
   "\t0x10a4: 0x0024, 0x10a5: 0x0024, 0x10a6: 0x0024, 0x10a7: 0x0024, 0x10a8: 0x0024, 0x10a9: 0x0024,",
   "\t0x10aa: 0x0024, 0x10ab: 0x0024,",
   "\t// Block 0x43, offset 0x10c0",
   "\t0x10c0: 0x0024, 0x10c1: 0x0024, 0x10c2: 0x0024, 0x10c3: 0x0024, 0x10c4: 0x2000,",
   "\t0x10cb: 0x0010,",
   "\t0x10cc: 0x0010,",
   "\t0x10d3: 0x0010, 0x10d4: 0x0010, 0x10d5: 0x0010, 0x10d6: 0x0010, 0x10d7: 0x0010,",
   "\t0x10d8: 0x0010, 0x10d9: 0x0010, 0x10da: 0x0010, 0x10db: 0x0010, 0x10dc: 0x0010, 0x10dd: 0x0010,",
   "\t0x10de: 0x0010, 0x10df: 0x0010, 0x10e0: 0x0010, 0x10e1: 0x0010, 0x10e2: 0x0010, 0x10e3: 0x0010,",
   "\t0x10e4: 0x0010, 0x10e5: 0x0010, 0x10e6: 0x0010, 0x10e7: 0x0010, 0x10e8: 0x0010, 0x10e9: 0x0010,",
   "\t0x10ea: 0x0010, 0x10eb: 0x0010, 0x10ec: 0x0010, 0x10ed: 0x0010, 0x10ee: 0x0010, 0x10ef: 0x0010,",
   "\t0x10f0: 0x0010, 0x10f1: 0x0010, 0x10f2: 0x0010, 0x10f3: 0x0010, 0x10f4: 0x0024, 0x10f5: 0x0024,",
   "\t0x10f6: 0x0024, 0x10f7: 0x0024, 0x10f8: 0x0024, 0x10f9: 0x0024, 0x10fa: 0x0024, 0x10fb: 0x0024,",
   "\t0x10fc: 0x0024, 0x10fd: 0x0024, 0x10fe: 0x2000, 0x10ff: 0x2000,",
   "\t// Block 0x44, offset 0x1100",
   "\t0x1100: 0x2000, 0x1101: 0x2000, 0x1102: 0x0024, 0x1103: 0x0024, 0x1104: 0x0044, 0x1105: 0x0010,",
   "\t0x1106: 0x0010, 0x1107: 0x0010, 0x1108: 0x0010, 0x1109: 0x0010, 0x110a: 0x0010, 0x110b: 0x0010,",
   "\t0x110c: 0x0010,",
   "\t0x112b: 0x0024, 0x112c: 0x0024, 0x112d: 0x0024, 0x112e: 0x0024, 0x112f: 0x0024,",
   "\t0x1130: 0x0024, 0x1131: 0x0024, 0x1132: 0x0024, 0x1133: 0x0024,",
   "\t// Block 0x45, offset 0x1140",
   "\t0x1140: 0x0024, 0x1141: 0x0024, 0x1142: 0x2000, 0x1143: 0x0010, 0x1144: 0x0010, 0x1145: 0x0010,",
   "\t0x1146: 0x0010, 0x1147: 0x0010, 0x1148: 0x0010, 0x1149: 0x0010, 0x114a: 0x0010, 0x114b: 0x0010,",
   "\t0x114c: 0x0010, 0x114d: 0x0010, 0x114e: 0x0010, 0x114f: 0x0010, 0x1150: 0x0010, 0x1151: 0x0010,",
   "\t0x1152: 0x0010, 0x1153: 0x0010, 0x1154: 0x0010, 0x1155: 0x0010, 0x1156: 0x0010, 0x1157: 0x0010,",
   "\t0x1158: 0x0010, 0x1159: 0x0010, 0x115a: 0x0010, 0x115b: 0x0010, 0x115c: 0x0010, 0x115d: 0x0010,",
   "\t0x115e: 0x0010, 0x115f: 0x0010, 0x1160: 0x0010, 0x1161: 0x2000, 0x1162: 0x0024, 0x1163: 0x0024,",
   "\t0x1164: 0x0024, 0x1165: 0x0024, 0x1166: 0x2000, 0x1167: 0x2000, 0x1168: 0x0024, 0x1169: 0x0024,",
   "\t0x116a: 0x0024, 0x116b: 0x0044, 0x116c: 0x0024, 0x116d: 0x0024, 0x116e: 0x0010, 0x116f: 0x0010,",
   "\t0x117b: 0x0010,",
   "\t0x117c: 0x0010, 0x117d: 0x0010,",
   "\t// Block 0x46, offset 0x1180",
   "\t0x11a6: 0x0024, 0x11a7: 0x2000, 0x11a8: 0x0024, 0x11a9: 0x0024,",
   "\t0x11aa: 0x2000, 0x11ab: 0x2000, 0x11ac: 0x2000, 0x11ad: 0x0024, 0x11ae: 0x2000, 0x11af: 0x0024,",
   "\t0x11b0: 0x0024, 0x11b1: 0x0024, 0x11b2: 0x0024, 0x11b3: 0x0024,",
   "\t// Block 0x47, offset 0x11c0",
   "\t0x11e4: 0x2000, 0x11e5: 0x2000, 0x11e6: 0x2000, 0x11e7: 0x2000, 0x11e8: 0x2000, 0x11e9: 0x2000,",
   "\t0x11ea: 0x2000, 0x11eb: 0x2000, 0x11ec: 0x0024, 0x11ed: 0x0024, 0x11ee: 0x0024, 0x11ef: 0x0024,",
   "\t0x11f0: 0x0024, 0x11f1: 0x0024, 0x11f2: 0x0024, 0x11f3: 0x0024, 0x11f4: 0x2000, 0x11f5: 0x2000,",
   "\t0x11f6: 0x0024, 0x11f7: 0x0024,",
   "\t// Block 0x48, offset 0x1200",
   "\t0x1210: 0x0024, 0x1211: 0x0024,",
   "\t0x1212: 0x0024, 0x1214: 0x0024, 0x1215: 0x0024, 0x1216: 0x0024, 0x1217: 0x0024,",
   "\t0x1218: 0x0024, 0x1219: 0x0024, 0x121a: 0x0024, 0x121b: 0x0024, 0x121c: 0x0024, 0x121d: 0x0024,",
   "\t0x121e: 0x0024, 0x121f: 0x0024, 0x1220: 0x0024, 0x1221: 0x2000, 0x1222: 0x0024, 0x1223: 0x0024,",
   "\t0x1224: 0x0024, 0x1225: 0x0024, 0x1226: 0x0024, 0x1227: 0x0024, 0x1228: 0x0024,",
   "\t0x122d: 0x0024,",
   "\t0x1234: 0x0024,",
   "\t0x1237: 0x2000, 0x1238: 0x0024, 0x1239: 0x0024,",
   "\t// Block 0x49, offset 0x1240",
   "\t0x124b: 0x0002,",
   "\t0x124c: 0x0004, 0x124d: 0x10020, 0x124e: 0x0002, 0x124f: 0x0002,",
   "\t0x1268: 0x0002, 0x1269: 0x0002,",
   "\t0x126a: 0x0002, 0x126b: 0x0002, 0x126c: 0x0002, 0x126d: 0x0002, 0x126e: 0x0002,",
   "\t0x127c: 0x0008,",
   "\t// Block 0x4a, offset 0x1280",
   "\t0x1289: 0x0008,",
   "\t0x12a0: 0x0002, 0x12a1: 0x0002, 0x12a2: 0x0002, 0x12a3: 0x0002,",
   "\t0x12a4: 0x0002, 0x12a5: 0x0002, 0x12a6: 0x0002, 0x12a7: 0x0002, 0x12a8: 0x0002, 0x12a9: 0x0002,",
   "\t0x12aa: 0x0002, 0x12ab: 0x0002, 0x12ac: 0x0002, 0x12ad: 0x0002, 0x12ae: 0x0002, 0x12af: 0x0002,",
   "\t// Block 0x4b, offset 0x12c0",
   "\t0x12d0: 0x0024, 0x12d1: 0x0024,",
   "\t0x12d2: 0x0024, 0x12d3: 0x0024, 0x12d4: 0x0024, 0x12d5: 0x0024, 0x12d6: 0x0024, 0x12d7: 0x0024,",
   "\t0x12d8: 0x0024, 0x12d9: 0x0024, 0x12da: 0x0024, 0x12db: 0x0024, 0x12dc: 0x0024, 0x12dd: 0x0024,",
   "\t0x12de: 0x0024, 0x12df: 0x0024, 0x12e0: 0x0024, 0x12e1: 0x0024, 0x12e2: 0x0024, 0x12e3: 0x0024,",
   "\t0x12e4: 0x0024, 0x12e5: 0x0024, 0x12e6: 0x0024, 0x12e7: 0x0024, 0x12e8: 0x0024, 0x12e9: 0x0024,",
   "\t0x12ea: 0x0024, 0x12eb: 0x0024, 0x12ec: 0x0024, 0x12ed: 0x0024, 0x12ee: 0x0024, 0x12ef: 0x0024,",
   "\t0x12f0: 0x0024,",
   "\t// Block 0x4c, offset 0x1300",
   "\t0x1322: 0x0008,",
   "\t0x1339: 0x0008,",
   "\t// Block 0x4d, offset 0x1340",
   "\t0x1354: 0x0008, 0x1355: 0x0008, 0x1356: 0x0008, 0x1357: 0x0008,",
   "\t0x1358: 0x0008, 0x1359: 0x0008,",
   "\t0x1369: 0x0008,",
   "\t0x136a: 0x0008,",
   "\t// Block 0x4e, offset 0x1380",
   "\t0x139a: 0x0008, 0x139b: 0x0008,",
   "\t0x13a8: 0x0008,",
   "\t// Block 0x4f, offset 0x13c0",
   "\t0x13cf: 0x0008,",
   "\t0x13e9: 0x0008,",
   "\t0x13ea: 0x0008, 0x13eb: 0x0008, 0x13ec: 0x0008, 0x13ed: 0x0008, 0x13ee: 0x0008, 0x13ef: 0x0008,",
   "\t0x13f0: 0x0008, 0x13f1: 0x0008, 0x13f2: 0x0008, 0x13f3: 0x0008,",
   "\t0x13f8: 0x0008, 0x13f9: 0x0008, 0x13fa: 0x0008,"]
theorem v4_eq : v4 = (layout 6 4 64 ((Table.Values.blocks.drop 64).take 16)).map String.ofList := by
  kernel_rfl
/-- graphemes/trie.go:632-718, `graphemesValues` from block 0x50 on. -/
def v5 : List String :=
  ["\t// Block 0x50, offset 0x1400",
   "\t0x1402: 0x0008,",
   "\t// Block 0x51, offset 0x1440",
   "\t0x146a: 0x0008, 0x146b: 0x0008,",
   "\t0x1476: 0x0008,",
   "\t// Block 0x52, offset 0x1480",
   "\t0x1480: 0x0008,",
   "\t0x14bb: 0x0008,",
   "\t0x14bc: 0x0008, 0x14bd: 0x0008, 0x14be: 0x0008,",
   "\t// Block 0x53, offset 0x14c0",
   "\t0x14c0: 0x0008, 0x14c1: 0x0008, 0x14c2: 0x0008, 0x14c3: 0x0008, 0x14c4: 0x0008,",
   "\t0x14ce: 0x0008, 0x14d1: 0x0008,",
   "\t0x14d4: 0x0008, 0x14d5: 0x0008,",
   "\t0x14d8: 0x0008, 0x14dd: 0x0008,",
   "\t0x14e0: 0x0008, 0x14e2: 0x0008, 0x14e3: 0x0008,",
   "\t0x14e6: 0x0008,",
   "\t0x14ea: 0x0008, 0x14ee: 0x0008, 0x14ef: 0x0008,",
   "\t0x14f8: 0x0008, 0x14f9: 0x0008, 0x14fa: 0x0008,",
   "\t// Block 0x54, offset 0x1500",
   "\t0x1500: 0x0008, 0x1502: 0x0008,",
   "\t0x1508: 0x0008, 0x1509: 0x0008, 0x150a: 0x0008, 0x150b: 0x0008,",
   "\t0x150c: 0x0008, 0x150d: 0x0008, 0x150e: 0x0008, 0x150f: 0x0008, 0x1510: 0x0008, 0x1511: 0x0008,",
   "\t0x1512: 0x0008, 0x1513: 0x0008,",
   "\t0x151f: 0x0008, 0x1520: 0x0008, 0x1523: 0x0008,",
   "\t0x1525: 0x0008, 0x1526: 0x0008, 0x1528: 0x0008,",
   "\t0x153b: 0x0008,",
   "\t0x153e: 0x0008, 0x153f: 0x0008,",
   "\t// Block 0x55, offset 0x1540",
   "\t0x1552: 0x0008, 0x1553: 0x0008, 0x1554: 0x0008, 0x1555: 0x0008, 0x1556: 0x0008, 0x1557: 0x0008,",
   "\t0x1559: 0x0008, 0x155b: 0x0008, 0x155c: 0x0008,",
   "\t0x1560: 0x0008, 0x1561: 0x0008,",
   "\t0x1567: 0x0008,",
   "\t0x156a: 0x0008, 0x156b: 0x0008,",
   "\t0x1570: 0x0008, 0x1571: 0x0008,",
   "\t0x157d: 0x0008, 0x157e: 0x0008,",
   "\t// Block 0x56, offset 0x1580",
   "\t0x1584: 0x0008, 0x1585: 0x0008,",
   "\t0x1588: 0x0008,",
   "\t0x158e: 0x0008, 0x158f: 0x0008, 0x1591: 0x0008,",
   "\t0x1593: 0x0008, 0x1594: 0x0008,",
   "\t0x15a9: 0x0008,",
   "\t0x15aa: 0x0008,",
   "\t0x15b0: 0x0008, 0x15b1: 0x0008, 0x15b2: 0x0008, 0x15b3: 0x0008, 0x15b4: 0x0008, 0x15b5: 0x0008,",
   "\t0x15b7: 0x0008, 0x15b8: 0x0008, 0x15b9: 0x0008, 0x15ba: 0x0008,",
   "\t0x15bd: 0x0008,",
   "\t// Block 0x57, offset 0x15c0",
   "\t0x15c2: 0x0008, 0x15c5: 0x0008,",
   "\t0x15c8: 0x0008, 0x15c9: 0x0008, 0x15ca: 0x0008, 0x15cb: 0x0008,",
   "\t0x15cc: 0x0008, 0x15cd: 0x0008, 0x15cf: 0x0008,",
   "\t0x15d2: 0x0008, 0x15d4: 0x0008, 0x15d6: 0x0008,",
   "\t0x15dd: 0x0008,",
   "\t0x15e1: 0x0008,",
   "\t0x15e8: 0x0008,",
   "\t0x15f3: 0x0008, 0x15f4: 0x0008,",
   "\t// Block 0x58, offset 0x1600",
   "\t0x1604: 0x0008,",
   "\t0x1607: 0x0008,",
   "\t0x160c: 0x0008, 0x160e: 0x0008,",
   "\t0x1613: 0x0008, 0x1614: 0x0008, 0x1615: 0x0008, 0x1617: 0x0008,",
   "\t0x1623: 0x0008,",
   "\t0x1624: 0x0008,",
   "\t// Block 0x59, offset 0x1640",
   "\t0x1655: 0x0008, 0x1656: 0x0008, 0x1657: 0x0008,",
   "\t0x1661: 0x0008,",
   "\t0x1670: 0x0008,",
   "\t0x167f: 0x0008,",
   "\t// Block 0x5a, offset 0x1680",
   "\t0x16b4: 0x0008, 0x16b5: 0x0008,",
   "\t// Block 0x5b, offset 0x16c0",
   "\t0x16c5: 0x0008,",
   "\t0x16c6: 0x0008, 0x16c7: 0x0008,",
   "\t0x16db: 0x0008, 0x16dc: 0x0008,",
   "\t// Block 0x5c, offset 0x1700",
   "\t0x1710: 0x0008,",
   "\t0x1715: 0x0008,",
   "\t// Block 0x5d, offset 0x1740",
   "\t0x176f: 0x0024,",
   "\t0x1770: 0x0024, 0x1771: 0x0024,",
   "\t// Block 0x5e, offset 0x1780",
   "\t0x17bf: 0x0024,",
   "\t// Block 0x5f, offset 0x17c0",
   "\t0x17e0: 0x0024, 0x17e1: 0x0024, 0x17e2: 0x0024, 0x17e3: 0x0024,",
   "\t0x17e4: 0x0024, 0x17e5: 0x0024, 0x17e6: 0x0024, 0x17e7: 0x0024, 0x17e8: 0x0024, 0x17e9: 0x0024,",
   "\t0x17ea: 0x0024, 0x17eb: 0x0024, 0x17ec: 0x0024, 0x17ed: 0x0024, 0x17ee: 0x0024, 0x17ef: 0x0024,",
   "\t0x17f0: 0x0024, 0x17f1: 0x0024, 0x17f2: 0x0024, 0x17f3: 0x0024, 0x17f4: 0x0024, 0x17f5: 0x0024,",
   "\t0x17f6: 0x0024, 0x17f7: 0x0024, 0x17f8: 0x0024, 0x17f9: 0x0024, 0x17fa: 0x0024, 0x17fb: 0x0024,",
   "\t0x17fc: 0x0024, 0x17fd: 0x0024, 0x17fe: 0x0024, 0x17ff: 0x0024,"]
theorem v5_eq : v5 = (layout 6 4 80 ((Table.Values.blocks.drop 80).take 16)).map String.ofList := by
  kernel_rfl
/-- graphemes/trie.go:719-804, `graphemesValues` from block 0x60 on. -/
def v6 : List String :=
  ["\t// Block 0x60, offset 0x1800",
   "\t0x182a: 0x0024, 0x182b: 0x0024, 0x182c: 0x0024, 0x182d: 0x0024, 0x182e: 0x0024, 0x182f: 0x0024,",
   "\t0x1830: 0x0008,",
   "\t0x183d: 0x0008,",
   "\t// Block 0x61, offset 0x1840",
   "\t0x1859: 0x0024, 0x185a: 0x0024,",
   "\t// Block 0x62, offset 0x1880",
   "\t0x1897: 0x0008,",
   "\t0x1899: 0x0008,",
   "\t// Block 0x63, offset 0x18c0",
   "\t0x18ef: 0x0024,",
   "\t0x18f0: 0x0024, 0x18f1: 0x0024, 0x18f2: 0x0024, 0x18f4: 0x0024, 0x18f5: 0x0024,",
   "\t0x18f6: 0x0024, 0x18f7: 0x0024, 0x18f8: 0x0024, 0x18f9: 0x0024, 0x18fa: 0x0024, 0x18fb: 0x0024,",
   "\t0x18fc: 0x0024, 0x18fd: 0x0024,",
   "\t// Block 0x64, offset 0x1900",
   "\t0x191e: 0x0024, 0x191f: 0x0024,",
   "\t// Block 0x65, offset 0x1940",
   "\t0x1970: 0x0024, 0x1971: 0x0024,",
   "\t// Block 0x66, offset 0x1980",
   "\t0x1982: 0x0024,",
   "\t0x1986: 0x0024, 0x198b: 0x0024,",
   "\t0x19a3: 0x2000,",
   "\t0x19a4: 0x2000, 0x19a5: 0x0024, 0x19a6: 0x0024, 0x19a7: 0x2000,",
   "\t0x19ac: 0x0024,",
   "\t// Block 0x67, offset 0x19c0",
   "\t0x19c0: 0x2000, 0x19c1: 0x2000,",
   "\t0x19f4: 0x2000, 0x19f5: 0x2000,",
   "\t0x19f6: 0x2000, 0x19f7: 0x2000, 0x19f8: 0x2000, 0x19f9: 0x2000, 0x19fa: 0x2000, 0x19fb: 0x2000,",
   "\t0x19fc: 0x2000, 0x19fd: 0x2000, 0x19fe: 0x2000, 0x19ff: 0x2000,",
   "\t// Block 0x68, offset 0x1a00",
   "\t0x1a00: 0x2000, 0x1a01: 0x2000, 0x1a02: 0x2000, 0x1a03: 0x2000, 0x1a04: 0x0024, 0x1a05: 0x0024,",
   "\t0x1a20: 0x0024, 0x1a21: 0x0024, 0x1a22: 0x0024, 0x1a23: 0x0024,",
   "\t0x1a24: 0x0024, 0x1a25: 0x0024, 0x1a26: 0x0024, 0x1a27: 0x0024, 0x1a28: 0x0024, 0x1a29: 0x0024,",
   "\t0x1a2a: 0x0024, 0x1a2b: 0x0024, 0x1a2c: 0x0024, 0x1a2d: 0x0024, 0x1a2e: 0x0024, 0x1a2f: 0x0024,",
   "\t0x1a30: 0x0024, 0x1a31: 0x0024,",
   "\t0x1a3f: 0x0024,",
   "\t// Block 0x69, offset 0x1a40",
   "\t0x1a66: 0x0024, 0x1a67: 0x0024, 0x1a68: 0x0024, 0x1a69: 0x0024,",
   "\t0x1a6a: 0x0024, 0x1a6b: 0x0024, 0x1a6c: 0x0024, 0x1a6d: 0x0024,",
   "\t// Block 0x6a, offset 0x1a80",
   "\t0x1a87: 0x0024, 0x1a88: 0x0024, 0x1a89: 0x0024, 0x1a8a: 0x0024, 0x1a8b: 0x0024,",
   "\t0x1a8c: 0x0024, 0x1a8d: 0x0024, 0x1a8e: 0x0024, 0x1a8f: 0x0024, 0x1a90: 0x0024, 0x1a91: 0x0024,",
   "\t0x1a92: 0x2000, 0x1a93: 0x0024,",
   "\t0x1aa0: 0x0080, 0x1aa1: 0x0080, 0x1aa2: 0x0080, 0x1aa3: 0x0080,",
   "\t0x1aa4: 0x0080, 0x1aa5: 0x0080, 0x1aa6: 0x0080, 0x1aa7: 0x0080, 0x1aa8: 0x0080, 0x1aa9: 0x0080,",
   "\t0x1aaa: 0x0080, 0x1aab: 0x0080, 0x1aac: 0x0080, 0x1aad: 0x0080, 0x1aae: 0x0080, 0x1aaf: 0x0080,",
   "\t0x1ab0: 0x0080, 0x1ab1: 0x0080, 0x1ab2: 0x0080, 0x1ab3: 0x0080, 0x1ab4: 0x0080, 0x1ab5: 0x0080,",
   "\t0x1ab6: 0x0080, 0x1ab7: 0x0080, 0x1ab8: 0x0080, 0x1ab9: 0x0080, 0x1aba: 0x0080, 0x1abb: 0x0080,",
   "\t0x1abc: 0x0080,",
   "\t// Block 0x6b, offset 0x1ac0",
   "\t0x1ac0: 0x0024, 0x1ac1: 0x0024, 0x1ac2: 0x0024, 0x1ac3: 0x2000,",
   "\t0x1ac9: 0x0010, 0x1aca: 0x0010, 0x1acb: 0x0010,",
   "\t0x1acf: 0x0010, 0x1ad0: 0x0010, 0x1ad1: 0x0010,",
   "\t0x1ad2: 0x0010, 0x1ad3: 0x0010, 0x1ad4: 0x0010, 0x1ad5: 0x0010, 0x1ad6: 0x0010, 0x1ad7: 0x0010,",
   "\t0x1ad8: 0x0010, 0x1ad9: 0x0010, 0x1ada: 0x0010, 0x1adb: 0x0010, 0x1adc: 0x0010, 0x1add: 0x0010,",
   "\t0x1ade: 0x0010, 0x1adf: 0x0010, 0x1ae0: 0x0010, 0x1ae1: 0x0010, 0x1ae2: 0x0010, 0x1ae3: 0x0010,",
   "\t0x1ae4: 0x0010, 0x1ae5: 0x0010, 0x1ae6: 0x0010, 0x1ae7: 0x0010, 0x1ae8: 0x0010, 0x1ae9: 0x0010,",
   "\t0x1aea: 0x0010, 0x1aeb: 0x0010, 0x1aec: 0x0010, 0x1aed: 0x0010, 0x1aee: 0x0010, 0x1aef: 0x0010,",
   "\t0x1af0: 0x0010, 0x1af1: 0x0010, 0x1af2: 0x0010, 0x1af3: 0x0024, 0x1af4: 0x2000, 0x1af5: 0x2000,",
   "\t0x1af6: 0x0024, 0x1af7: 0x0024, 0x1af8: 0x0024, 0x1af9: 0x0024, 0x1afa: 0x2000, 0x1afb: 0x2000,",
   "\t0x1afc: 0x0024, 0x1afd: 0x0024, 0x1afe: 0x2000, 0x1aff: 0x2000,",
   "\t// Block 0x6c, offset 0x1b00",
   "\t0x1b00: 0x0044,",
   "\t0x1b20: 0x0010, 0x1b21: 0x0010, 0x1b22: 0x0010, 0x1b23: 0x0010,",
   "\t0x1b24: 0x0010, 0x1b25: 0x0024, 0x1b27: 0x0010, 0x1b28: 0x0010, 0x1b29: 0x0010,",
   "\t0x1b2a: 0x0010, 0x1b2b: 0x0010, 0x1b2c: 0x0010, 0x1b2d: 0x0010, 0x1b2e: 0x0010, 0x1b2f: 0x0010,",
   "\t0x1b3a: 0x0010, 0x1b3b: 0x0010,",
   "\t0x1b3c: 0x0010, 0x1b3d: 0x0010, 0x1b3e: 0x0010,",
   "\t// Block 0x6d, offset 0x1b40",
   "\t0x1b69: 0x0024,",
   "\t0x1b6a: 0x0024, 0x1b6b: 0x0024, 0x1b6c: 0x0024, 0x1b6d: 0x0024, 0x1b6e: 0x0024, 0x1b6f: 0x2000,",
   "\t0x1b70: 0x2000, 0x1b71: 0x0024, 0x1b72: 0x0024, 0x1b73: 0x2000, 0x1b74: 0x2000, 0x1b75: 0x0024,",
   "\t0x1b76: 0x0024,",
   "\t// Block 0x6e, offset 0x1b80",
   "\t0x1b83: 0x0024,",
   "\t0x1b8c: 0x0024, 0x1b8d: 0x2000,",
   "\t0x1ba0: 0x0010, 0x1ba1: 0x0010, 0x1ba2: 0x0010, 0x1ba3: 0x0010,",
   "\t0x1ba4: 0x0010, 0x1ba5: 0x0010, 0x1ba6: 0x0010, 0x1ba7: 0x0010, 0x1ba8: 0x0010, 0x1ba9: 0x0010,",
   "\t0x1baa: 0x0010, 0x1bab: 0x0010, 0x1bac: 0x0010, 0x1bad: 0x0010, 0x1bae: 0x0010, 0x1baf: 0x0010,",
   "\t0x1bb1: 0x0010, 0x1bb2: 0x0010, 0x1bb3: 0x0010,",
   "\t0x1bba: 0x0010,",
   "\t0x1bbc: 0x0024, 0x1bbe: 0x0010, 0x1bbf: 0x0010,",
   "\t// Block 0x6f, offset 0x1bc0",
   "\t0x1bf0: 0x0024, 0x1bf2: 0x0024, 0x1bf3: 0x0024, 0x1bf4: 0x0024,",
   "\t0x1bf7: 0x0024, 0x1bf8: 0x0024,",
   "\t0x1bfe: 0x0024, 0x1bff: 0x0024,"]
theorem v6_eq : v6 = (layout 6 4 96 ((Table.Values.blocks.drop 96).take 16)).map String.ofList := by
  kernel_rfl
/-- graphemes/trie.go:805-941, `graphemesValues` from block 0x70 on. -/
def v7 : List String :=
  ["\t// Block 0x70, offset 0x1c00",
   "\t0x1c01: 0x0024,",
   "\t0x1c20: 0x0010, 0x1c21: 0x0010, 0x1c22: 0x0010, 0x1c23: 0x0010,",
   "\t0x1c24: 0x0010, 0x1c25: 0x0010, 0x1c26: 0x0010, 0x1c27: 0x0010, 0x1c28: 0x0010, 0x1c29: 0x0010,",
   "\t0x1c2a: 0x0010, 0x1c2b: 0x2000, 0x1c2c: 0x0024, 0x1c2d: 0x0024, 0x1c2e: 0x2000, 0x1c2f: 0x2000,",
   "\t0x1c35: 0x2000,",
   "\t0x1c36: 0x0044,",
   "\t// Block 0x71, offset 0x1c40",
   "\t0x1c40: 0x0010, 0x1c41: 0x0010, 0x1c42: 0x0010, 0x1c43: 0x0010, 0x1c44: 0x0010, 0x1c45: 0x0010,",
   "\t0x1c46: 0x0010, 0x1c47: 0x0010, 0x1c48: 0x0010, 0x1c49: 0x0010, 0x1c4a: 0x0010, 0x1c4b: 0x0010,",
   "\t0x1c4c: 0x0010, 0x1c4d: 0x0010, 0x1c4e: 0x0010, 0x1c4f: 0x0010, 0x1c50: 0x0010, 0x1c51: 0x0010,",
   "\t0x1c52: 0x0010, 0x1c53: 0x0010, 0x1c54: 0x0010, 0x1c55: 0x0010, 0x1c56: 0x0010, 0x1c57: 0x0010,",
   "\t0x1c58: 0x0010, 0x1c59: 0x0010, 0x1c5a: 0x0010,",
   "\t0x1c63: 0x2000,",
   "\t0x1c64: 0x2000, 0x1c65: 0x0024, 0x1c66: 0x2000, 0x1c67: 0x2000, 0x1c68: 0x0024, 0x1c69: 0x2000,",
   "\t0x1c6a: 0x2000, 0x1c6c: 0x2000, 0x1c6d: 0x0024,",
   "\t// Block 0x72, offset 0x1c80",
   "\t0x1c80: 0x0200, 0x1c81: 0x0400, 0x1c82: 0x0400, 0x1c83: 0x0400, 0x1c84: 0x0400, 0x1c85: 0x0400,",
   "\t0x1c86: 0x0400, 0x1c87: 0x0400, 0x1c88: 0x0400, 0x1c89: 0x0400, 0x1c8a: 0x0400, 0x1c8b: 0x0400,",
   "\t0x1c8c: 0x0400, 0x1c8d: 0x0400, 0x1c8e: 0x0400, 0x1c8f: 0x0400, 0x1c90: 0x0400, 0x1c91: 0x0400,",
   "\t0x1c92: 0x0400, 0x1c93: 0x0400, 0x1c94: 0x0400, 0x1c95: 0x0400, 0x1c96: 0x0400, 0x1c97: 0x0400,",
   "\t0x1c98: 0x0400, 0x1c99: 0x0400, 0x1c9a: 0x0400, 0x1c9b: 0x0400, 0x1c9c: 0x0200, 0x1c9d: 0x0400,",
   "\t0x1c9e: 0x0400, 0x1c9f: 0x0400, 0x1ca0: 0x0400, 0x1ca1: 0x0400, 0x1ca2: 0x0400, 0x1ca3: 0x0400,",
   "\t0x1ca4: 0x0400, 0x1ca5: 0x0400, 0x1ca6: 0x0400, 0x1ca7: 0x0400, 0x1ca8: 0x0400, 0x1ca9: 0x0400,",
   "\t0x1caa: 0x0400, 0x1cab: 0x0400, 0x1cac: 0x0400, 0x1cad: 0x0400, 0x1cae: 0x0400, 0x1caf: 0x0400,",
   "\t0x1cb0: 0x0400, 0x1cb1: 0x0400, 0x1cb2: 0x0400, 0x1cb3: 0x0400, 0x1cb4: 0x0400, 0x1cb5: 0x0400,",
   "\t0x1cb6: 0x0400, 0x1cb7: 0x0400, 0x1cb8: 0x0200, 0x1cb9: 0x0400, 0x1cba: 0x0400, 0x1cbb: 0x0400,",
   "\t0x1cbc: 0x0400, 0x1cbd: 0x0400, 0x1cbe: 0x0400, 0x1cbf: 0x0400,",
   "\t// Block 0x73, offset 0x1cc0",
   "\t0x1cc0: 0x0400, 0x1cc1: 0x0400, 0x1cc2: 0x0400, 0x1cc3: 0x0400, 0x1cc4: 0x0400, 0x1cc5: 0x0400,",
   "\t0x1cc6: 0x0400, 0x1cc7: 0x0400, 0x1cc8: 0x0400, 0x1cc9: 0x0400, 0x1cca: 0x0400, 0x1ccb: 0x0400,",
   "\t0x1ccc: 0x0400, 0x1ccd: 0x0400, 0x1cce: 0x0400, 0x1ccf: 0x0400, 0x1cd0: 0x0400, 0x1cd1: 0x0400,",
   "\t0x1cd2: 0x0400, 0x1cd3: 0x0400, 0x1cd4: 0x0200, 0x1cd5: 0x0400, 0x1cd6: 0x0400, 0x1cd7: 0x0400,",
   "\t0x1cd8: 0x0400, 0x1cd9: 0x0400, 0x1cda: 0x0400, 0x1cdb: 0x0400, 0x1cdc: 0x0400, 0x1cdd: 0x0400,",
   "\t0x1cde: 0x0400, 0x1cdf: 0x0400, 0x1ce0: 0x0400, 0x1ce1: 0x0400, 0x1ce2: 0x0400, 0x1ce3: 0x0400,",
   "\t0x1ce4: 0x0400, 0x1ce5: 0x0400, 0x1ce6: 0x0400, 0x1ce7: 0x0400, 0x1ce8: 0x0400, 0x1ce9: 0x0400,",
   "\t0x1cea: 0x0400, 0x1ceb: 0x0400, 0x1cec: 0x0400, 0x1ced: 0x0400, 0x1cee: 0x0400, 0x1cef: 0x0400,",
   "\t0x1cf0: 0x0200, 0x1cf1: 0x0400, 0x1cf2: 0x0400, 0x1cf3: 0x0400, 0x1cf4: 0x0400, 0x1cf5: 0x0400,",
   "\t0x1cf6: 0x0400, 0x1cf7: 0x0400, 0x1cf8: 0x0400, 0x1cf9: 0x0400, 0x1cfa: 0x0400, 0x1cfb: 0x0400,",
   "\t0x1cfc: 0x0400, 0x1cfd: 0x0400, 0x1cfe: 0x0400, 0x1cff: 0x0400,",
   "\t// Block 0x74, offset 0x1d00",
   "\t0x1d00: 0x0400, 0x1d01: 0x0400, 0x1d02: 0x0400, 0x1d03: 0x0400, 0x1d04: 0x0400, 0x1d05: 0x0400,",
   "\t0x1d06: 0x0400, 0x1d07: 0x0400, 0x1d08: 0x0400, 0x1d09: 0x0400, 0x1d0a: 0x0400, 0x1d0b: 0x0400,",
   "\t0x1d0c: 0x0200, 0x1d0d: 0x0400, 0x1d0e: 0x0400, 0x1d0f: 0x0400, 0x1d10: 0x0400, 0x1d11: 0x0400,",
   "\t0x1d12: 0x0400, 0x1d13: 0x0400, 0x1d14: 0x0400, 0x1d15: 0x0400, 0x1d16: 0x0400, 0x1d17: 0x0400,",
   "\t0x1d18: 0x0400, 0x1d19: 0x0400, 0x1d1a: 0x0400, 0x1d1b: 0x0400, 0x1d1c: 0x0400, 0x1d1d: 0x0400,",
   "\t0x1d1e: 0x0400, 0x1d1f: 0x0400, 0x1d20: 0x0400, 0x1d21: 0x0400, 0x1d22: 0x0400, 0x1d23: 0x0400,",
   "\t0x1d24: 0x0400, 0x1d25: 0x0400, 0x1d26: 0x0400, 0x1d27: 0x0400, 0x1d28: 0x0200, 0x1d29: 0x0400,",
   "\t0x1d2a: 0x0400, 0x1d2b: 0x0400, 0x1d2c: 0x0400, 0x1d2d: 0x0400, 0x1d2e: 0x0400, 0x1d2f: 0x0400,",
   "\t0x1d30: 0x0400, 0x1d31: 0x0400, 0x1d32: 0x0400, 0x1d33: 0x0400, 0x1d34: 0x0400, 0x1d35: 0x0400,",
   "\t0x1d36: 0x0400, 0x1d37: 0x0400, 0x1d38: 0x0400, 0x1d39: 0x0400, 0x1d3a: 0x0400, 0x1d3b: 0x0400,",
   "\t0x1d3c: 0x0400, 0x1d3d: 0x0400, 0x1d3e: 0x0400, 0x1d3f: 0x0400,",
   "\t// Block 0x75, offset 0x1d40",
   "\t0x1d40: 0x0400, 0x1d41: 0x0400, 0x1d42: 0x0400, 0x1d43: 0x0400, 0x1d44: 0x0200, 0x1d45: 0x0400,",
   "\t0x1d46: 0x0400, 0x1d47: 0x0400, 0x1d48: 0x0400, 0x1d49: 0x0400, 0x1d4a: 0x0400, 0x1d4b: 0x0400,",
   "\t0x1d4c: 0x0400, 0x1d4d: 0x0400, 0x1d4e: 0x0400, 0x1d4f: 0x0400, 0x1d50: 0x0400, 0x1d51: 0x0400,",
   "\t0x1d52: 0x0400, 0x1d53: 0x0400, 0x1d54: 0x0400, 0x1d55: 0x0400, 0x1d56: 0x0400, 0x1d57: 0x0400,",
   "\t0x1d58: 0x0400, 0x1d59: 0x0400, 0x1d5a: 0x0400, 0x1d5b: 0x0400, 0x1d5c: 0x0400, 0x1d5d: 0x0400,",
   "\t0x1d5e: 0x0400, 0x1d5f: 0x0400, 0x1d60: 0x0200, 0x1d61: 0x0400, 0x1d62: 0x0400, 0x1d63: 0x0400,",
   "\t0x1d64: 0x0400, 0x1d65: 0x0400, 0x1d66: 0x0400, 0x1d67: 0x0400, 0x1d68: 0x0400, 0x1d69: 0x0400,",
   "\t0x1d6a: 0x0400, 0x1d6b: 0x0400, 0x1d6c: 0x0400, 0x1d6d: 0x0400, 0x1d6e: 0x0400, 0x1d6f: 0x0400,",
   "\t0x1d70: 0x0400, 0x1d71: 0x0400, 0x1d72: 0x0400, 0x1d73: 0x0400, 0x1d74: 0x0400, 0x1d75: 0x0400,",
   "\t0x1d76: 0x0400, 0x1d77: 0x0400, 0x1d78: 0x0400, 0x1d79: 0x0400, 0x1d7a: 0x0400, 0x1d7b: 0x0400,",
   "\t0x1d7c: 0x0200, 0x1d7d: 0x0400, 0x1d7e: 0x0400, 0x1d7f: 0x0400,",
   "\t// Block 0x76, offset 0x1d80",
   "\t0x1d80: 0x0400, 0x1d81: 0x0400, 0x1d82: 0x0400, 0x1d83: 0x0400, 0x1d84: 0x0400, 0x1d85: 0x0400,",
   "\t0x1d86: 0x0400, 0x1d87: 0x0400, 0x1d88: 0x0400, 0x1d89: 0x0400, 0x1d8a: 0x0400, 0x1d8b: 0x0400,",
   "\t0x1d8c: 0x0400, 0x1d8d: 0x0400, 0x1d8e: 0x0400, 0x1d8f: 0x0400, 0x1d90: 0x0400, 0x1d91: 0x0400,",
   "\t0x1d92: 0x0400, 0x1d93: 0x0400, 0x1d94: 0x0400, 0x1d95: 0x0400, 0x1d96: 0x0400, 0x1d97: 0x0400,",
   "\t0x1d98: 0x0200, 0x1d99: 0x0400, 0x1d9a: 0x0400, 0x1d9b: 0x0400, 0x1d9c: 0x0400, 0x1d9d: 0x0400,",
   "\t0x1d9e: 0x0400, 0x1d9f: 0x0400, 0x1da0: 0x0400, 0x1da1: 0x0400, 0x1da2: 0x0400, 0x1da3: 0x0400,",
   "\t0x1da4: 0x0400, 0x1da5: 0x0400, 0x1da6: 0x0400, 0x1da7: 0x0400, 0x1da8: 0x0400, 0x1da9: 0x0400,",
   "\t0x1daa: 0x0400, 0x1dab: 0x0400, 0x1dac: 0x0400, 0x1dad: 0x0400, 0x1dae: 0x0400, 0x1daf: 0x0400,",
   "\t0x1db0: 0x0400, 0x1db1: 0x0400, 0x1db2: 0x0400, 0x1db3: 0x0400, 0x1db4: 0x0200, 0x1db5: 0x0400,",
   "\t0x1db6: 0x0400, 0x1db7: 0x0400, 0x1db8: 0x0400, 0x1db9: 0x0400, 0x1dba: 0x0400, 0x1dbb: 0x0400,",
   "\t0x1dbc: 0x0400, 0x1dbd: 0x0400, 0x1dbe: 0x0400, 0x1dbf: 0x0400,",
   "\t// Block 0x77, offset 0x1dc0",
   "\t0x1dc0: 0x0400, 0x1dc1: 0x0400, 0x1dc2: 0x0400, 0x1dc3: 0x0400, 0x1dc4: 0x0400, 0x1dc5: 0x0400,",
   "\t0x1dc6: 0x0400, 0x1dc7: 0x0400, 0x1dc8: 0x0400, 0x1dc9: 0x0400, 0x1dca: 0x0400, 0x1dcb: 0x0400,",
   "\t0x1dcc: 0x0400, 0x1dcd: 0x0400, 0x1dce: 0x0400, 0x1dcf: 0x0400, 0x1dd0: 0x0200, 0x1dd1: 0x0400,",
   "\t0x1dd2: 0x0400, 0x1dd3: 0x0400, 0x1dd4: 0x0400, 0x1dd5: 0x0400, 0x1dd6: 0x0400, 0x1dd7: 0x0400,",
   "\t0x1dd8: 0x0400, 0x1dd9: 0x0400, 0x1dda: 0x0400, 0x1ddb: 0x0400, 0x1ddc: 0x0400, 0x1ddd: 0x0400,",
   "\t0x1dde: 0x0400, 0x1ddf: 0x0400, 0x1de0: 0x0400, 0x1de1: 0x0400, 0x1de2: 0x0400, 0x1de3: 0x0400,",
   "\t0x1de4: 0x0400, 0x1de5: 0x0400, 0x1de6: 0x0400, 0x1de7: 0x0400, 0x1de8: 0x0400, 0x1de9: 0x0400,",
   "\t0x1dea: 0x0400, 0x1deb: 0x0400, 0x1dec: 0x0200, 0x1ded: 0x0400, 0x1dee: 0x0400, 0x1def: 0x0400,",
   "\t0x1df0: 0x0400, 0x1df1: 0x0400, 0x1df2: 0x0400, 0x1df3: 0x0400, 0x1df4: 0x0400, 0x1df5: 0x0400,",
   "\t0x1df6: 0x0400, 0x1df7: 0x0400, 0x1df8: 0x0400, 0x1df9: 0x0400, 0x1dfa: 0x0400, 0x1dfb: 0x0400,",
   "\t0x1dfc: 0x0400, 0x1dfd: 0x0400, 0x1dfe: 0x0400, 0x1dff: 0x0400,",
   "\t// Block 0x78, offset 0x1e00",
   "\t0x1e00: 0x0400, 0x1e01: 0x0400, 0x1e02: 0x0400, 0x1e03: 0x0400, 0x1e04: 0x0400, 0x1e05: 0x0400,",
   "\t0x1e06: 0x0400, 0x1e07: 0x0400, 0x1e08: 0x0200, 0x1e09: 0x0400, 0x1e0a: 0x0400, 0x1e0b: 0x0400,",
   "\t0x1e0c: 0x0400, 0x1e0d: 0x0400, 0x1e0e: 0x0400, 0x1e0f: 0x0400, 0x1e10: 0x0400, 0x1e11: 0x0400,",
   "\t0x1e12: 0x0400, 0x1e13: 0x0400, 0x1e14: 0x0400, 0x1e15: 0x0400, 0x1e16: 0x0400, 0x1e17: 0x0400,",
   "\t0x1e18: 0x0400, 0x1e19: 0x0400, 0x1e1a: 0x0400, 0x1e1b: 0x0400, 0x1e1c: 0x0400, 0x1e1d: 0x0400,",
   "\t0x1e1e: 0x0400, 0x1e1f: 0x0400, 0x1e20: 0x0400, 0x1e21: 0x0400, 0x1e22: 0x0400, 0x1e23: 0x0400,",
   "\t0x1e24: 0x0200, 0x1e25: 0x0400, 0x1e26: 0x0400, 0x1e27: 0x0400, 0x1e28: 0x0400, 0x1e29: 0x0400,",
   "\t0x1e2a: 0x0400, 0x1e2b: 0x0400, 0x1e2c: 0x0400, 0x1e2d: 0x0400, 0x1e2e: 0x0400, 0x1e2f: 0x0400,",
   "\t0x1e30: 0x0400, 0x1e31: 0x0400, 0x1e32: 0x0400, 0x1e33: 0x0400, 0x1e34: 0x0400, 0x1e35: 0x0400,",
   "\t0x1e36: 0x0400, 0x1e37: 0x0400, 0x1e38: 0x0400, 0x1e39: 0x0400, 0x1e3a: 0x0400, 0x1e3b: 0x0400,",
   "\t0x1e3c: 0x0400, 0x1e3d: 0x0400, 0x1e3e: 0x0400, 0x1e3f: 0x0400,",
   "\t// Block 0x79, offset 0x1e40",
   "\t0x1e40: 0x0400, 0x1e41: 0x0400, 0x1e42: 0x0400, 0x1e43: 0x0400, 0x1e44: 0x0400, 0x1e45: 0x0400,",
   "\t0x1e46: 0x0400, 0x1e47: 0x0400, 0x1e48: 0x0200, 0x1e49: 0x0400, 0x1e4a: 0x0400, 0x1e4b: 0x0400,",
   "\t0x1e4c: 0x0400, 0x1e4d: 0x0400, 0x1e4e: 0x0400, 0x1e4f: 0x0400, 0x1e50: 0x0400, 0x1e51: 0x0400,",
   "\t0x1e52: 0x0400, 0x1e53: 0x0400, 0x1e54: 0x0400, 0x1e55: 0x0400, 0x1e56: 0x0400, 0x1e57: 0x0400,",
   "\t0x1e58: 0x0400, 0x1e59: 0x0400, 0x1e5a: 0x0400, 0x1e5b: 0x0400, 0x1e5c: 0x0400, 0x1e5d: 0x0400,",
   "\t0x1e5e: 0x0400, 0x1e5f: 0x0400, 0x1e60: 0x0400, 0x1e61: 0x0400, 0x1e62: 0x0400, 0x1e63: 0x0400,",
   "\t0x1e70: 0x8000, 0x1e71: 0x8000, 0x1e72: 0x8000, 0x1e73: 0x8000, 0x1e74: 0x8000, 0x1e75: 0x8000,",
   "\t0x1e76: 0x8000, 0x1e77: 0x8000, 0x1e78: 0x8000, 0x1e79: 0x8000, 0x1e7a: 0x8000, 0x1e7b: 0x8000,",
   "\t0x1e7c: 0x8000, 0x1e7d: 0x8000, 0x1e7e: 0x8000, 0x1e7f: 0x8000,",
   "\t// Block 0x7a, offset 0x1e80",
   "\t0x1e80: 0x8000, 0x1e81: 0x8000, 0x1e82: 0x8000, 0x1e83: 0x8000, 0x1e84: 0x8000, 0x1e85: 0x8000,",
   "\t0x1e86: 0x8000, 0x1e8b: 0x4000,",
   "\t0x1e8c: 0x4000, 0x1e8d: 0x4000, 0x1e8e: 0x4000, 0x1e8f: 0x4000, 0x1e90: 0x4000, 0x1e91: 0x4000,",
   "\t0x1e92: 0x4000, 0x1e93: 0x4000, 0x1e94: 0x4000, 0x1e95: 0x4000, 0x1e96: 0x4000, 0x1e97: 0x4000,",
   "\t0x1e98: 0x4000, 0x1e99: 0x4000, 0x1e9a: 0x4000, 0x1e9b: 0x4000, 0x1e9c: 0x4000, 0x1e9d: 0x4000,",
   "\t0x1e9e: 0x4000, 0x1e9f: 0x4000, 0x1ea0: 0x4000, 0x1ea1: 0x4000, 0x1ea2: 0x4000, 0x1ea3: 0x4000,",
   "\t0x1ea4: 0x4000, 0x1ea5: 0x4000, 0x1ea6: 0x4000, 0x1ea7: 0x4000, 0x1ea8: 0x4000, 0x1ea9: 0x4000,",
   "\t0x1eaa: 0x4000, 0x1eab: 0x4000, 0x1eac: 0x4000, 0x1ead: 0x4000, 0x1eae: 0x4000, 0x1eaf: 0x4000,",
   "\t0x1eb0: 0x4000, 0x1eb1: 0x4000, 0x1eb2: 0x4000, 0x1eb3: 0x4000, 0x1eb4: 0x4000, 0x1eb5: 0x4000,",
   "\t0x1eb6: 0x4000, 0x1eb7: 0x4000, 0x1eb8: 0x4000, 0x1eb9: 0x4000, 0x1eba: 0x4000, 0x1ebb: 0x4000,",
   "\t// Block 0x7b, offset 0x1ec0",
   "\t0x1ede: 0x0024,",
   "\t// Block 0x7c, offset 0x1f00",
   "\t0x1f00: 0x0024, 0x1f01: 0x0024, 0x1f02: 0x0024, 0x1f03: 0x0024, 0x1f04: 0x0024, 0x1f05: 0x0024,",
   "\t0x1f06: 0x0024, 0x1f07: 0x0024, 0x1f08: 0x0024, 0x1f09: 0x0024, 0x1f0a: 0x0024, 0x1f0b: 0x0024,",
   "\t0x1f0c: 0x0024, 0x1f0d: 0x0024, 0x1f0e: 0x0024, 0x1f0f: 0x0024,",
   "\t0x1f20: 0x0024, 0x1f21: 0x0024, 0x1f22: 0x0024, 0x1f23: 0x0024,",
   "\t0x1f24: 0x0024, 0x1f25: 0x0024, 0x1f26: 0x0024, 0x1f27: 0x0024, 0x1f28: 0x0024, 0x1f29: 0x0024,",
   "\t0x1f2a: 0x0024, 0x1f2b: 0x0024, 0x1f2c: 0x0024, 0x1f2d: 0x0024, 0x1f2e: 0x0024, 0x1f2f: 0x0024,",
   "\t// Block 0x7d, offset 0x1f40",
   "\t0x1f7f: 0x0002,",
   "\t// Block 0x7e, offset 0x1f80",
   "\t0x1fb0: 0x0002, 0x1fb1: 0x0002, 0x1fb2: 0x0002, 0x1fb3: 0x0002, 0x1fb4: 0x0002, 0x1fb5: 0x0002,",
   "\t0x1fb6: 0x0002, 0x1fb7: 0x0002, 0x1fb8: 0x0002, 0x1fb9: 0x0002, 0x1fba: 0x0002, 0x1fbb: 0x0002,",
   "\t// Block 0x7f, offset 0x1fc0",
   "\t0x1ffd: 0x0024,"]
theorem v7_eq : v7 = (layout 6 4 112 ((Table.Values.blocks.drop 112).take 16)).map String.ofList := by
  kernel_rfl
/-- graphemes/trie.go:942-1005, `graphemesValues` from block 0x80 on. -/
def v8 : List String :=
  ["\t// Block 0x80, offset 0x2000",
   "\t0x2020: 0x0024,",
   "\t// Block 0x81, offset 0x2040",
   "\t0x2076: 0x0024, 0x2077: 0x0024, 0x2078: 0x0024, 0x2079: 0x0024, 0x207a: 0x0024,",
   "\t// Block 0x82, offset 0x2080",
   "\t0x2080: 0x0010, 0x2081: 0x0024, 0x2082: 0x0024, 0x2083: 0x0024, 0x2085: 0x0024,",
   "\t0x2086: 0x0024,",
   "\t0x208c: 0x0024, 0x208d: 0x0024, 0x208e: 0x0024, 0x208f: 0x0024, 0x2090: 0x0010, 0x2091: 0x0010,",
   "\t0x2092: 0x0010, 0x2093: 0x0010, 0x2095: 0x0010, 0x2096: 0x0010, 0x2097: 0x0010,",
   "\t0x2099: 0x0010, 0x209a: 0x0010, 0x209b: 0x0010, 0x209c: 0x0010, 0x209d: 0x0010,",
   "\t0x209e: 0x0010, 0x209f: 0x0010, 0x20a0: 0x0010, 0x20a1: 0x0010, 0x20a2: 0x0010, 0x20a3: 0x0010,",
   "\t0x20a4: 0x0010, 0x20a5: 0x0010, 0x20a6: 0x0010, 0x20a7: 0x0010, 0x20a8: 0x0010, 0x20a9: 0x0010,",
   "\t0x20aa: 0x0010, 0x20ab: 0x0010, 0x20ac: 0x0010, 0x20ad: 0x0010, 0x20ae: 0x0010, 0x20af: 0x0010,",
   "\t0x20b0: 0x0010, 0x20b1: 0x0010, 0x20b2: 0x0010, 0x20b3: 0x0010, 0x20b4: 0x0010, 0x20b5: 0x0010,",
   "\t0x20b8: 0x0024, 0x20b9: 0x0024, 0x20ba: 0x0024,",
   "\t0x20bf: 0x0044,",
   "\t// Block 0x83, offset 0x20c0",
   "\t0x20e5: 0x0024, 0x20e6: 0x0024,",
   "\t// Block 0x84, offset 0x2100",
   "\t0x2124: 0x0024, 0x2125: 0x0024, 0x2126: 0x0024, 0x2127: 0x0024,",
   "\t// Block 0x85, offset 0x2140",
   "\t0x2169: 0x0024,",
   "\t0x216a: 0x0024, 0x216b: 0x0024, 0x216c: 0x0024, 0x216d: 0x0024,",
   "\t// Block 0x86, offset 0x2180",
   "\t0x21ab: 0x0024, 0x21ac: 0x0024,",
   "\t// Block 0x87, offset 0x21c0",
   "\t0x21fa: 0x0024, 0x21fb: 0x0024,",
   "\t0x21fc: 0x0024, 0x21fd: 0x0024, 0x21fe: 0x0024, 0x21ff: 0x0024,",
   "\t// Block 0x88, offset 0x2200",
   "\t0x2206: 0x0024, 0x2207: 0x0024, 0x2208: 0x0024, 0x2209: 0x0024, 0x220a: 0x0024, 0x220b: 0x0024,",
   "\t0x220c: 0x0024, 0x220d: 0x0024, 0x220e: 0x0024, 0x220f: 0x0024, 0x2210: 0x0024,",
   "\t// Block 0x89, offset 0x2240",
   "\t0x2242: 0x0024, 0x2243: 0x0024, 0x2244: 0x0024, 0x2245: 0x0024,",
   "\t// Block 0x8a, offset 0x2280",
   "\t0x2280: 0x2000, 0x2281: 0x0024, 0x2282: 0x2000,",
   "\t0x22b8: 0x0024, 0x22b9: 0x0024, 0x22ba: 0x0024, 0x22bb: 0x0024,",
   "\t0x22bc: 0x0024, 0x22bd: 0x0024, 0x22be: 0x0024, 0x22bf: 0x0024,",
   "\t// Block 0x8b, offset 0x22c0",
   "\t0x22c0: 0x0024, 0x22c1: 0x0024, 0x22c2: 0x0024, 0x22c3: 0x0024, 0x22c4: 0x0024, 0x22c5: 0x0024,",
   "\t0x22c6: 0x0024,",
   "\t0x22f0: 0x0024, 0x22f3: 0x0024, 0x22f4: 0x0024,",
   "\t0x22ff: 0x0024,",
   "\t// Block 0x8c, offset 0x2300",
   "\t0x2300: 0x0024, 0x2301: 0x0024, 0x2302: 0x2000,",
   "\t0x2330: 0x2000, 0x2331: 0x2000, 0x2332: 0x2000, 0x2333: 0x0024, 0x2334: 0x0024, 0x2335: 0x0024,",
   "\t0x2336: 0x0024, 0x2337: 0x2000, 0x2338: 0x2000, 0x2339: 0x0024, 0x233a: 0x0024,",
   "\t0x233d: 0x0800,",
   "\t// Block 0x8d, offset 0x2340",
   "\t0x2342: 0x0024,",
   "\t0x234d: 0x0800,",
   "\t// Block 0x8e, offset 0x2380",
   "\t0x2380: 0x0024, 0x2381: 0x0024, 0x2382: 0x0024, 0x2383: 0x0010, 0x2384: 0x0010, 0x2385: 0x0010,",
   "\t0x2386: 0x0010, 0x2387: 0x0010, 0x2388: 0x0010, 0x2389: 0x0010, 0x238a: 0x0010, 0x238b: 0x0010,",
   "\t0x238c: 0x0010, 0x238d: 0x0010, 0x238e: 0x0010, 0x238f: 0x0010, 0x2390: 0x0010, 0x2391: 0x0010,",
   "\t0x2392: 0x0010, 0x2393: 0x0010, 0x2394: 0x0010, 0x2395: 0x0010, 0x2396: 0x0010, 0x2397: 0x0010,",
   "\t0x2398: 0x0010, 0x2399: 0x0010, 0x239a: 0x0010, 0x239b: 0x0010, 0x239c: 0x0010, 0x239d: 0x0010,",
   "\t0x239e: 0x0010, 0x239f: 0x0010, 0x23a0: 0x0010, 0x23a1: 0x0010, 0x23a2: 0x0010, 0x23a3: 0x0010,",
   "\t0x23a4: 0x0010, 0x23a5: 0x0010, 0x23a6: 0x0010, 0x23a7: 0x0024, 0x23a8: 0x0024, 0x23a9: 0x0024,",
   "\t0x23aa: 0x0024, 0x23ab: 0x0024, 0x23ac: 0x2000, 0x23ad: 0x0024, 0x23ae: 0x0024, 0x23af: 0x0024,",
   "\t0x23b0: 0x0024, 0x23b1: 0x0024, 0x23b2: 0x0024, 0x23b3: 0x0044, 0x23b4: 0x0024,",
   "\t// Block 0x8f, offset 0x23c0",
   "\t0x23c4: 0x0010, 0x23c5: 0x2000,",
   "\t0x23c6: 0x2000, 0x23c7: 0x0010,",
   "\t0x23f3: 0x0024,"]
theorem v8_eq : v8 = (layout 6 4 128 ((Table.Values.blocks.drop 128).take 16)).map String.ofList := by
  kernel_rfl
/-- graphemes/trie.go:1006-1082, `graphemesValues` from block 0x90 on. -/
def v9 : List String :=
  ["\t// Block 0x90, offset 0x2400",
   "\t0x2400: 0x0024, 0x2401: 0x0024, 0x2402: 0x2000,",
   "\t0x2433: 0x2000, 0x2434: 0x2000, 0x2435: 0x2000,",
   "\t0x2436: 0x0024, 0x2437: 0x0024, 0x2438: 0x0024, 0x2439: 0x0024, 0x243a: 0x0024, 0x243b: 0x0024,",
   "\t0x243c: 0x0024, 0x243d: 0x0024, 0x243e: 0x0024, 0x243f: 0x2000,",
   "\t// Block 0x91, offset 0x2440",
   "\t0x2440: 0x0024, 0x2442: 0x0800, 0x2443: 0x0800,",
   "\t0x2449: 0x0024, 0x244a: 0x0024, 0x244b: 0x0024,",
   "\t0x244c: 0x0024, 0x244e: 0x2000, 0x244f: 0x0024,",
   "\t// Block 0x92, offset 0x2480",
   "\t0x24ac: 0x2000, 0x24ad: 0x2000, 0x24ae: 0x2000, 0x24af: 0x0024,",
   "\t0x24b0: 0x0024, 0x24b1: 0x0024, 0x24b2: 0x2000, 0x24b3: 0x2000, 0x24b4: 0x0024, 0x24b5: 0x0024,",
   "\t0x24b6: 0x0024, 0x24b7: 0x0024,",
   "\t0x24be: 0x0024,",
   "\t// Block 0x93, offset 0x24c0",
   "\t0x24c1: 0x0024,",
   "\t// Block 0x94, offset 0x2500",
   "\t0x251f: 0x0024, 0x2520: 0x2000, 0x2521: 0x2000, 0x2522: 0x2000, 0x2523: 0x0024,",
   "\t0x2524: 0x0024, 0x2525: 0x0024, 0x2526: 0x0024, 0x2527: 0x0024, 0x2528: 0x0024, 0x2529: 0x0024,",
   "\t0x252a: 0x0024,",
   "\t// Block 0x95, offset 0x2540",
   "\t0x2540: 0x0024, 0x2541: 0x0024, 0x2542: 0x2000, 0x2543: 0x2000,",
   "\t0x257b: 0x0024,",
   "\t0x257c: 0x0024, 0x257e: 0x0024, 0x257f: 0x2000,",
   "\t// Block 0x96, offset 0x2580",
   "\t0x2580: 0x0024, 0x2581: 0x2000, 0x2582: 0x2000, 0x2583: 0x2000, 0x2584: 0x2000,",
   "\t0x2587: 0x2000, 0x2588: 0x2000, 0x258b: 0x2000,",
   "\t0x258c: 0x2000, 0x258d: 0x0024,",
   "\t0x2597: 0x0024,",
   "\t0x25a2: 0x2000, 0x25a3: 0x2000,",
   "\t0x25a6: 0x0024, 0x25a7: 0x0024, 0x25a8: 0x0024, 0x25a9: 0x0024,",
   "\t0x25aa: 0x0024, 0x25ab: 0x0024, 0x25ac: 0x0024,",
   "\t0x25b0: 0x0024, 0x25b1: 0x0024, 0x25b2: 0x0024, 0x25b3: 0x0024, 0x25b4: 0x0024,",
   "\t// Block 0x97, offset 0x25c0",
   "\t0x25c0: 0x0010, 0x25c1: 0x0010, 0x25c2: 0x0010, 0x25c3: 0x0010, 0x25c4: 0x0010, 0x25c5: 0x0010,",
   "\t0x25c6: 0x0010, 0x25c7: 0x0010, 0x25c8: 0x0010, 0x25c9: 0x0010, 0x25cb: 0x0010,",
   "\t0x25ce: 0x0010, 0x25d0: 0x0010, 0x25d1: 0x0010,",
   "\t0x25d2: 0x0010, 0x25d3: 0x0010, 0x25d4: 0x0010, 0x25d5: 0x0010, 0x25d6: 0x0010, 0x25d7: 0x0010,",
   "\t0x25d8: 0x0010, 0x25d9: 0x0010, 0x25da: 0x0010, 0x25db: 0x0010, 0x25dc: 0x0010, 0x25dd: 0x0010,",
   "\t0x25de: 0x0010, 0x25df: 0x0010, 0x25e0: 0x0010, 0x25e1: 0x0010, 0x25e2: 0x0010, 0x25e3: 0x0010,",
   "\t0x25e4: 0x0010, 0x25e5: 0x0010, 0x25e6: 0x0010, 0x25e7: 0x0010, 0x25e8: 0x0010, 0x25e9: 0x0010,",
   "\t0x25ea: 0x0010, 0x25eb: 0x0010, 0x25ec: 0x0010, 0x25ed: 0x0010, 0x25ee: 0x0010, 0x25ef: 0x0010,",
   "\t0x25f0: 0x0010, 0x25f1: 0x0010, 0x25f2: 0x0010, 0x25f3: 0x0010, 0x25f4: 0x0010, 0x25f5: 0x0010,",
   "\t0x25f8: 0x0024, 0x25f9: 0x2000, 0x25fa: 0x2000, 0x25fb: 0x0024,",
   "\t0x25fc: 0x0024, 0x25fd: 0x0024, 0x25fe: 0x0024, 0x25ff: 0x0024,",
   "\t// Block 0x98, offset 0x2600",
   "\t0x2600: 0x0024, 0x2602: 0x0024, 0x2605: 0x0024,",
   "\t0x2607: 0x0024, 0x2608: 0x0024, 0x2609: 0x0024, 0x260a: 0x2000,",
   "\t0x260c: 0x2000, 0x260d: 0x2000, 0x260e: 0x0024, 0x260f: 0x0024, 0x2610: 0x0044, 0x2611: 0x0800,",
   "\t0x2612: 0x0024,",
   "\t0x2621: 0x0024, 0x2622: 0x0024,",
   "\t// Block 0x99, offset 0x2640",
   "\t0x2675: 0x2000,",
   "\t0x2676: 0x2000, 0x2677: 0x2000, 0x2678: 0x0024, 0x2679: 0x0024, 0x267a: 0x0024, 0x267b: 0x0024,",
   "\t0x267c: 0x0024, 0x267d: 0x0024, 0x267e: 0x0024, 0x267f: 0x0024,",
   "\t// Block 0x9a, offset 0x2680",
   "\t0x2680: 0x2000, 0x2681: 0x2000, 0x2682: 0x0024, 0x2683: 0x0024, 0x2684: 0x0024, 0x2685: 0x2000,",
   "\t0x2686: 0x0024,",
   "\t0x269e: 0x0024,",
   "\t// Block 0x9b, offset 0x26c0",
   "\t0x26f0: 0x0024, 0x26f1: 0x2000, 0x26f2: 0x2000, 0x26f3: 0x0024, 0x26f4: 0x0024, 0x26f5: 0x0024,",
   "\t0x26f6: 0x0024, 0x26f7: 0x0024, 0x26f8: 0x0024, 0x26f9: 0x2000, 0x26fa: 0x0024, 0x26fb: 0x2000,",
   "\t0x26fc: 0x2000, 0x26fd: 0x0024, 0x26fe: 0x2000, 0x26ff: 0x0024,",
   "\t// Block 0x9c, offset 0x2700",
   "\t0x2700: 0x0024, 0x2701: 0x2000, 0x2702: 0x0024, 0x2703: 0x0024,",
   "\t// Block 0x9d, offset 0x2740",
   "\t0x276f: 0x0024,",
   "\t0x2770: 0x2000, 0x2771: 0x2000, 0x2772: 0x0024, 0x2773: 0x0024, 0x2774: 0x0024, 0x2775: 0x0024,",
   "\t0x2778: 0x2000, 0x2779: 0x2000, 0x277a: 0x2000, 0x277b: 0x2000,",
   "\t0x277c: 0x0024, 0x277d: 0x0024, 0x277e: 0x2000, 0x277f: 0x0024,",
   "\t// Block 0x9e, offset 0x2780",
   "\t0x2780: 0x0024,",
   "\t0x279c: 0x0024, 0x279d: 0x0024,",
   "\t// Block 0x9f, offset 0x27c0",
   "\t0x27f0: 0x2000, 0x27f1: 0x2000, 0x27f2: 0x2000, 0x27f3: 0x0024, 0x27f4: 0x0024, 0x27f5: 0x0024,",
   "\t0x27f6: 0x0024, 0x27f7: 0x0024, 0x27f8: 0x0024, 0x27f9: 0x0024, 0x27fa: 0x0024, 0x27fb: 0x2000,",
   "\t0x27fc: 0x2000, 0x27fd: 0x0024, 0x27fe: 0x2000, 0x27ff: 0x0024,"]
theorem v9_eq : v9 = (layout 6 4 144 ((Table.Values.blocks.drop 144).take 16)).map String.ofList := by
  kernel_rfl
/-- graphemes/trie.go:1083-1173, `graphemesValues` from block 0xa0 on. -/
def v10 : List String :=
  ["\t// Block 0xa0, offset 0x2800",
   "\t0x2800: 0x0024,",
   "\t// Block 0xa1, offset 0x2840",
   "\t0x286b: 0x0024, 0x286c: 0x2000, 0x286d: 0x0024, 0x286e: 0x2000, 0x286f: 0x2000,",
   "\t0x2870: 0x0024, 0x2871: 0x0024, 0x2872: 0x0024, 0x2873: 0x0024, 0x2874: 0x0024, 0x2875: 0x0024,",
   "\t0x2876: 0x0024, 0x2877: 0x0024,",
   "\t// Block 0xa2, offset 0x2880",
   "\t0x289d: 0x0024,",
   "\t0x289e: 0x2000, 0x289f: 0x0024, 0x28a2: 0x0024, 0x28a3: 0x0024,",
   "\t0x28a4: 0x0024, 0x28a5: 0x0024, 0x28a6: 0x2000, 0x28a7: 0x0024, 0x28a8: 0x0024, 0x28a9: 0x0024,",
   "\t0x28aa: 0x0024, 0x28ab: 0x0024,",
   "\t// Block 0xa3, offset 0x28c0",
   "\t0x28ec: 0x2000, 0x28ed: 0x2000, 0x28ee: 0x2000, 0x28ef: 0x0024,",
   "\t0x28f0: 0x0024, 0x28f1: 0x0024, 0x28f2: 0x0024, 0x28f3: 0x0024, 0x28f4: 0x0024, 0x28f5: 0x0024,",
   "\t0x28f6: 0x0024, 0x28f7: 0x0024, 0x28f8: 0x2000, 0x28f9: 0x0024, 0x28fa: 0x0024,",
   "\t// Block 0xa4, offset 0x2900",
   "\t0x2900: 0x0010, 0x2901: 0x0010, 0x2902: 0x0010, 0x2903: 0x0010, 0x2904: 0x0010, 0x2905: 0x0010,",
   "\t0x2906: 0x0010, 0x2909: 0x0010,",
   "\t0x290c: 0x0010, 0x290d: 0x0010, 0x290e: 0x0010, 0x290f: 0x0010, 0x2910: 0x0010, 0x2911: 0x0010,",
   "\t0x2912: 0x0010, 0x2913: 0x0010, 0x2915: 0x0010, 0x2916: 0x0010,",
   "\t0x2918: 0x0010, 0x2919: 0x0010, 0x291a: 0x0010, 0x291b: 0x0010, 0x291c: 0x0010, 0x291d: 0x0010,",
   "\t0x291e: 0x0010, 0x291f: 0x0010, 0x2920: 0x0010, 0x2921: 0x0010, 0x2922: 0x0010, 0x2923: 0x0010,",
   "\t0x2924: 0x0010, 0x2925: 0x0010, 0x2926: 0x0010, 0x2927: 0x0010, 0x2928: 0x0010, 0x2929: 0x0010,",
   "\t0x292a: 0x0010, 0x292b: 0x0010, 0x292c: 0x0010, 0x292d: 0x0010, 0x292e: 0x0010, 0x292f: 0x0010,",
   "\t0x2930: 0x0024, 0x2931: 0x2000, 0x2932: 0x2000, 0x2933: 0x2000, 0x2934: 0x2000, 0x2935: 0x2000,",
   "\t0x2937: 0x2000, 0x2938: 0x2000, 0x293b: 0x0024,",
   "\t0x293c: 0x0024, 0x293d: 0x0024, 0x293e: 0x0044, 0x293f: 0x0800,",
   "\t// Block 0xa5, offset 0x2940",
   "\t0x2940: 0x2000, 0x2941: 0x0800, 0x2942: 0x2000, 0x2943: 0x0024,",
   "\t// Block 0xa6, offset 0x2980",
   "\t0x2991: 0x2000,",
   "\t0x2992: 0x2000, 0x2993: 0x2000, 0x2994: 0x0024, 0x2995: 0x0024, 0x2996: 0x0024, 0x2997: 0x0024,",
   "\t0x299a: 0x0024, 0x299b: 0x0024, 0x299c: 0x2000, 0x299d: 0x2000,",
   "\t0x299e: 0x2000, 0x299f: 0x2000, 0x29a0: 0x0024,",
   "\t0x29a4: 0x2000,",
   "\t// Block 0xa7, offset 0x29c0",
   "\t0x29c0: 0x0010, 0x29c1: 0x0024, 0x29c2: 0x0024, 0x29c3: 0x0024, 0x29c4: 0x0024, 0x29c5: 0x0024,",
   "\t0x29c6: 0x0024, 0x29c7: 0x0024, 0x29c8: 0x0024, 0x29c9: 0x0024, 0x29ca: 0x0024, 0x29cb: 0x0010,",
   "\t0x29cc: 0x0010, 0x29cd: 0x0010, 0x29ce: 0x0010, 0x29cf: 0x0010, 0x29d0: 0x0010, 0x29d1: 0x0010,",
   "\t0x29d2: 0x0010, 0x29d3: 0x0010, 0x29d4: 0x0010, 0x29d5: 0x0010, 0x29d6: 0x0010, 0x29d7: 0x0010,",
   "\t0x29d8: 0x0010, 0x29d9: 0x0010, 0x29da: 0x0010, 0x29db: 0x0010, 0x29dc: 0x0010, 0x29dd: 0x0010,",
   "\t0x29de: 0x0010, 0x29df: 0x0010, 0x29e0: 0x0010, 0x29e1: 0x0010, 0x29e2: 0x0010, 0x29e3: 0x0010,",
   "\t0x29e4: 0x0010, 0x29e5: 0x0010, 0x29e6: 0x0010, 0x29e7: 0x0010, 0x29e8: 0x0010, 0x29e9: 0x0010,",
   "\t0x29ea: 0x0010, 0x29eb: 0x0010, 0x29ec: 0x0010, 0x29ed: 0x0010, 0x29ee: 0x0010, 0x29ef: 0x0010,",
   "\t0x29f0: 0x0010, 0x29f1: 0x0010, 0x29f2: 0x0010, 0x29f3: 0x0024, 0x29f4: 0x0024, 0x29f5: 0x0024,",
   "\t0x29f6: 0x0024, 0x29f7: 0x0024, 0x29f8: 0x0024, 0x29f9: 0x2000, 0x29fb: 0x0024,",
   "\t0x29fc: 0x0024, 0x29fd: 0x0024, 0x29fe: 0x0024,",
   "\t// Block 0xa8, offset 0x2a00",
   "\t0x2a07: 0x0044,",
   "\t0x2a10: 0x0010, 0x2a11: 0x0024,",
   "\t0x2a12: 0x0024, 0x2a13: 0x0024, 0x2a14: 0x0024, 0x2a15: 0x0024, 0x2a16: 0x0024, 0x2a17: 0x2000,",
   "\t0x2a18: 0x2000, 0x2a19: 0x0024, 0x2a1a: 0x0024, 0x2a1b: 0x0024, 0x2a1c: 0x0010, 0x2a1d: 0x0010,",
   "\t0x2a1e: 0x0010, 0x2a1f: 0x0010, 0x2a20: 0x0010, 0x2a21: 0x0010, 0x2a22: 0x0010, 0x2a23: 0x0010,",
   "\t0x2a24: 0x0010, 0x2a25: 0x0010, 0x2a26: 0x0010, 0x2a27: 0x0010, 0x2a28: 0x0010, 0x2a29: 0x0010,",
   "\t0x2a2a: 0x0010, 0x2a2b: 0x0010, 0x2a2c: 0x0010, 0x2a2d: 0x0010, 0x2a2e: 0x0010, 0x2a2f: 0x0010,",
   "\t0x2a30: 0x0010, 0x2a31: 0x0010, 0x2a32: 0x0010, 0x2a33: 0x0010, 0x2a34: 0x0010, 0x2a35: 0x0010,",
   "\t0x2a36: 0x0010, 0x2a37: 0x0010, 0x2a38: 0x0010, 0x2a39: 0x0010, 0x2a3a: 0x0010, 0x2a3b: 0x0010,",
   "\t0x2a3c: 0x0010, 0x2a3d: 0x0010, 0x2a3e: 0x0010, 0x2a3f: 0x0010,",
   "\t// Block 0xa9, offset 0x2a40",
   "\t0x2a40: 0x0010, 0x2a41: 0x0010, 0x2a42: 0x0010, 0x2a43: 0x0010, 0x2a44: 0x0800, 0x2a45: 0x0800,",
   "\t0x2a46: 0x0800, 0x2a47: 0x0800, 0x2a48: 0x0800, 0x2a49: 0x0800, 0x2a4a: 0x0024, 0x2a4b: 0x0024,",
   "\t0x2a4c: 0x0024, 0x2a4d: 0x0024, 0x2a4e: 0x0024, 0x2a4f: 0x0024, 0x2a50: 0x0024, 0x2a51: 0x0024,",
   "\t0x2a52: 0x0024, 0x2a53: 0x0024, 0x2a54: 0x0024, 0x2a55: 0x0024, 0x2a56: 0x0024, 0x2a57: 0x2000,",
   "\t0x2a58: 0x0024, 0x2a59: 0x0044,",
   "\t// Block 0xaa, offset 0x2a80",
   "\t0x2aa0: 0x0024, 0x2aa1: 0x2000, 0x2aa2: 0x0024, 0x2aa3: 0x0024,",
   "\t0x2aa4: 0x0024, 0x2aa5: 0x2000, 0x2aa6: 0x0024, 0x2aa7: 0x2000,",
   "\t// Block 0xab, offset 0x2ac0",
   "\t0x2aef: 0x2000,",
   "\t0x2af0: 0x0024, 0x2af1: 0x0024, 0x2af2: 0x0024, 0x2af3: 0x0024, 0x2af4: 0x0024, 0x2af5: 0x0024,",
   "\t0x2af6: 0x0024, 0x2af8: 0x0024, 0x2af9: 0x0024, 0x2afa: 0x0024, 0x2afb: 0x0024,",
   "\t0x2afc: 0x0024, 0x2afd: 0x0024, 0x2afe: 0x2000, 0x2aff: 0x0024,",
   "\t// Block 0xac, offset 0x2b00",
   "\t0x2b12: 0x0024, 0x2b13: 0x0024, 0x2b14: 0x0024, 0x2b15: 0x0024, 0x2b16: 0x0024, 0x2b17: 0x0024,",
   "\t0x2b18: 0x0024, 0x2b19: 0x0024, 0x2b1a: 0x0024, 0x2b1b: 0x0024, 0x2b1c: 0x0024, 0x2b1d: 0x0024,",
   "\t0x2b1e: 0x0024, 0x2b1f: 0x0024, 0x2b20: 0x0024, 0x2b21: 0x0024, 0x2b22: 0x0024, 0x2b23: 0x0024,",
   "\t0x2b24: 0x0024, 0x2b25: 0x0024, 0x2b26: 0x0024, 0x2b27: 0x0024, 0x2b29: 0x2000,",
   "\t0x2b2a: 0x0024, 0x2b2b: 0x0024, 0x2b2c: 0x0024, 0x2b2d: 0x0024, 0x2b2e: 0x0024, 0x2b2f: 0x0024,",
   "\t0x2b30: 0x0024, 0x2b31: 0x2000, 0x2b32: 0x0024, 0x2b33: 0x0024, 0x2b34: 0x2000, 0x2b35: 0x0024,",
   "\t0x2b36: 0x0024,",
   "\t// Block 0xad, offset 0x2b40",
   "\t0x2b71: 0x0024, 0x2b72: 0x0024, 0x2b73: 0x0024, 0x2b74: 0x0024, 0x2b75: 0x0024,",
   "\t0x2b76: 0x0024, 0x2b7a: 0x0024,",
   "\t0x2b7c: 0x0024, 0x2b7d: 0x0024, 0x2b7f: 0x0024,",
   "\t// Block 0xae, offset 0x2b80",
   "\t0x2b80: 0x0024, 0x2b81: 0x0024, 0x2b82: 0x0024, 0x2b83: 0x0024, 0x2b84: 0x0024, 0x2b85: 0x0024,",
   "\t0x2b86: 0x0800, 0x2b87: 0x0024,",
   "\t// Block 0xaf, offset 0x2bc0",
   "\t0x2bca: 0x2000, 0x2bcb: 0x2000,",
   "\t0x2bcc: 0x2000, 0x2bcd: 0x2000, 0x2bce: 0x2000, 0x2bd0: 0x0024, 0x2bd1: 0x0024,",
   "\t0x2bd3: 0x2000, 0x2bd4: 0x2000, 0x2bd5: 0x0024, 0x2bd6: 0x2000, 0x2bd7: 0x0024,"]
theorem v10_eq : v10 = (layout 6 4 160 ((Table.Values.blocks.drop 160).take 16)).map String.ofList := by
  kernel_rfl
/-- graphemes/trie.go:1174-1255, `graphemesValues` from block 0xb0 on. -/
def v11 : List String :=
  ["\t// Block 0xb0, offset 0x2c00",
   "\t0x2c33: 0x0024, 0x2c34: 0x0024, 0x2c35: 0x2000,",
   "\t0x2c36: 0x2000,",
   "\t// Block 0xb1, offset 0x2c40",
   "\t0x2c40: 0x0024, 0x2c41: 0x0024, 0x2c42: 0x0800, 0x2c43: 0x2000, 0x2c44: 0x0010, 0x2c45: 0x0010,",
   "\t0x2c46: 0x0010, 0x2c47: 0x0010, 0x2c48: 0x0010, 0x2c49: 0x0010, 0x2c4a: 0x0010, 0x2c4b: 0x0010,",
   "\t0x2c4c: 0x0010, 0x2c4d: 0x0010, 0x2c4e: 0x0010, 0x2c4f: 0x0010, 0x2c50: 0x0010,",
   "\t0x2c52: 0x0010, 0x2c53: 0x0010, 0x2c54: 0x0010, 0x2c55: 0x0010, 0x2c56: 0x0010, 0x2c57: 0x0010,",
   "\t0x2c58: 0x0010, 0x2c59: 0x0010, 0x2c5a: 0x0010, 0x2c5b: 0x0010, 0x2c5c: 0x0010, 0x2c5d: 0x0010,",
   "\t0x2c5e: 0x0010, 0x2c5f: 0x0010, 0x2c60: 0x0010, 0x2c61: 0x0010, 0x2c62: 0x0010, 0x2c63: 0x0010,",
   "\t0x2c64: 0x0010, 0x2c65: 0x0010, 0x2c66: 0x0010, 0x2c67: 0x0010, 0x2c68: 0x0010, 0x2c69: 0x0010,",
   "\t0x2c6a: 0x0010, 0x2c6b: 0x0010, 0x2c6c: 0x0010, 0x2c6d: 0x0010, 0x2c6e: 0x0010, 0x2c6f: 0x0010,",
   "\t0x2c70: 0x0010, 0x2c71: 0x0010, 0x2c72: 0x0010, 0x2c73: 0x0010, 0x2c74: 0x2000, 0x2c75: 0x2000,",
   "\t0x2c76: 0x0024, 0x2c77: 0x0024, 0x2c78: 0x0024, 0x2c79: 0x0024, 0x2c7a: 0x0024,",
   "\t0x2c7e: 0x2000, 0x2c7f: 0x2000,",
   "\t// Block 0xb2, offset 0x2c80",
   "\t0x2c80: 0x0024, 0x2c81: 0x0024, 0x2c82: 0x0044,",
   "\t0x2c9a: 0x0024,",
   "\t// Block 0xb3, offset 0x2cc0",
   "\t0x2cf0: 0x0002, 0x2cf1: 0x0002, 0x2cf2: 0x0002, 0x2cf3: 0x0002, 0x2cf4: 0x0002, 0x2cf5: 0x0002,",
   "\t0x2cf6: 0x0002, 0x2cf7: 0x0002, 0x2cf8: 0x0002, 0x2cf9: 0x0002, 0x2cfa: 0x0002, 0x2cfb: 0x0002,",
   "\t0x2cfc: 0x0002, 0x2cfd: 0x0002, 0x2cfe: 0x0002, 0x2cff: 0x0002,",
   "\t// Block 0xb4, offset 0x2d00",
   "\t0x2d00: 0x0024,",
   "\t0x2d07: 0x0024, 0x2d08: 0x0024, 0x2d09: 0x0024, 0x2d0a: 0x0024, 0x2d0b: 0x0024,",
   "\t0x2d0c: 0x0024, 0x2d0d: 0x0024, 0x2d0e: 0x0024, 0x2d0f: 0x0024, 0x2d10: 0x0024, 0x2d11: 0x0024,",
   "\t0x2d12: 0x0024, 0x2d13: 0x0024, 0x2d14: 0x0024, 0x2d15: 0x0024,",
   "\t// Block 0xb5, offset 0x2d40",
   "\t0x2d5e: 0x0024, 0x2d5f: 0x0024, 0x2d60: 0x0024, 0x2d61: 0x0024, 0x2d62: 0x0024, 0x2d63: 0x0024,",
   "\t0x2d64: 0x0024, 0x2d65: 0x0024, 0x2d66: 0x0024, 0x2d67: 0x0024, 0x2d68: 0x0024, 0x2d69: 0x0024,",
   "\t0x2d6a: 0x2000, 0x2d6b: 0x2000, 0x2d6c: 0x2000, 0x2d6d: 0x0024, 0x2d6e: 0x0024, 0x2d6f: 0x0024,",
   "\t// Block 0xb6, offset 0x2d80",
   "\t0x2db0: 0x0024, 0x2db1: 0x0024, 0x2db2: 0x0024, 0x2db3: 0x0024, 0x2db4: 0x0024,",
   "\t// Block 0xb7, offset 0x2dc0",
   "\t0x2df0: 0x0024, 0x2df1: 0x0024, 0x2df2: 0x0024, 0x2df3: 0x0024, 0x2df4: 0x0024, 0x2df5: 0x0024,",
   "\t0x2df6: 0x0024,",
   "\t// Block 0xb8, offset 0x2e00",
   "\t0x2e23: 0x8000,",
   "\t0x2e27: 0x8000, 0x2e28: 0x8000, 0x2e29: 0x8000,",
   "\t0x2e2a: 0x8000,",
   "\t// Block 0xb9, offset 0x2e40",
   "\t0x2e4f: 0x0024, 0x2e51: 0x2000,",
   "\t0x2e52: 0x2000, 0x2e53: 0x2000, 0x2e54: 0x2000, 0x2e55: 0x2000, 0x2e56: 0x2000, 0x2e57: 0x2000,",
   "\t0x2e58: 0x2000, 0x2e59: 0x2000, 0x2e5a: 0x2000, 0x2e5b: 0x2000, 0x2e5c: 0x2000, 0x2e5d: 0x2000,",
   "\t0x2e5e: 0x2000, 0x2e5f: 0x2000, 0x2e60: 0x2000, 0x2e61: 0x2000, 0x2e62: 0x2000, 0x2e63: 0x2000,",
   "\t0x2e64: 0x2000, 0x2e65: 0x2000, 0x2e66: 0x2000, 0x2e67: 0x2000, 0x2e68: 0x2000, 0x2e69: 0x2000,",
   "\t0x2e6a: 0x2000, 0x2e6b: 0x2000, 0x2e6c: 0x2000, 0x2e6d: 0x2000, 0x2e6e: 0x2000, 0x2e6f: 0x2000,",
   "\t0x2e70: 0x2000, 0x2e71: 0x2000, 0x2e72: 0x2000, 0x2e73: 0x2000, 0x2e74: 0x2000, 0x2e75: 0x2000,",
   "\t0x2e76: 0x2000, 0x2e77: 0x2000, 0x2e78: 0x2000, 0x2e79: 0x2000, 0x2e7a: 0x2000, 0x2e7b: 0x2000,",
   "\t0x2e7c: 0x2000, 0x2e7d: 0x2000, 0x2e7e: 0x2000, 0x2e7f: 0x2000,",
   "\t// Block 0xba, offset 0x2e80",
   "\t0x2e80: 0x2000, 0x2e81: 0x2000, 0x2e82: 0x2000, 0x2e83: 0x2000, 0x2e84: 0x2000, 0x2e85: 0x2000,",
   "\t0x2e86: 0x2000, 0x2e87: 0x2000,",
   "\t0x2e8f: 0x0024, 0x2e90: 0x0024, 0x2e91: 0x0024,",
   "\t0x2e92: 0x0024,",
   "\t// Block 0xbb, offset 0x2ec0",
   "\t0x2ee4: 0x0024,",
   "\t0x2ef0: 0x0024, 0x2ef1: 0x0024,",
   "\t// Block 0xbc, offset 0x2f00",
   "\t0x2f1d: 0x0024,",
   "\t0x2f1e: 0x0024, 0x2f20: 0x0002, 0x2f21: 0x0002, 0x2f22: 0x0002, 0x2f23: 0x0002,",
   "\t// Block 0xbd, offset 0x2f40",
   "\t0x2f40: 0x0024, 0x2f41: 0x0024, 0x2f42: 0x0024, 0x2f43: 0x0024, 0x2f44: 0x0024, 0x2f45: 0x0024,",
   "\t0x2f46: 0x0024, 0x2f47: 0x0024, 0x2f48: 0x0024, 0x2f49: 0x0024, 0x2f4a: 0x0024, 0x2f4b: 0x0024,",
   "\t0x2f4c: 0x0024, 0x2f4d: 0x0024, 0x2f4e: 0x0024, 0x2f4f: 0x0024, 0x2f50: 0x0024, 0x2f51: 0x0024,",
   "\t0x2f52: 0x0024, 0x2f53: 0x0024, 0x2f54: 0x0024, 0x2f55: 0x0024, 0x2f56: 0x0024, 0x2f57: 0x0024,",
   "\t0x2f58: 0x0024, 0x2f59: 0x0024, 0x2f5a: 0x0024, 0x2f5b: 0x0024, 0x2f5c: 0x0024, 0x2f5d: 0x0024,",
   "\t0x2f5e: 0x0024, 0x2f5f: 0x0024, 0x2f60: 0x0024, 0x2f61: 0x0024, 0x2f62: 0x0024, 0x2f63: 0x0024,",
   "\t0x2f64: 0x0024, 0x2f65: 0x0024, 0x2f66: 0x0024, 0x2f67: 0x0024, 0x2f68: 0x0024, 0x2f69: 0x0024,",
   "\t0x2f6a: 0x0024, 0x2f6b: 0x0024, 0x2f6c: 0x0024, 0x2f6d: 0x0024,",
   "\t0x2f70: 0x0024, 0x2f71: 0x0024, 0x2f72: 0x0024, 0x2f73: 0x0024, 0x2f74: 0x0024, 0x2f75: 0x0024,",
   "\t0x2f76: 0x0024, 0x2f77: 0x0024, 0x2f78: 0x0024, 0x2f79: 0x0024, 0x2f7a: 0x0024, 0x2f7b: 0x0024,",
   "\t0x2f7c: 0x0024, 0x2f7d: 0x0024, 0x2f7e: 0x0024, 0x2f7f: 0x0024,",
   "\t// Block 0xbe, offset 0x2f80",
   "\t0x2f80: 0x0024, 0x2f81: 0x0024, 0x2f82: 0x0024, 0x2f83: 0x0024, 0x2f84: 0x0024, 0x2f85: 0x0024,",
   "\t0x2f86: 0x0024,",
   "\t// Block 0xbf, offset 0x2fc0",
   "\t0x2fe5: 0x0024, 0x2fe6: 0x0024, 0x2fe7: 0x0024, 0x2fe8: 0x0024, 0x2fe9: 0x0024,",
   "\t0x2fed: 0x0024, 0x2fee: 0x0024, 0x2fef: 0x0024,",
   "\t0x2ff0: 0x0024, 0x2ff1: 0x0024, 0x2ff2: 0x0024, 0x2ff3: 0x0002, 0x2ff4: 0x0002, 0x2ff5: 0x0002,",
   "\t0x2ff6: 0x0002, 0x2ff7: 0x0002, 0x2ff8: 0x0002, 0x2ff9: 0x0002, 0x2ffa: 0x0002, 0x2ffb: 0x0024,",
   "\t0x2ffc: 0x0024, 0x2ffd: 0x0024, 0x2ffe: 0x0024, 0x2fff: 0x0024,"]
theorem v11_eq : v11 = (layout 6 4 176 ((Table.Values.blocks.drop 176).take 16)).map String.ofList := by
  kernel_rfl
/-- graphemes/trie.go:1256-1331, `graphemesValues` from block 0xc0 on. -/
def v12 : List String :=
  ["\t// Block 0xc0, offset 0x3000",
   "\t0x3000: 0x0024, 0x3001: 0x0024, 0x3002: 0x0024, 0x3005: 0x0024,",
   "\t0x3006: 0x0024, 0x3007: 0x0024, 0x3008: 0x0024, 0x3009: 0x0024, 0x300a: 0x0024, 0x300b: 0x0024,",
   "\t0x302a: 0x0024, 0x302b: 0x0024, 0x302c: 0x0024, 0x302d: 0x0024,",
   "\t// Block 0xc1, offset 0x3040",
   "\t0x3042: 0x0024, 0x3043: 0x0024, 0x3044: 0x0024,",
   "\t// Block 0xc2, offset 0x3080",
   "\t0x3080: 0x0024, 0x3081: 0x0024, 0x3082: 0x0024, 0x3083: 0x0024, 0x3084: 0x0024, 0x3085: 0x0024,",
   "\t0x3086: 0x0024, 0x3087: 0x0024, 0x3088: 0x0024, 0x3089: 0x0024, 0x308a: 0x0024, 0x308b: 0x0024,",
   "\t0x308c: 0x0024, 0x308d: 0x0024, 0x308e: 0x0024, 0x308f: 0x0024, 0x3090: 0x0024, 0x3091: 0x0024,",
   "\t0x3092: 0x0024, 0x3093: 0x0024, 0x3094: 0x0024, 0x3095: 0x0024, 0x3096: 0x0024, 0x3097: 0x0024,",
   "\t0x3098: 0x0024, 0x3099: 0x0024, 0x309a: 0x0024, 0x309b: 0x0024, 0x309c: 0x0024, 0x309d: 0x0024,",
   "\t0x309e: 0x0024, 0x309f: 0x0024, 0x30a0: 0x0024, 0x30a1: 0x0024, 0x30a2: 0x0024, 0x30a3: 0x0024,",
   "\t0x30a4: 0x0024, 0x30a5: 0x0024, 0x30a6: 0x0024, 0x30a7: 0x0024, 0x30a8: 0x0024, 0x30a9: 0x0024,",
   "\t0x30aa: 0x0024, 0x30ab: 0x0024, 0x30ac: 0x0024, 0x30ad: 0x0024, 0x30ae: 0x0024, 0x30af: 0x0024,",
   "\t0x30b0: 0x0024, 0x30b1: 0x0024, 0x30b2: 0x0024, 0x30b3: 0x0024, 0x30b4: 0x0024, 0x30b5: 0x0024,",
   "\t0x30b6: 0x0024, 0x30bb: 0x0024,",
   "\t0x30bc: 0x0024, 0x30bd: 0x0024, 0x30be: 0x0024, 0x30bf: 0x0024,",
   "\t// Block 0xc3, offset 0x30c0",
   "\t0x30c0: 0x0024, 0x30c1: 0x0024, 0x30c2: 0x0024, 0x30c3: 0x0024, 0x30c4: 0x0024, 0x30c5: 0x0024,",
   "\t0x30c6: 0x0024, 0x30c7: 0x0024, 0x30c8: 0x0024, 0x30c9: 0x0024, 0x30ca: 0x0024, 0x30cb: 0x0024,",
   "\t0x30cc: 0x0024, 0x30cd: 0x0024, 0x30ce: 0x0024, 0x30cf: 0x0024, 0x30d0: 0x0024, 0x30d1: 0x0024,",
   "\t0x30d2: 0x0024, 0x30d3: 0x0024, 0x30d4: 0x0024, 0x30d5: 0x0024, 0x30d6: 0x0024, 0x30d7: 0x0024,",
   "\t0x30d8: 0x0024, 0x30d9: 0x0024, 0x30da: 0x0024, 0x30db: 0x0024, 0x30dc: 0x0024, 0x30dd: 0x0024,",
   "\t0x30de: 0x0024, 0x30df: 0x0024, 0x30e0: 0x0024, 0x30e1: 0x0024, 0x30e2: 0x0024, 0x30e3: 0x0024,",
   "\t0x30e4: 0x0024, 0x30e5: 0x0024, 0x30e6: 0x0024, 0x30e7: 0x0024, 0x30e8: 0x0024, 0x30e9: 0x0024,",
   "\t0x30ea: 0x0024, 0x30eb: 0x0024, 0x30ec: 0x0024,",
   "\t0x30f5: 0x0024,",
   "\t// Block 0xc4, offset 0x3100",
   "\t0x3104: 0x0024,",
   "\t0x311b: 0x0024, 0x311c: 0x0024, 0x311d: 0x0024,",
   "\t0x311e: 0x0024, 0x311f: 0x0024, 0x3121: 0x0024, 0x3122: 0x0024, 0x3123: 0x0024,",
   "\t0x3124: 0x0024, 0x3125: 0x0024, 0x3126: 0x0024, 0x3127: 0x0024, 0x3128: 0x0024, 0x3129: 0x0024,",
   "\t0x312a: 0x0024, 0x312b: 0x0024, 0x312c: 0x0024, 0x312d: 0x0024, 0x312e: 0x0024, 0x312f: 0x0024,",
   "\t// Block 0xc5, offset 0x3140",
   "\t0x3140: 0x0024, 0x3141: 0x0024, 0x3142: 0x0024, 0x3143: 0x0024, 0x3144: 0x0024, 0x3145: 0x0024,",
   "\t0x3146: 0x0024, 0x3148: 0x0024, 0x3149: 0x0024, 0x314a: 0x0024, 0x314b: 0x0024,",
   "\t0x314c: 0x0024, 0x314d: 0x0024, 0x314e: 0x0024, 0x314f: 0x0024, 0x3150: 0x0024, 0x3151: 0x0024,",
   "\t0x3152: 0x0024, 0x3153: 0x0024, 0x3154: 0x0024, 0x3155: 0x0024, 0x3156: 0x0024, 0x3157: 0x0024,",
   "\t0x3158: 0x0024, 0x315b: 0x0024, 0x315c: 0x0024, 0x315d: 0x0024,",
   "\t0x315e: 0x0024, 0x315f: 0x0024, 0x3160: 0x0024, 0x3161: 0x0024, 0x3163: 0x0024,",
   "\t0x3164: 0x0024, 0x3166: 0x0024, 0x3167: 0x0024, 0x3168: 0x0024, 0x3169: 0x0024,",
   "\t0x316a: 0x0024,",
   "\t// Block 0xc6, offset 0x3180",
   "\t0x318f: 0x0024,",
   "\t// Block 0xc7, offset 0x31c0",
   "\t0x31ee: 0x0024,",
   "\t// Block 0xc8, offset 0x3200",
   "\t0x322c: 0x0024, 0x322d: 0x0024, 0x322e: 0x0024, 0x322f: 0x0024,",
   "\t// Block 0xc9, offset 0x3240",
   "\t0x326e: 0x0024, 0x326f: 0x0024,",
   "\t// Block 0xca, offset 0x3280",
   "\t0x32a3: 0x0024,",
   "\t0x32a6: 0x0024,",
   "\t0x32ae: 0x0024, 0x32af: 0x0024,",
   "\t0x32b5: 0x0024,",
   "\t// Block 0xcb, offset 0x32c0",
   "\t0x32d0: 0x0024, 0x32d1: 0x0024,",
   "\t0x32d2: 0x0024, 0x32d3: 0x0024, 0x32d4: 0x0024, 0x32d5: 0x0024, 0x32d6: 0x0024,",
   "\t// Block 0xcc, offset 0x3300",
   "\t0x3304: 0x0024, 0x3305: 0x0024,",
   "\t0x3306: 0x0024, 0x3307: 0x0024, 0x3308: 0x0024, 0x3309: 0x0024, 0x330a: 0x0024,",
   "\t// Block 0xcd, offset 0x3340",
   "\t0x3344: 0x0008,",
   "\t0x336c: 0x0008, 0x336d: 0x0008, 0x336e: 0x0008, 0x336f: 0x0008,",
   "\t// Block 0xce, offset 0x3380",
   "\t0x3394: 0x0008, 0x3395: 0x0008, 0x3396: 0x0008, 0x3397: 0x0008,",
   "\t0x3398: 0x0008, 0x3399: 0x0008, 0x339a: 0x0008, 0x339b: 0x0008, 0x339c: 0x0008, 0x339d: 0x0008,",
   "\t0x339e: 0x0008, 0x339f: 0x0008,",
   "\t0x33af: 0x0008,",
   "\t0x33b0: 0x0008,",
   "\t// Block 0xcf, offset 0x33c0",
   "\t0x33c0: 0x0008,",
   "\t0x33cf: 0x0008, 0x33d0: 0x0008,",
   "\t0x33f6: 0x0008, 0x33f7: 0x0008, 0x33f8: 0x0008, 0x33f9: 0x0008, 0x33fa: 0x0008, 0x33fb: 0x0008,",
   "\t0x33fc: 0x0008, 0x33fd: 0x0008, 0x33fe: 0x0008, 0x33ff: 0x0008,"]
theorem v12_eq : v12 = (layout 6 4 192 ((Table.Values.blocks.drop 192).take 16)).map String.ofList := by
  kernel_rfl
/-- graphemes/trie.go:1332-1490, `graphemesValues` from block 0xd0 on. -/
def v13 : List String :=
  ["\t// Block 0xd0, offset 0x3400",
   "\t0x3430: 0x0008, 0x3431: 0x0008,",
   "\t0x343e: 0x0008, 0x343f: 0x0008,",
   "\t// Block 0xd1, offset 0x3440",
   "\t0x344e: 0x0008, 0x3451: 0x0008,",
   "\t0x3452: 0x0008, 0x3453: 0x0008, 0x3454: 0x0008, 0x3455: 0x0008, 0x3456: 0x0008, 0x3457: 0x0008,",
   "\t0x3458: 0x0008, 0x3459: 0x0008, 0x345a: 0x0008,",
   "\t0x346e: 0x0008, 0x346f: 0x0008,",
   "\t0x3470: 0x0008, 0x3471: 0x0008, 0x3472: 0x0008, 0x3473: 0x0008, 0x3474: 0x0008, 0x3475: 0x0008,",
   "\t0x3476: 0x0008, 0x3477: 0x0008, 0x3478: 0x0008, 0x3479: 0x0008, 0x347a: 0x0008, 0x347b: 0x0008,",
   "\t0x347c: 0x0008, 0x347d: 0x0008, 0x347e: 0x0008, 0x347f: 0x0008,",
   "\t// Block 0xd2, offset 0x3480",
   "\t0x3480: 0x0008, 0x3481: 0x0008, 0x3482: 0x0008, 0x3483: 0x0008, 0x3484: 0x0008, 0x3485: 0x0008,",
   "\t0x3486: 0x0008, 0x3487: 0x0008, 0x3488: 0x0008, 0x3489: 0x0008, 0x348a: 0x0008, 0x348b: 0x0008,",
   "\t0x348c: 0x0008, 0x348d: 0x0008, 0x348e: 0x0008, 0x348f: 0x0008, 0x3490: 0x0008, 0x3491: 0x0008,",
   "\t0x3492: 0x0008, 0x3493: 0x0008, 0x3494: 0x0008, 0x3495: 0x0008, 0x3496: 0x0008, 0x3497: 0x0008,",
   "\t0x3498: 0x0008, 0x3499: 0x0008, 0x349a: 0x0008, 0x349b: 0x0008, 0x349c: 0x0008, 0x349d: 0x0008,",
   "\t0x349e: 0x0008, 0x349f: 0x0008, 0x34a0: 0x0008, 0x34a1: 0x0008, 0x34a2: 0x0008, 0x34a3: 0x0008,",
   "\t0x34a4: 0x0008, 0x34a5: 0x0008, 0x34a6: 0x1000, 0x34a7: 0x1000, 0x34a8: 0x1000, 0x34a9: 0x1000,",
   "\t0x34aa: 0x1000, 0x34ab: 0x1000, 0x34ac: 0x1000, 0x34ad: 0x1000, 0x34ae: 0x1000, 0x34af: 0x1000,",
   "\t0x34b0: 0x1000, 0x34b1: 0x1000, 0x34b2: 0x1000, 0x34b3: 0x1000, 0x34b4: 0x1000, 0x34b5: 0x1000,",
   "\t0x34b6: 0x1000, 0x34b7: 0x1000, 0x34b8: 0x1000, 0x34b9: 0x1000, 0x34ba: 0x1000, 0x34bb: 0x1000,",
   "\t0x34bc: 0x1000, 0x34bd: 0x1000, 0x34be: 0x1000, 0x34bf: 0x1000,",
   "\t// Block 0xd3, offset 0x34c0",
   "\t0x34c1: 0x0008, 0x34c2: 0x0008, 0x34c3: 0x0008, 0x34c4: 0x0008, 0x34c5: 0x0008,",
   "\t0x34c6: 0x0008, 0x34c7: 0x0008, 0x34c8: 0x0008, 0x34c9: 0x0008, 0x34ca: 0x0008, 0x34cb: 0x0008,",
   "\t0x34cc: 0x0008, 0x34cd: 0x0008, 0x34ce: 0x0008, 0x34cf: 0x0008,",
   "\t0x34da: 0x0008,",
   "\t0x34ef: 0x0008,",
   "\t0x34f2: 0x0008, 0x34f3: 0x0008, 0x34f4: 0x0008, 0x34f5: 0x0008,",
   "\t0x34f6: 0x0008, 0x34f7: 0x0008, 0x34f8: 0x0008, 0x34f9: 0x0008, 0x34fa: 0x0008,",
   "\t0x34fc: 0x0008, 0x34fd: 0x0008, 0x34fe: 0x0008, 0x34ff: 0x0008,",
   "\t// Block 0xd4, offset 0x3500",
   "\t0x3509: 0x0008, 0x350a: 0x0008, 0x350b: 0x0008,",
   "\t0x350c: 0x0008, 0x350d: 0x0008, 0x350e: 0x0008, 0x350f: 0x0008, 0x3510: 0x0008, 0x3511: 0x0008,",
   "\t0x3512: 0x0008, 0x3513: 0x0008, 0x3514: 0x0008, 0x3515: 0x0008, 0x3516: 0x0008, 0x3517: 0x0008,",
   "\t0x3518: 0x0008, 0x3519: 0x0008, 0x351a: 0x0008, 0x351b: 0x0008, 0x351c: 0x0008, 0x351d: 0x0008,",
   "\t0x351e: 0x0008, 0x351f: 0x0008,",
   "\t0x3526: 0x0008, 0x3527: 0x0008, 0x3528: 0x0008, 0x3529: 0x0008,",
   "\t0x352a: 0x0008, 0x352b: 0x0008, 0x352c: 0x0008, 0x352d: 0x0008, 0x352e: 0x0008, 0x352f: 0x0008,",
   "\t0x3530: 0x0008, 0x3531: 0x0008, 0x3532: 0x0008, 0x3533: 0x0008, 0x3534: 0x0008, 0x3535: 0x0008,",
   "\t0x3536: 0x0008, 0x3537: 0x0008, 0x3538: 0x0008, 0x3539: 0x0008, 0x353a: 0x0008, 0x353b: 0x0008,",
   "\t0x353c: 0x0008, 0x353d: 0x0008, 0x353e: 0x0008, 0x353f: 0x0008,",
   "\t// Block 0xd5, offset 0x3540",
   "\t0x3540: 0x0008, 0x3541: 0x0008, 0x3542: 0x0008, 0x3543: 0x0008, 0x3544: 0x0008, 0x3545: 0x0008,",
   "\t0x3546: 0x0008, 0x3547: 0x0008, 0x3548: 0x0008, 0x3549: 0x0008, 0x354a: 0x0008, 0x354b: 0x0008,",
   "\t0x354c: 0x0008, 0x354d: 0x0008, 0x354e: 0x0008, 0x354f: 0x0008, 0x3550: 0x0008, 0x3551: 0x0008,",
   "\t0x3552: 0x0008, 0x3553: 0x0008, 0x3554: 0x0008, 0x3555: 0x0008, 0x3556: 0x0008, 0x3557: 0x0008,",
   "\t0x3558: 0x0008, 0x3559: 0x0008, 0x355a: 0x0008, 0x355b: 0x0008, 0x355c: 0x0008, 0x355d: 0x0008,",
   "\t0x355e: 0x0008, 0x355f: 0x0008, 0x3560: 0x0008, 0x3561: 0x0008, 0x3562: 0x0008, 0x3563: 0x0008,",
   "\t0x3564: 0x0008, 0x3565: 0x0008, 0x3566: 0x0008, 0x3567: 0x0008, 0x3568: 0x0008, 0x3569: 0x0008,",
   "\t0x356a: 0x0008, 0x356b: 0x0008, 0x356c: 0x0008, 0x356d: 0x0008, 0x356e: 0x0008, 0x356f: 0x0008,",
   "\t0x3570: 0x0008, 0x3571: 0x0008, 0x3572: 0x0008, 0x3573: 0x0008, 0x3574: 0x0008, 0x3575: 0x0008,",
   "\t0x3576: 0x0008, 0x3577: 0x0008, 0x3578: 0x0008, 0x3579: 0x0008, 0x357a: 0x0008, 0x357b: 0x0008,",
   "\t0x357c: 0x0008, 0x357d: 0x0008, 0x357e: 0x0008, 0x357f: 0x0008,",
   "\t// Block 0xd6, offset 0x3580",
   "\t0x3580: 0x0008, 0x3581: 0x0008, 0x3582: 0x0008, 0x3583: 0x0008, 0x3584: 0x0008, 0x3585: 0x0008,",
   "\t0x3586: 0x0008, 0x3587: 0x0008, 0x3588: 0x0008, 0x3589: 0x0008, 0x358a: 0x0008, 0x358b: 0x0008,",
   "\t0x358c: 0x0008, 0x358d: 0x0008, 0x358e: 0x0008, 0x358f: 0x0008, 0x3590: 0x0008, 0x3591: 0x0008,",
   "\t0x3592: 0x0008, 0x3593: 0x0008, 0x3594: 0x0008, 0x3595: 0x0008, 0x3596: 0x0008, 0x3597: 0x0008,",
   "\t0x3598: 0x0008, 0x3599: 0x0008, 0x359a: 0x0008, 0x359b: 0x0008, 0x359c: 0x0008, 0x359d: 0x0008,",
   "\t0x359e: 0x0008, 0x359f: 0x0008, 0x35a0: 0x0008, 0x35a1: 0x0008,",
   "\t0x35a4: 0x0008, 0x35a5: 0x0008, 0x35a6: 0x0008, 0x35a7: 0x0008, 0x35a8: 0x0008, 0x35a9: 0x0008,",
   "\t0x35aa: 0x0008, 0x35ab: 0x0008, 0x35ac: 0x0008, 0x35ad: 0x0008, 0x35ae: 0x0008, 0x35af: 0x0008,",
   "\t0x35b0: 0x0008, 0x35b1: 0x0008, 0x35b2: 0x0008, 0x35b3: 0x0008, 0x35b4: 0x0008, 0x35b5: 0x0008,",
   "\t0x35b6: 0x0008, 0x35b7: 0x0008, 0x35b8: 0x0008, 0x35b9: 0x0008, 0x35ba: 0x0008, 0x35bb: 0x0008,",
   "\t0x35bc: 0x0008, 0x35bd: 0x0008, 0x35be: 0x0008, 0x35bf: 0x0008,",
   "\t// Block 0xd7, offset 0x35c0",
   "\t0x35c0: 0x0008, 0x35c1: 0x0008, 0x35c2: 0x0008, 0x35c3: 0x0008, 0x35c4: 0x0008, 0x35c5: 0x0008,",
   "\t0x35c6: 0x0008, 0x35c7: 0x0008, 0x35c8: 0x0008, 0x35c9: 0x0008, 0x35ca: 0x0008, 0x35cb: 0x0008,",
   "\t0x35cc: 0x0008, 0x35cd: 0x0008, 0x35ce: 0x0008, 0x35cf: 0x0008, 0x35d0: 0x0008, 0x35d1: 0x0008,",
   "\t0x35d2: 0x0008, 0x35d3: 0x0008, 0x35d6: 0x0008, 0x35d7: 0x0008,",
   "\t0x35d9: 0x0008, 0x35da: 0x0008, 0x35db: 0x0008,",
   "\t0x35de: 0x0008, 0x35df: 0x0008, 0x35e0: 0x0008, 0x35e1: 0x0008, 0x35e2: 0x0008, 0x35e3: 0x0008,",
   "\t0x35e4: 0x0008, 0x35e5: 0x0008, 0x35e6: 0x0008, 0x35e7: 0x0008, 0x35e8: 0x0008, 0x35e9: 0x0008,",
   "\t0x35ea: 0x0008, 0x35eb: 0x0008, 0x35ec: 0x0008, 0x35ed: 0x0008, 0x35ee: 0x0008, 0x35ef: 0x0008,",
   "\t0x35f0: 0x0008, 0x35f1: 0x0008, 0x35f2: 0x0008, 0x35f3: 0x0008, 0x35f4: 0x0008, 0x35f5: 0x0008,",
   "\t0x35f6: 0x0008, 0x35f7: 0x0008, 0x35f8: 0x0008, 0x35f9: 0x0008, 0x35fa: 0x0008, 0x35fb: 0x0008,",
   "\t0x35fc: 0x0008, 0x35fd: 0x0008, 0x35fe: 0x0008, 0x35ff: 0x0008,",
   "\t// Block 0xd8, offset 0x3600",
   "\t0x3600: 0x0008, 0x3601: 0x0008, 0x3602: 0x0008, 0x3603: 0x0008, 0x3604: 0x0008, 0x3605: 0x0008,",
   "\t0x3606: 0x0008, 0x3607: 0x0008, 0x3608: 0x0008, 0x3609: 0x0008, 0x360a: 0x0008, 0x360b: 0x0008,",
   "\t0x360c: 0x0008, 0x360d: 0x0008, 0x360e: 0x0008, 0x360f: 0x0008, 0x3610: 0x0008, 0x3611: 0x0008,",
   "\t0x3612: 0x0008, 0x3613: 0x0008, 0x3614: 0x0008, 0x3615: 0x0008, 0x3616: 0x0008, 0x3617: 0x0008,",
   "\t0x3618: 0x0008, 0x3619: 0x0008, 0x361a: 0x0008, 0x361b: 0x0008, 0x361c: 0x0008, 0x361d: 0x0008,",
   "\t0x361e: 0x0008, 0x361f: 0x0008, 0x3620: 0x0008, 0x3621: 0x0008, 0x3622: 0x0008, 0x3623: 0x0008,",
   "\t0x3624: 0x0008, 0x3625: 0x0008, 0x3626: 0x0008, 0x3627: 0x0008, 0x3628: 0x0008, 0x3629: 0x0008,",
   "\t0x362a: 0x0008, 0x362b: 0x0008, 0x362c: 0x0008, 0x362d: 0x0008, 0x362e: 0x0008, 0x362f: 0x0008,",
   "\t0x3630: 0x0008, 0x3633: 0x0008, 0x3634: 0x0008, 0x3635: 0x0008,",
   "\t0x3637: 0x0008, 0x3638: 0x0008, 0x3639: 0x0008, 0x363a: 0x0008, 0x363b: 0x0024,",
   "\t0x363c: 0x0024, 0x363d: 0x0024, 0x363e: 0x0024, 0x363f: 0x0024,",
   "\t// Block 0xd9, offset 0x3640",
   "\t0x3640: 0x0008, 0x3641: 0x0008, 0x3642: 0x0008, 0x3643: 0x0008, 0x3644: 0x0008, 0x3645: 0x0008,",
   "\t0x3646: 0x0008, 0x3647: 0x0008, 0x3648: 0x0008, 0x3649: 0x0008, 0x364a: 0x0008, 0x364b: 0x0008,",
   "\t0x364c: 0x0008, 0x364d: 0x0008, 0x364e: 0x0008, 0x364f: 0x0008, 0x3650: 0x0008, 0x3651: 0x0008,",
   "\t0x3652: 0x0008, 0x3653: 0x0008, 0x3654: 0x0008, 0x3655: 0x0008, 0x3656: 0x0008, 0x3657: 0x0008,",
   "\t0x3658: 0x0008, 0x3659: 0x0008, 0x365a: 0x0008, 0x365b: 0x0008, 0x365c: 0x0008, 0x365d: 0x0008,",
   "\t0x365e: 0x0008, 0x365f: 0x0008, 0x3660: 0x0008, 0x3661: 0x0008, 0x3662: 0x0008, 0x3663: 0x0008,",
   "\t0x3664: 0x0008, 0x3665: 0x0008, 0x3666: 0x0008, 0x3667: 0x0008, 0x3668: 0x0008, 0x3669: 0x0008,",
   "\t0x366a: 0x0008, 0x366b: 0x0008, 0x366c: 0x0008, 0x366d: 0x0008, 0x366e: 0x0008, 0x366f: 0x0008,",
   "\t0x3670: 0x0008, 0x3671: 0x0008, 0x3672: 0x0008, 0x3673: 0x0008, 0x3674: 0x0008, 0x3675: 0x0008,",
   "\t0x3676: 0x0008, 0x3677: 0x0008, 0x3678: 0x0008, 0x3679: 0x0008, 0x367a: 0x0008, 0x367b: 0x0008,",
   "\t0x367c: 0x0008, 0x367d: 0x0008, 0x367f: 0x0008,",
   "\t// Block 0xda, offset 0x3680",
   "\t0x3680: 0x0008, 0x3681: 0x0008, 0x3682: 0x0008, 0x3683: 0x0008, 0x3684: 0x0008, 0x3685: 0x0008,",
   "\t0x3686: 0x0008, 0x3687: 0x0008, 0x3688: 0x0008, 0x3689: 0x0008, 0x368a: 0x0008, 0x368b: 0x0008,",
   "\t0x368c: 0x0008, 0x368d: 0x0008, 0x368e: 0x0008, 0x368f: 0x0008, 0x3690: 0x0008, 0x3691: 0x0008,",
   "\t0x3692: 0x0008, 0x3693: 0x0008, 0x3694: 0x0008, 0x3695: 0x0008, 0x3696: 0x0008, 0x3697: 0x0008,",
   "\t0x3698: 0x0008, 0x3699: 0x0008, 0x369a: 0x0008, 0x369b: 0x0008, 0x369c: 0x0008, 0x369d: 0x0008,",
   "\t0x369e: 0x0008, 0x369f: 0x0008, 0x36a0: 0x0008, 0x36a1: 0x0008, 0x36a2: 0x0008, 0x36a3: 0x0008,",
   "\t0x36a4: 0x0008, 0x36a5: 0x0008, 0x36a6: 0x0008, 0x36a7: 0x0008, 0x36a8: 0x0008, 0x36a9: 0x0008,",
   "\t0x36aa: 0x0008, 0x36ab: 0x0008, 0x36ac: 0x0008, 0x36ad: 0x0008, 0x36ae: 0x0008, 0x36af: 0x0008,",
   "\t0x36b0: 0x0008, 0x36b1: 0x0008, 0x36b2: 0x0008, 0x36b3: 0x0008, 0x36b4: 0x0008, 0x36b5: 0x0008,",
   "\t0x36b6: 0x0008, 0x36b7: 0x0008, 0x36b8: 0x0008, 0x36b9: 0x0008, 0x36ba: 0x0008, 0x36bb: 0x0008,",
   "\t0x36bc: 0x0008, 0x36bd: 0x0008,",
   "\t// Block 0xdb, offset 0x36c0",
   "\t0x36c9: 0x0008, 0x36ca: 0x0008, 0x36cb: 0x0008,",
   "\t0x36cc: 0x0008, 0x36cd: 0x0008, 0x36ce: 0x0008, 0x36d0: 0x0008, 0x36d1: 0x0008,",
   "\t0x36d2: 0x0008, 0x36d3: 0x0008, 0x36d4: 0x0008, 0x36d5: 0x0008, 0x36d6: 0x0008, 0x36d7: 0x0008,",
   "\t0x36d8: 0x0008, 0x36d9: 0x0008, 0x36da: 0x0008, 0x36db: 0x0008, 0x36dc: 0x0008, 0x36dd: 0x0008,",
   "\t0x36de: 0x0008, 0x36df: 0x0008, 0x36e0: 0x0008, 0x36e1: 0x0008, 0x36e2: 0x0008, 0x36e3: 0x0008,",
   "\t0x36e4: 0x0008, 0x36e5: 0x0008, 0x36e6: 0x0008, 0x36e7: 0x0008,",
   "\t0x36ef: 0x0008,",
   "\t0x36f0: 0x0008, 0x36f3: 0x0008, 0x36f4: 0x0008, 0x36f5: 0x0008,",
   "\t0x36f6: 0x0008, 0x36f7: 0x0008, 0x36f8: 0x0008, 0x36f9: 0x0008, 0x36fa: 0x0008,",
   "\t// Block 0xdc, offset 0x3700",
   "\t0x3707: 0x0008, 0x370a: 0x0008, 0x370b: 0x0008,",
   "\t0x370c: 0x0008, 0x370d: 0x0008, 0x3710: 0x0008,",
   "\t0x3715: 0x0008, 0x3716: 0x0008,",
   "\t0x3724: 0x0008, 0x3725: 0x0008, 0x3728: 0x0008,",
   "\t0x3731: 0x0008, 0x3732: 0x0008,",
   "\t0x373c: 0x0008,",
   "\t// Block 0xdd, offset 0x3740",
   "\t0x3742: 0x0008, 0x3743: 0x0008, 0x3744: 0x0008,",
   "\t0x3751: 0x0008,",
   "\t0x3752: 0x0008, 0x3753: 0x0008,",
   "\t0x375c: 0x0008, 0x375d: 0x0008,",
   "\t0x375e: 0x0008, 0x3761: 0x0008, 0x3763: 0x0008,",
   "\t0x3768: 0x0008,",
   "\t0x376f: 0x0008,",
   "\t0x3773: 0x0008,",
   "\t0x377a: 0x0008, 0x377b: 0x0008,",
   "\t0x377c: 0x0008, 0x377d: 0x0008, 0x377e: 0x0008, 0x377f: 0x0008,",
   "\t// Block 0xde, offset 0x3780",
   "\t0x3780: 0x0008, 0x3781: 0x0008, 0x3782: 0x0008, 0x3783: 0x0008, 0x3784: 0x0008, 0x3785: 0x0008,",
   "\t0x3786: 0x0008, 0x3787: 0x0008, 0x3788: 0x0008, 0x3789: 0x0008, 0x378a: 0x0008, 0x378b: 0x0008,",
   "\t0x378c: 0x0008, 0x378d: 0x0008, 0x378e: 0x0008, 0x378f: 0x0008,",
   "\t// Block 0xdf, offset 0x37c0",
   "\t0x37c0: 0x0008, 0x37c1: 0x0008, 0x37c2: 0x0008, 0x37c3: 0x0008, 0x37c4: 0x0008, 0x37c5: 0x0008,",
   "\t0x37cb: 0x0008,",
   "\t0x37cc: 0x0008, 0x37cd: 0x0008, 0x37ce: 0x0008, 0x37cf: 0x0008, 0x37d0: 0x0008, 0x37d1: 0x0008,",
   "\t0x37d2: 0x0008, 0x37d5: 0x0008, 0x37d6: 0x0008, 0x37d7: 0x0008,",
   "\t0x37d8: 0x0008, 0x37d9: 0x0008, 0x37da: 0x0008, 0x37db: 0x0008, 0x37dc: 0x0008, 0x37dd: 0x0008,",
   "\t0x37de: 0x0008, 0x37df: 0x0008, 0x37e0: 0x0008, 0x37e1: 0x0008, 0x37e2: 0x0008, 0x37e3: 0x0008,",
   "\t0x37e4: 0x0008, 0x37e5: 0x0008, 0x37e9: 0x0008,",
   "\t0x37eb: 0x0008, 0x37ec: 0x0008, 0x37ed: 0x0008, 0x37ee: 0x0008, 0x37ef: 0x0008,",
   "\t0x37f0: 0x0008, 0x37f3: 0x0008, 0x37f4: 0x0008, 0x37f5: 0x0008,",
   "\t0x37f6: 0x0008, 0x37f7: 0x0008, 0x37f8: 0x0008, 0x37f9: 0x0008, 0x37fa: 0x0008, 0x37fb: 0x0008,",
   "\t0x37fc: 0x0008, 0x37fd: 0x0008, 0x37fe: 0x0008, 0x37ff: 0x0008,"]
theorem v13_eq : v13 = (layout 6 4 208 ((Table.Values.blocks.drop 208).take 16)).map String.ofList := by
  kernel_rfl
/-- graphemes/trie.go:1491-1586, `graphemesValues` from block 0xe0 on. -/
def v14 : List String :=
  ["\t// Block 0xe0, offset 0x3800",
   "\t0x381a: 0x0008, 0x381b: 0x0008, 0x381c: 0x0008, 0x381d: 0x0008,",
   "\t0x381e: 0x0008, 0x381f: 0x0008, 0x3820: 0x0008, 0x3821: 0x0008, 0x3822: 0x0008, 0x3823: 0x0008,",
   "\t0x3824: 0x0008, 0x3825: 0x0008, 0x3826: 0x0008, 0x3827: 0x0008, 0x3828: 0x0008, 0x3829: 0x0008,",
   "\t0x382a: 0x0008, 0x382b: 0x0008, 0x382c: 0x0008, 0x382d: 0x0008, 0x382e: 0x0008, 0x382f: 0x0008,",
   "\t0x3830: 0x0008, 0x3831: 0x0008, 0x3832: 0x0008, 0x3833: 0x0008, 0x3834: 0x0008, 0x3835: 0x0008,",
   "\t0x3836: 0x0008, 0x3837: 0x0008, 0x3838: 0x0008, 0x3839: 0x0008, 0x383a: 0x0008, 0x383b: 0x0008,",
   "\t0x383c: 0x0008, 0x383d: 0x0008, 0x383e: 0x0008, 0x383f: 0x0008,",
   "\t// Block 0xe1, offset 0x3840",
   "\t0x384c: 0x0008, 0x384d: 0x0008, 0x384e: 0x0008, 0x384f: 0x0008,",
   "\t// Block 0xe2, offset 0x3880",
   "\t0x3888: 0x0008, 0x3889: 0x0008, 0x388a: 0x0008, 0x388b: 0x0008,",
   "\t0x388c: 0x0008, 0x388d: 0x0008, 0x388e: 0x0008, 0x388f: 0x0008,",
   "\t0x389a: 0x0008, 0x389b: 0x0008, 0x389c: 0x0008, 0x389d: 0x0008,",
   "\t0x389e: 0x0008, 0x389f: 0x0008,",
   "\t// Block 0xe3, offset 0x38c0",
   "\t0x38c8: 0x0008, 0x38c9: 0x0008, 0x38ca: 0x0008, 0x38cb: 0x0008,",
   "\t0x38cc: 0x0008, 0x38cd: 0x0008, 0x38ce: 0x0008, 0x38cf: 0x0008,",
   "\t0x38ee: 0x0008, 0x38ef: 0x0008,",
   "\t0x38fc: 0x0008, 0x38fd: 0x0008, 0x38fe: 0x0008, 0x38ff: 0x0008,",
   "\t// Block 0xe4, offset 0x3900",
   "\t0x3902: 0x0008, 0x3903: 0x0008, 0x3904: 0x0008, 0x3905: 0x0008,",
   "\t0x3906: 0x0008, 0x3907: 0x0008, 0x3908: 0x0008, 0x3909: 0x0008, 0x390a: 0x0008, 0x390b: 0x0008,",
   "\t0x390c: 0x0008, 0x390d: 0x0008, 0x390e: 0x0008, 0x390f: 0x0008,",
   "\t0x3919: 0x0008, 0x391a: 0x0008, 0x391b: 0x0008, 0x391c: 0x0008, 0x391d: 0x0008,",
   "\t0x391e: 0x0008, 0x391f: 0x0008, 0x3920: 0x0008, 0x3921: 0x0008, 0x3922: 0x0008, 0x3923: 0x0008,",
   "\t0x3924: 0x0008, 0x3925: 0x0008, 0x3926: 0x0008, 0x3927: 0x0008, 0x3928: 0x0008, 0x3929: 0x0008,",
   "\t0x392a: 0x0008, 0x392b: 0x0008, 0x392c: 0x0008, 0x392d: 0x0008, 0x392e: 0x0008, 0x392f: 0x0008,",
   "\t0x3930: 0x0008, 0x3931: 0x0008, 0x3932: 0x0008, 0x3933: 0x0008, 0x3934: 0x0008, 0x3935: 0x0008,",
   "\t0x3936: 0x0008, 0x3937: 0x0008, 0x3938: 0x0008, 0x3939: 0x0008, 0x393a: 0x0008, 0x393b: 0x0008,",
   "\t0x393c: 0x0008, 0x393d: 0x0008, 0x393e: 0x0008, 0x393f: 0x0008,",
   "\t// Block 0xe5, offset 0x3940",
   "\t0x394c: 0x0008, 0x394d: 0x0008, 0x394e: 0x0008, 0x394f: 0x0008, 0x3950: 0x0008, 0x3951: 0x0008,",
   "\t0x3952: 0x0008, 0x3953: 0x0008, 0x3954: 0x0008, 0x3955: 0x0008, 0x3956: 0x0008, 0x3957: 0x0008,",
   "\t0x3958: 0x0008, 0x3959: 0x0008, 0x395a: 0x0008, 0x395b: 0x0008, 0x395c: 0x0008, 0x395d: 0x0008,",
   "\t0x395e: 0x0008, 0x395f: 0x0008, 0x3960: 0x0008, 0x3961: 0x0008, 0x3962: 0x0008, 0x3963: 0x0008,",
   "\t0x3964: 0x0008, 0x3965: 0x0008, 0x3966: 0x0008, 0x3967: 0x0008, 0x3968: 0x0008, 0x3969: 0x0008,",
   "\t0x396a: 0x0008, 0x396b: 0x0008, 0x396c: 0x0008, 0x396d: 0x0008, 0x396e: 0x0008, 0x396f: 0x0008,",
   "\t0x3970: 0x0008, 0x3971: 0x0008, 0x3972: 0x0008, 0x3973: 0x0008, 0x3974: 0x0008, 0x3975: 0x0008,",
   "\t0x3976: 0x0008, 0x3977: 0x0008, 0x3978: 0x0008, 0x3979: 0x0008, 0x397a: 0x0008,",
   "\t0x397c: 0x0008, 0x397d: 0x0008, 0x397e: 0x0008, 0x397f: 0x0008,",
   "\t// Block 0xe6, offset 0x3980",
   "\t0x3980: 0x0008, 0x3981: 0x0008, 0x3982: 0x0008, 0x3983: 0x0008, 0x3984: 0x0008, 0x3985: 0x0008,",
   "\t0x3987: 0x0008, 0x3988: 0x0008, 0x3989: 0x0008, 0x398a: 0x0008, 0x398b: 0x0008,",
   "\t0x398c: 0x0008, 0x398d: 0x0008, 0x398e: 0x0008, 0x398f: 0x0008, 0x3990: 0x0008, 0x3991: 0x0008,",
   "\t0x3992: 0x0008, 0x3993: 0x0008, 0x3994: 0x0008, 0x3995: 0x0008, 0x3996: 0x0008, 0x3997: 0x0008,",
   "\t0x3998: 0x0008, 0x3999: 0x0008, 0x399a: 0x0008, 0x399b: 0x0008, 0x399c: 0x0008, 0x399d: 0x0008,",
   "\t0x399e: 0x0008, 0x399f: 0x0008, 0x39a0: 0x0008, 0x39a1: 0x0008, 0x39a2: 0x0008, 0x39a3: 0x0008,",
   "\t0x39a4: 0x0008, 0x39a5: 0x0008, 0x39a6: 0x0008, 0x39a7: 0x0008, 0x39a8: 0x0008, 0x39a9: 0x0008,",
   "\t0x39aa: 0x0008, 0x39ab: 0x0008, 0x39ac: 0x0008, 0x39ad: 0x0008, 0x39ae: 0x0008, 0x39af: 0x0008,",
   "\t0x39b0: 0x0008, 0x39b1: 0x0008, 0x39b2: 0x0008, 0x39b3: 0x0008, 0x39b4: 0x0008, 0x39b5: 0x0008,",
   "\t0x39b6: 0x0008, 0x39b7: 0x0008, 0x39b8: 0x0008, 0x39b9: 0x0008, 0x39ba: 0x0008, 0x39bb: 0x0008,",
   "\t0x39bc: 0x0008, 0x39bd: 0x0008, 0x39be: 0x0008, 0x39bf: 0x0008,",
   "\t// Block 0xe7, offset 0x39c0",
   "\t0x39d8: 0x0008, 0x39d9: 0x0008, 0x39da: 0x0008, 0x39db: 0x0008, 0x39dc: 0x0008, 0x39dd: 0x0008,",
   "\t0x39de: 0x0008, 0x39df: 0x0008,",
   "\t0x39ee: 0x0008, 0x39ef: 0x0008,",
   "\t0x39f0: 0x0008, 0x39f1: 0x0008, 0x39f2: 0x0008, 0x39f3: 0x0008, 0x39f4: 0x0008, 0x39f5: 0x0008,",
   "\t0x39f6: 0x0008, 0x39f7: 0x0008, 0x39f8: 0x0008, 0x39f9: 0x0008, 0x39fa: 0x0008, 0x39fb: 0x0008,",
   "\t0x39fc: 0x0008, 0x39fd: 0x0008, 0x39fe: 0x0008, 0x39ff: 0x0008,",
   "\t// Block 0xe8, offset 0x3a00",
   "\t0x3a00: 0x0002, 0x3a01: 0x0002, 0x3a02: 0x0002, 0x3a03: 0x0002, 0x3a04: 0x0002, 0x3a05: 0x0002,",
   "\t0x3a06: 0x0002, 0x3a07: 0x0002, 0x3a08: 0x0002, 0x3a09: 0x0002, 0x3a0a: 0x0002, 0x3a0b: 0x0002,",
   "\t0x3a0c: 0x0002, 0x3a0d: 0x0002, 0x3a0e: 0x0002, 0x3a0f: 0x0002, 0x3a10: 0x0002, 0x3a11: 0x0002,",
   "\t0x3a12: 0x0002, 0x3a13: 0x0002, 0x3a14: 0x0002, 0x3a15: 0x0002, 0x3a16: 0x0002, 0x3a17: 0x0002,",
   "\t0x3a18: 0x0002, 0x3a19: 0x0002, 0x3a1a: 0x0002, 0x3a1b: 0x0002, 0x3a1c: 0x0002, 0x3a1d: 0x0002,",
   "\t0x3a1e: 0x0002, 0x3a1f: 0x0002, 0x3a20: 0x0024, 0x3a21: 0x0024, 0x3a22: 0x0024, 0x3a23: 0x0024,",
   "\t0x3a24: 0x0024, 0x3a25: 0x0024, 0x3a26: 0x0024, 0x3a27: 0x0024, 0x3a28: 0x0024, 0x3a29: 0x0024,",
   "\t0x3a2a: 0x0024, 0x3a2b: 0x0024, 0x3a2c: 0x0024, 0x3a2d: 0x0024, 0x3a2e: 0x0024, 0x3a2f: 0x0024,",
   "\t0x3a30: 0x0024, 0x3a31: 0x0024, 0x3a32: 0x0024, 0x3a33: 0x0024, 0x3a34: 0x0024, 0x3a35: 0x0024,",
   "\t0x3a36: 0x0024, 0x3a37: 0x0024, 0x3a38: 0x0024, 0x3a39: 0x0024, 0x3a3a: 0x0024, 0x3a3b: 0x0024,",
   "\t0x3a3c: 0x0024, 0x3a3d: 0x0024, 0x3a3e: 0x0024, 0x3a3f: 0x0024,",
   "\t// Block 0xe9, offset 0x3a40",
   "\t0x3a40: 0x0002, 0x3a41: 0x0002, 0x3a42: 0x0002, 0x3a43: 0x0002, 0x3a44: 0x0002, 0x3a45: 0x0002,",
   "\t0x3a46: 0x0002, 0x3a47: 0x0002, 0x3a48: 0x0002, 0x3a49: 0x0002, 0x3a4a: 0x0002, 0x3a4b: 0x0002,",
   "\t0x3a4c: 0x0002, 0x3a4d: 0x0002, 0x3a4e: 0x0002, 0x3a4f: 0x0002, 0x3a50: 0x0002, 0x3a51: 0x0002,",
   "\t0x3a52: 0x0002, 0x3a53: 0x0002, 0x3a54: 0x0002, 0x3a55: 0x0002, 0x3a56: 0x0002, 0x3a57: 0x0002,",
   "\t0x3a58: 0x0002, 0x3a59: 0x0002, 0x3a5a: 0x0002, 0x3a5b: 0x0002, 0x3a5c: 0x0002, 0x3a5d: 0x0002,",
   "\t0x3a5e: 0x0002, 0x3a5f: 0x0002, 0x3a60: 0x0002, 0x3a61: 0x0002, 0x3a62: 0x0002, 0x3a63: 0x0002,",
   "\t0x3a64: 0x0002, 0x3a65: 0x0002, 0x3a66: 0x0002, 0x3a67: 0x0002, 0x3a68: 0x0002, 0x3a69: 0x0002,",
   "\t0x3a6a: 0x0002, 0x3a6b: 0x0002, 0x3a6c: 0x0002, 0x3a6d: 0x0002, 0x3a6e: 0x0002, 0x3a6f: 0x0002,",
   "\t0x3a70: 0x0002, 0x3a71: 0x0002, 0x3a72: 0x0002, 0x3a73: 0x0002, 0x3a74: 0x0002, 0x3a75: 0x0002,",
   "\t0x3a76: 0x0002, 0x3a77: 0x0002, 0x3a78: 0x0002, 0x3a79: 0x0002, 0x3a7a: 0x0002, 0x3a7b: 0x0002,",
   "\t0x3a7c: 0x0002, 0x3a7d: 0x0002, 0x3a7e: 0x0002, 0x3a7f: 0x0002,",
   "\t// Block 0xea, offset 0x3a80",
   "\t0x3a80: 0x0024, 0x3a81: 0x0024, 0x3a82: 0x0024, 0x3a83: 0x0024, 0x3a84: 0x0024, 0x3a85: 0x0024,",
   "\t0x3a86: 0x0024, 0x3a87: 0x0024, 0x3a88: 0x0024, 0x3a89: 0x0024, 0x3a8a: 0x0024, 0x3a8b: 0x0024,",
   "\t0x3a8c: 0x0024, 0x3a8d: 0x0024, 0x3a8e: 0x0024, 0x3a8f: 0x0024, 0x3a90: 0x0024, 0x3a91: 0x0024,",
   "\t0x3a92: 0x0024, 0x3a93: 0x0024, 0x3a94: 0x0024, 0x3a95: 0x0024, 0x3a96: 0x0024, 0x3a97: 0x0024,",
   "\t0x3a98: 0x0024, 0x3a99: 0x0024, 0x3a9a: 0x0024, 0x3a9b: 0x0024, 0x3a9c: 0x0024, 0x3a9d: 0x0024,",
   "\t0x3a9e: 0x0024, 0x3a9f: 0x0024, 0x3aa0: 0x0024, 0x3aa1: 0x0024, 0x3aa2: 0x0024, 0x3aa3: 0x0024,",
   "\t0x3aa4: 0x0024, 0x3aa5: 0x0024, 0x3aa6: 0x0024, 0x3aa7: 0x0024, 0x3aa8: 0x0024, 0x3aa9: 0x0024,",
   "\t0x3aaa: 0x0024, 0x3aab: 0x0024, 0x3aac: 0x0024, 0x3aad: 0x0024, 0x3aae: 0x0024, 0x3aaf: 0x0024,",
   "\t0x3ab0: 0x0002, 0x3ab1: 0x0002, 0x3ab2: 0x0002, 0x3ab3: 0x0002, 0x3ab4: 0x0002, 0x3ab5: 0x0002,",
   "\t0x3ab6: 0x0002, 0x3ab7: 0x0002, 0x3ab8: 0x0002, 0x3ab9: 0x0002, 0x3aba: 0x0002, 0x3abb: 0x0002,",
   "\t0x3abc: 0x0002, 0x3abd: 0x0002, 0x3abe: 0x0002, 0x3abf: 0x0002,"]
theorem v14_eq : v14 = (layout 6 4 224 ((Table.Values.blocks.drop 224).take 16)).map String.ofList := by
  kernel_rfl
/-- graphemes/trie.go:109-1586, the table `graphemesValues`. -/
def values : List String := v0 ++ (v1 ++ (v2 ++ (v3 ++ (v4 ++ (v5 ++ (v6 ++ (v7 ++ (v8 ++ (v9 ++ (v10 ++ (v11 ++ (v12 ++ (v13 ++ (v14))))))))))))))
theorem values_eq : values = (layout 6 4 0 Table.Values.blocks).map String.ofList := by
  rw [values, v0_eq, v1_eq, v2_eq, v3_eq, v4_eq, v5_eq, v6_eq, v7_eq, v8_eq, v9_eq, v10_eq, v11_eq, v12_eq, v13_eq, v14_eq,
    layout_start 6 4 Table.Values.blocks, layout_step 6 4 0 16 16 rfl Table.Values.blocks, layout_step 6 4 16 16 32 rfl Table.Values.blocks, layout_step 6 4 32 16 48 rfl Table.Values.blocks, layout_step 6 4 48 16 64 rfl Table.Values.blocks, layout_step 6 4 64 16 80 rfl Table.Values.blocks, layout_step 6 4 80 16 96 rfl Table.Values.blocks, layout_step 6 4 96 16 112 rfl Table.Values.blocks, layout_step 6 4 112 16 128 rfl Table.Values.blocks, layout_step 6 4 128 16 144 rfl Table.Values.blocks, layout_step 6 4 144 16 160 rfl Table.Values.blocks, layout_step 6 4 160 16 176 rfl Table.Values.blocks, layout_step 6 4 176 16 192 rfl Table.Values.blocks, layout_step 6 4 192 16 208 rfl Table.Values.blocks, layout_step 6 4 208 16 224 rfl Table.Values.blocks, layout_step 6 4 224 16 240 rfl Table.Values.blocks,
    layout_end 6 4 (n := 240) (by decide), List.append_nil]
  simp only [List.map_append]
/-- graphemes/trie.go:1587-1591, down to the table `graphemesIndex`. -/
def mid : List String :=
  ["}",
   "",
   "// graphemesIndex: 25 blocks, 1600 entries, 1600 bytes",
   "// Block 0 is the zero block.",
   "var graphemesIndex = [1600]property{"]
/-- graphemes/trie.go:1587-1591, as characters. -/
def midChars : List (List Char) :=
  [chars "}",
   chars "",
   chars "// graphemesIndex: 25 blocks, 1600 entries, 1600 bytes",
   chars "// Block 0 is the zero block.",
   chars "var graphemesIndex = [1600]property{"]
theorem mid_eq : mid = midChars.map String.ofList := by
  kernel_rfl
/-- graphemes/trie.go:1592-1674, `graphemesIndex` from block 0x0 on. -/
def i0 : List String :=
  ["\t// Block 0x0, offset 0x0",
   "\t// Block 0x1, offset 0x40",
   "\t// Block 0x2, offset 0x80",
   "\t// Block 0x3, offset 0xc0",
   "\t0xc2: 0x01,",
   "\t0xcc: 0x02, 0xcd: 0x03,",
   "\t0xd2: 0x04, 0xd6: 0x05, 0xd7: 0x06,",
   "\t0xd8: 0x07, 0xd9: 0x08, 0xdb: 0x09, 0xdc: 0x0a, 0xdd: 0x0b, 0xde: 0x0c, 0xdf: 0x0d,",
   "\t0xe0: 0x02, 0xe1: 0x03, 0xe2: 0x04, 0xe3: 0x05,",
   "\t0xea: 0x06, 0xeb: 0x07, 0xec: 0x08, 0xed: 0x09, 0xef: 0x0a,",
   "\t0xf0: 0x14, 0xf3: 0x16,",
   "\t// Block 0x4, offset 0x100",
   "\t0x120: 0x0e, 0x121: 0x0f, 0x122: 0x10, 0x123: 0x11, 0x124: 0x12, 0x125: 0x13, 0x126: 0x14, 0x127: 0x15,",
   "\t0x128: 0x16, 0x129: 0x17, 0x12a: 0x18, 0x12b: 0x19, 0x12c: 0x1a, 0x12d: 0x1b, 0x12e: 0x1c, 0x12f: 0x1d,",
   "\t0x130: 0x1e, 0x131: 0x1f, 0x132: 0x20, 0x133: 0x21, 0x134: 0x22, 0x135: 0x23, 0x136: 0x24, 0x137: 0x25,",
   "\t0x138: 0x26, 0x139: 0x27, 0x13a: 0x28, 0x13b: 0x29, 0x13c: 0x2a, 0x13d: 0x2b, 0x13e: 0x2c, 0x13f: 0x2d,",
   "\t// Block 0x5, offset 0x140",
   "\t0x140: 0x2e, 0x141: 0x2f, 0x142: 0x30, 0x144: 0x31, 0x145: 0x32, 0x146: 0x33, 0x147: 0x34,",
   "\t0x14d: 0x35,",
   "\t0x15c: 0x36, 0x15d: 0x37, 0x15e: 0x38, 0x15f: 0x39,",
   "\t0x160: 0x3a, 0x162: 0x3b, 0x164: 0x3c,",
   "\t0x168: 0x3d, 0x169: 0x3e, 0x16a: 0x3f, 0x16b: 0x40, 0x16c: 0x41, 0x16d: 0x42, 0x16e: 0x43, 0x16f: 0x44,",
   "\t0x170: 0x45, 0x173: 0x46, 0x177: 0x02,",
   "\t// Block 0x6, offset 0x180",
   "\t0x180: 0x47, 0x181: 0x48, 0x183: 0x49, 0x184: 0x4a, 0x186: 0x4b,",
   "\t0x18c: 0x4c, 0x18f: 0x4d,",
   "\t0x193: 0x4e, 0x196: 0x4f, 0x197: 0x50,",
   "\t0x198: 0x51, 0x199: 0x52, 0x19a: 0x53, 0x19b: 0x54, 0x19c: 0x55, 0x19d: 0x56, 0x19e: 0x57,",
   "\t0x1a4: 0x58,",
   "\t0x1ac: 0x59, 0x1ad: 0x5a,",
   "\t0x1b3: 0x5b, 0x1b5: 0x5c, 0x1b7: 0x5d,",
   "\t// Block 0x7, offset 0x1c0",
   "\t0x1c0: 0x5e, 0x1c2: 0x5f,",
   "\t0x1ca: 0x60,",
   "\t// Block 0x8, offset 0x200",
   "\t0x219: 0x61, 0x21a: 0x62, 0x21b: 0x63,",
   "\t0x220: 0x64, 0x222: 0x65, 0x223: 0x66, 0x224: 0x67, 0x225: 0x68, 0x226: 0x69, 0x227: 0x6a,",
   "\t0x228: 0x6b, 0x229: 0x6c, 0x22a: 0x6d, 0x22b: 0x6e, 0x22f: 0x6f,",
   "\t0x230: 0x70, 0x231: 0x71, 0x232: 0x72, 0x233: 0x73, 0x234: 0x74, 0x235: 0x75, 0x236: 0x76, 0x237: 0x70,",
   "\t0x238: 0x71, 0x239: 0x72, 0x23a: 0x73, 0x23b: 0x74, 0x23c: 0x75, 0x23d: 0x76, 0x23e: 0x70, 0x23f: 0x71,",
   "\t// Block 0x9, offset 0x240",
   "\t0x240: 0x72, 0x241: 0x73, 0x242: 0x74, 0x243: 0x75, 0x244: 0x76, 0x245: 0x70, 0x246: 0x71, 0x247: 0x72,",
   "\t0x248: 0x73, 0x249: 0x74, 0x24a: 0x75, 0x24b: 0x76, 0x24c: 0x70, 0x24d: 0x71, 0x24e: 0x72, 0x24f: 0x73,",
   "\t0x250: 0x74, 0x251: 0x75, 0x252: 0x76, 0x253: 0x70, 0x254: 0x71, 0x255: 0x72, 0x256: 0x73, 0x257: 0x74,",
   "\t0x258: 0x75, 0x259: 0x76, 0x25a: 0x70, 0x25b: 0x71, 0x25c: 0x72, 0x25d: 0x73, 0x25e: 0x74, 0x25f: 0x75,",
   "\t0x260: 0x76, 0x261: 0x70, 0x262: 0x71, 0x263: 0x72, 0x264: 0x73, 0x265: 0x74, 0x266: 0x75, 0x267: 0x76,",
   "\t0x268: 0x70, 0x269: 0x71, 0x26a: 0x72, 0x26b: 0x73, 0x26c: 0x74, 0x26d: 0x75, 0x26e: 0x76, 0x26f: 0x70,",
   "\t0x270: 0x71, 0x271: 0x72, 0x272: 0x73, 0x273: 0x74, 0x274: 0x75, 0x275: 0x76, 0x276: 0x70, 0x277: 0x71,",
   "\t0x278: 0x72, 0x279: 0x73, 0x27a: 0x74, 0x27b: 0x75, 0x27c: 0x76, 0x27d: 0x70, 0x27e: 0x71, 0x27f: 0x72,",
   "\t// Block 0xa, offset 0x280",
   "\t0x280: 0x73, 0x281: 0x74, 0x282: 0x75, 0x283: 0x76, 0x284: 0x70, 0x285: 0x71, 0x286: 0x72, 0x287: 0x73,",
   "\t0x288: 0x74, 0x289: 0x75, 0x28a: 0x76, 0x28b: 0x70, 0x28c: 0x71, 0x28d: 0x72, 0x28e: 0x73, 0x28f: 0x74,",
   "\t0x290: 0x75, 0x291: 0x76, 0x292: 0x70, 0x293: 0x71, 0x294: 0x72, 0x295: 0x73, 0x296: 0x74, 0x297: 0x75,",
   "\t0x298: 0x76, 0x299: 0x70, 0x29a: 0x71, 0x29b: 0x72, 0x29c: 0x73, 0x29d: 0x74, 0x29e: 0x75, 0x29f: 0x76,",
   "\t0x2a0: 0x70, 0x2a1: 0x71, 0x2a2: 0x72, 0x2a3: 0x73, 0x2a4: 0x74, 0x2a5: 0x75, 0x2a6: 0x76, 0x2a7: 0x70,",
   "\t0x2a8: 0x71, 0x2a9: 0x72, 0x2aa: 0x73, 0x2ab: 0x74, 0x2ac: 0x75, 0x2ad: 0x76, 0x2ae: 0x70, 0x2af: 0x71,",
   "\t0x2b0: 0x72, 0x2b1: 0x73, 0x2b2: 0x74, 0x2b3: 0x75, 0x2b4: 0x76, 0x2b5: 0x70, 0x2b6: 0x71, 0x2b7: 0x72,",
   "\t0x2b8: 0x73, 0x2b9: 0x74, 0x2ba: 0x75, 0x2bb: 0x76, 0x2bc: 0x70, 0x2bd: 0x71, 0x2be: 0x72, 0x2bf: 0x73,",
   "\t// Block 0xb, offset 0x2c0",
   "\t0x2c0: 0x74, 0x2c1: 0x75, 0x2c2: 0x76, 0x2c3: 0x70, 0x2c4: 0x71, 0x2c5: 0x72, 0x2c6: 0x73, 0x2c7: 0x74,",
   "\t0x2c8: 0x75, 0x2c9: 0x76, 0x2ca: 0x70, 0x2cb: 0x71, 0x2cc: 0x72, 0x2cd: 0x73, 0x2ce: 0x74, 0x2cf: 0x75,",
   "\t0x2d0: 0x76, 0x2d1: 0x70, 0x2d2: 0x71, 0x2d3: 0x72, 0x2d4: 0x73, 0x2d5: 0x74, 0x2d6: 0x75, 0x2d7: 0x76,",
   "\t0x2d8: 0x70, 0x2d9: 0x71, 0x2da: 0x72, 0x2db: 0x73, 0x2dc: 0x74, 0x2dd: 0x75, 0x2de: 0x77, 0x2df: 0x78,",
   "\t// Block 0xc, offset 0x300",
   "\t0x32c: 0x79,",
   "\t0x338: 0x7a, 0x33b: 0x7b, 0x33e: 0x62, 0x33f: 0x7c,",
   "\t// Block 0xd, offset 0x340",
   "\t0x347: 0x7d,",
   "\t0x34b: 0x7e, 0x34d: 0x7f,",
   "\t0x368: 0x80, 0x36b: 0x81,",
   "\t0x374: 0x82, 0x375: 0x83,",
   "\t0x37a: 0x84, 0x37b: 0x85, 0x37d: 0x86, 0x37e: 0x87,",
   "\t// Block 0xe, offset 0x380",
   "\t0x380: 0x88, 0x381: 0x89, 0x382: 0x8a, 0x383: 0x8b, 0x384: 0x8c, 0x385: 0x8d, 0x386: 0x8e, 0x387: 0x8f,",
   "\t0x388: 0x90, 0x389: 0x91, 0x38b: 0x92, 0x38c: 0x93, 0x38d: 0x94, 0x38e: 0x95, 0x38f: 0x96,",
   "\t0x390: 0x97, 0x391: 0x98, 0x392: 0x99, 0x393: 0x9a, 0x396: 0x9b, 0x397: 0x9c,",
   "\t0x398: 0x9d, 0x399: 0x9e, 0x39a: 0x9f, 0x39c: 0xa0,",
   "\t0x3a0: 0xa1, 0x3a4: 0xa2, 0x3a5: 0xa3, 0x3a7: 0xa4,",
   "\t0x3a8: 0xa5, 0x3a9: 0xa6, 0x3aa: 0xa7, 0x3ad: 0xa8,",
   "\t0x3b0: 0xa9, 0x3b2: 0xaa, 0x3b4: 0xab, 0x3b5: 0xac, 0x3b6: 0xad,",
   "\t0x3bb: 0xae, 0x3bc: 0xaf, 0x3bd: 0xb0,",
   "\t// Block 0xf, offset 0x3c0",
   "\t0x3d0: 0xb1, 0x3d1: 0xb2,"]
theorem i0_eq : i0 = (layout 8 2 0 ((Table.Index.blocks.drop 0).take 16)).map String.ofList := by
  kernel_rfl
/-- graphemes/trie.go:1675-1716, `graphemesIndex` from block 0x10 on. -/
def i1 : List String :=
  ["\t// Block 0x10, offset 0x400",
   "\t0x404: 0xb3,",
   "\t0x42b: 0xb4, 0x42c: 0xb5,",
   "\t0x435: 0xb6,",
   "\t0x43d: 0xb7, 0x43e: 0xb8, 0x43f: 0xb9,",
   "\t// Block 0x11, offset 0x440",
   "\t0x472: 0xba,",
   "\t// Block 0x12, offset 0x480",
   "\t0x4bc: 0xbb, 0x4bd: 0xbc,",
   "\t// Block 0x13, offset 0x4c0",
   "\t0x4c5: 0xbd, 0x4c6: 0xbe,",
   "\t0x4c9: 0xbf,",
   "\t0x4e8: 0xc0, 0x4e9: 0xc1, 0x4ea: 0xc2,",
   "\t// Block 0x14, offset 0x500",
   "\t0x500: 0xc3, 0x502: 0xc4, 0x504: 0xb5,",
   "\t0x50a: 0xc5, 0x50b: 0xc6,",
   "\t0x513: 0xc6, 0x517: 0xc7,",
   "\t0x51b: 0xc8,",
   "\t0x523: 0xc9, 0x525: 0xca,",
   "\t// Block 0x15, offset 0x540",
   "\t0x540: 0xcb, 0x542: 0xcc, 0x543: 0xcd, 0x545: 0xce, 0x546: 0xcf, 0x547: 0xd0,",
   "\t0x548: 0xd1, 0x549: 0xd2, 0x54a: 0xd3, 0x54b: 0xd3, 0x54c: 0xd4, 0x54d: 0xd3, 0x54e: 0xd5, 0x54f: 0xd6,",
   "\t0x550: 0xd3, 0x551: 0xd3, 0x552: 0xd3, 0x553: 0xd7, 0x554: 0xd8, 0x555: 0xd9, 0x556: 0xda, 0x557: 0xdb,",
   "\t0x558: 0xd3, 0x559: 0xdc, 0x55a: 0xd3, 0x55b: 0xdd, 0x55f: 0xde,",
   "\t0x560: 0xdf, 0x561: 0xe0, 0x562: 0xe1, 0x563: 0xe2, 0x564: 0xe3, 0x565: 0xe4, 0x566: 0xd3, 0x567: 0xd3,",
   "\t0x569: 0xe5, 0x56a: 0xd3, 0x56b: 0xd3,",
   "\t0x570: 0xd3, 0x571: 0xd3, 0x572: 0xd3, 0x573: 0xd3, 0x574: 0xd3, 0x575: 0xd3, 0x576: 0xd3, 0x577: 0xd3,",
   "\t0x578: 0xd3, 0x579: 0xd3, 0x57a: 0xd3, 0x57b: 0xd3, 0x57c: 0xd3, 0x57d: 0xd3, 0x57e: 0xd3, 0x57f: 0xd8,",
   "\t// Block 0x16, offset 0x580",
   "\t0x590: 0x0b, 0x591: 0x0c, 0x593: 0x0d, 0x596: 0x0e,",
   "\t0x59b: 0x0f, 0x59c: 0x10, 0x59d: 0x11, 0x59e: 0x12, 0x59f: 0x13,",
   "\t// Block 0x17, offset 0x5c0",
   "\t0x5c0: 0xe6, 0x5c1: 0x02, 0x5c2: 0xe7, 0x5c3: 0xe7, 0x5c4: 0x02, 0x5c5: 0x02, 0x5c6: 0x02, 0x5c7: 0xe8,",
   "\t0x5c8: 0xe7, 0x5c9: 0xe7, 0x5ca: 0xe7, 0x5cb: 0xe7, 0x5cc: 0xe7, 0x5cd: 0xe7, 0x5ce: 0xe7, 0x5cf: 0xe7,",
   "\t0x5d0: 0xe7, 0x5d1: 0xe7, 0x5d2: 0xe7, 0x5d3: 0xe7, 0x5d4: 0xe7, 0x5d5: 0xe7, 0x5d6: 0xe7, 0x5d7: 0xe7,",
   "\t0x5d8: 0xe7, 0x5d9: 0xe7, 0x5da: 0xe7, 0x5db: 0xe7, 0x5dc: 0xe7, 0x5dd: 0xe7, 0x5de: 0xe7, 0x5df: 0xe7,",
   "\t0x5e0: 0xe7, 0x5e1: 0xe7, 0x5e2: 0xe7, 0x5e3: 0xe7, 0x5e4: 0xe7, 0x5e5: 0xe7, 0x5e6: 0xe7, 0x5e7: 0xe7,",
   "\t0x5e8: 0xe7, 0x5e9: 0xe7, 0x5ea: 0xe7, 0x5eb: 0xe7, 0x5ec: 0xe7, 0x5ed: 0xe7, 0x5ee: 0xe7, 0x5ef: 0xe7,",
   "\t0x5f0: 0xe7, 0x5f1: 0xe7, 0x5f2: 0xe7, 0x5f3: 0xe7, 0x5f4: 0xe7, 0x5f5: 0xe7, 0x5f6: 0xe7, 0x5f7: 0xe7,",
   "\t0x5f8: 0xe7, 0x5f9: 0xe7, 0x5fa: 0xe7, 0x5fb: 0xe7, 0x5fc: 0xe7, 0x5fd: 0xe7, 0x5fe: 0xe7, 0x5ff: 0xe7,",
   "\t// Block 0x18, offset 0x600",
   "\t0x620: 0x15,"]
theorem i1_eq : i1 = (layout 8 2 16 ((Table.Index.blocks.drop 16).take 16)).map String.ofList := by
  kernel_rfl
/-- graphemes/trie.go:1592-1716, the table `graphemesIndex`. -/
def index : List String := i0 ++ (i1)
theorem index_eq : index = (layout 8 2 0 Table.Index.blocks).map String.ofList := by
  rw [index, i0_eq, i1_eq,
    layout_start 8 2 Table.Index.blocks, layout_step 8 2 0 16 16 rfl Table.Index.blocks, layout_step 8 2 16 16 32 rfl Table.Index.blocks,
    layout_end 8 2 (n := 32) (by decide), List.append_nil]
  simp only [List.map_append]
/-- graphemes/trie.go:1717-1718, the end. -/
def tail : List String :=
  ["}",
   ""]
/-- graphemes/trie.go:1717-1718, as characters. -/
def tailChars : List (List Char) :=
  [chars "}",
   chars ""]
theorem tail_eq : tail = tailChars.map String.ofList := by
  kernel_rfl
end Uax29.Graphemes.Text
/-- graphemes/trie.go, its lines. -/
def Uax29.Graphemes.text : List String := Text.head ++ (Text.values ++ (Text.mid ++ (Text.index ++ Text.tail)))
