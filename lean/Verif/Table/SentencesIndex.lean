/-!
GENERATED by tools/gen_tables.py from sentences/trie.go:3616-3835. Do not edit.
`sentencesIndex` (2304 entries) as its 36 blocks of 64 entries.
Entry `o` of the Go array is entry `o % 64` of block `o / 64`.
-/
set_option maxRecDepth 4000
namespace Uax29.Sentences.Table.Index
/-- sentences/trie.go, sentencesIndex, block 0x0, offset 0x0. -/
def b0 : List Nat := [0,0,0,0,0,0,0,0,0,0,0,0,0,0,0,0,0,0,0,0,0,0,0,0,0,0,0,0,0,0,0,0,0,0,0,0,0,0,0,0,0,0,0,0,0,0,0,0,0,0,0,0,0,0,0,0,0,0,0,0,0,0,0,0]
/-- sentences/trie.go, sentencesIndex, block 0x1, offset 0x40. -/
def b1 : List Nat := [0,0,0,0,0,0,0,0,0,0,0,0,0,0,0,0,0,0,0,0,0,0,0,0,0,0,0,0,0,0,0,0,0,0,0,0,0,0,0,0,0,0,0,0,0,0,0,0,0,0,0,0,0,0,0,0,0,0,0,0,0,0,0,0]
/-- sentences/trie.go, sentencesIndex, block 0x2, offset 0x80. -/
def b2 : List Nat := [0,0,0,0,0,0,0,0,0,0,0,0,0,0,0,0,0,0,0,0,0,0,0,0,0,0,0,0,0,0,0,0,0,0,0,0,0,0,0,0,0,0,0,0,0,0,0,0,0,0,0,0,0,0,0,0,0,0,0,0,0,0,0,0]
/-- sentences/trie.go, sentencesIndex, block 0x3, offset 0xc0. -/
def b3 : List Nat := [0,0,1,2,3,4,5,6,7,8,9,10,11,12,13,14,15,16,17,18,19,20,21,22,23,24,25,26,27,28,29,30,2,3,4,5,6,7,7,7,7,7,8,7,7,9,0,10,31,0,0,33,0,0,0,0,0,0,0,0,0,0,0,0]
/-- sentences/trie.go, sentencesIndex, block 0x4, offset 0x100. -/
def b4 : List Nat := [0,0,0,0,0,0,0,0,0,0,0,0,0,0,0,0,0,0,0,0,0,0,0,0,0,0,0,0,0,0,0,0,31,32,33,34,35,36,37,38,39,40,41,42,43,44,45,46,47,48,49,50,51,52,53,54,55,56,57,58,59,60,61,62]
/-- sentences/trie.go, sentencesIndex, block 0x5, offset 0x140. -/
def b5 : List Nat := [63,64,65,66,25,25,25,25,25,67,68,69,70,71,72,73,74,25,25,25,25,25,25,25,25,75,76,77,78,79,80,81,82,83,84,85,86,87,88,89,90,91,92,93,94,95,96,97,98,99,100,101,102,102,102,11,103,103,104,103,105,106,107,108]
/-- sentences/trie.go, sentencesIndex, block 0x6, offset 0x180. -/
def b6 : List Nat := [109,110,111,112,113,114,115,0,0,0,0,0,116,0,0,0,0,0,117,118,0,0,0,0,0,0,0,0,0,119,0,120,0,0,0,0,0,0,121,122,0,0,0,0,0,0,0,0,15,123,103,124,125,126,127,128,129,130,0,0,0,0,0,0]
/-- sentences/trie.go, sentencesIndex, block 0x7, offset 0x1c0. -/
def b7 : List Nat := [131,74,132,133,134,25,135,136,0,0,0,0,0,0,0,0,25,25,25,25,25,25,25,25,25,25,25,25,25,25,25,25,25,25,25,25,25,25,25,25,25,25,25,25,25,25,25,25,25,25,25,25,25,25,25,25,25,25,25,25,25,25,25,25]
/-- sentences/trie.go, sentencesIndex, block 0x8, offset 0x200. -/
def b8 : List Nat := [25,25,25,25,25,25,25,25,25,25,25,25,25,25,25,25,25,25,25,25,25,25,25,25,25,25,25,25,25,25,25,25,25,25,25,25,25,25,25,25,25,25,25,25,25,25,25,25,25,25,25,25,25,25,25,0,25,25,25,25,25,25,25,25]
/-- sentences/trie.go, sentencesIndex, block 0x9, offset 0x240. -/
def b9 : List Nat := [25,25,25,25,25,25,25,25,25,25,25,25,25,25,25,25,25,25,25,25,25,25,25,25,25,25,25,25,25,25,25,25,25,25,25,25,25,25,25,25,25,25,25,25,25,25,25,25,25,25,25,25,25,25,25,25,25,25,25,25,25,25,25,25]
/-- sentences/trie.go, sentencesIndex, block 0xa, offset 0x280. -/
def b10 : List Nat := [25,25,25,25,25,25,25,25,25,25,25,25,25,25,25,25,25,25,137,138,25,25,25,25,139,140,141,142,143,144,145,146,147,148,149,150,151,152,153,154,155,156,157,158,159,160,102,161,25,25,25,25,25,25,25,25,25,25,25,25,25,25,25,25]
/-- sentences/trie.go, sentencesIndex, block 0xb, offset 0x2c0. -/
def b11 : List Nat := [25,25,25,25,25,25,25,25,25,25,25,25,25,25,25,25,25,25,25,25,25,25,25,25,25,25,25,25,25,25,162,163,0,0,0,0,0,0,0,0,0,0,0,0,0,0,0,0,0,0,0,0,0,0,0,0,0,0,0,0,0,0,0,0]
/-- sentences/trie.go, sentencesIndex, block 0xc, offset 0x300. -/
def b12 : List Nat := [0,0,0,0,0,0,0,0,0,0,0,0,0,0,0,0,0,0,0,0,0,0,0,0,0,0,0,0,0,0,0,0,0,0,0,0,25,25,25,25,25,164,25,165,166,167,168,169,25,25,25,25,170,171,172,173,174,175,25,176,177,178,179,180]
/-- sentences/trie.go, sentencesIndex, block 0xd, offset 0x340. -/
def b13 : List Nat := [181,182,25,183,0,184,0,185,0,0,186,187,188,189,190,191,192,193,194,195,196,197,198,199,25,25,25,25,200,201,202,0,203,204,205,206,207,165,208,0,209,210,211,212,85,213,214,0,25,215,216,217,218,219,220,0,0,0,221,222,223,224,225,226]
/-- sentences/trie.go, sentencesIndex, block 0xe, offset 0x380. -/
def b14 : List Nat := [227,228,229,230,231,232,233,234,235,236,237,238,239,240,241,242,243,244,245,246,0,0,247,248,245,249,250,251,252,253,0,0,254,0,255,256,257,258,259,260,261,262,263,83,0,264,0,265,266,267,268,0,269,270,271,272,0,0,0,273,274,275,276,0]
/-- sentences/trie.go, sentencesIndex, block 0xf, offset 0x3c0. -/
def b15 : List Nat := [25,25,25,25,25,25,25,25,25,25,25,25,25,25,165,0,25,277,25,25,25,278,0,0,0,0,0,0,0,0,0,0,0,0,0,0,0,0,0,0,0,0,0,0,0,0,0,0,0,0,0,0,0,0,0,0,0,0,0,0,0,0,171,279]
/-- sentences/trie.go, sentencesIndex, block 0x10, offset 0x400. -/
def b16 : List Nat := [25,25,25,25,25,25,25,25,25,25,25,25,25,25,25,25,280,281,25,25,25,25,25,25,25,25,25,25,25,25,25,25,25,25,25,25,25,25,25,25,25,25,25,25,25,25,25,25,25,25,25,25,25,25,25,25,25,25,25,25,25,25,25,25]
/-- sentences/trie.go, sentencesIndex, block 0x11, offset 0x440. -/
def b17 : List Nat := [25,25,25,25,25,25,25,25,25,25,25,25,25,25,25,183,25,25,25,25,25,25,25,25,25,253,0,0,0,0,0,0,0,0,0,0,0,0,0,0,0,0,0,0,0,0,0,0,0,0,0,0,0,0,0,0,0,0,0,0,0,0,0,0]
/-- sentences/trie.go, sentencesIndex, block 0x12, offset 0x480. -/
def b18 : List Nat := [0,0,0,0,282,0,0,0,0,0,0,0,0,0,0,0,0,0,0,0,0,0,0,0,0,0,0,0,0,0,0,0,25,25,25,25,25,25,25,25,83,283,284,285,286,287,288,0,0,0,0,0,0,289,0,0,0,290,291,292,25,293,294,295]
/-- sentences/trie.go, sentencesIndex, block 0x13, offset 0x4c0. -/
def b19 : List Nat := [25,25,25,25,25,25,25,25,25,25,25,25,25,25,25,25,25,25,25,25,25,25,25,25,25,25,25,25,25,25,25,25,25,25,25,25,25,25,25,25,25,25,25,25,25,25,25,25,25,25,25,296,205,0,25,297,0,0,0,0,0,0,0,0]
/-- sentences/trie.go, sentencesIndex, block 0x14, offset 0x500. -/
def b20 : List Nat := [0,0,0,0,0,0,0,0,0,0,0,0,0,0,0,0,0,0,0,0,0,0,0,0,0,0,0,0,0,0,0,0,0,0,0,0,0,0,0,0,0,0,0,0,0,0,0,0,0,0,0,0,0,0,0,0,0,0,0,0,0,0,0,298]
/-- sentences/trie.go, sentencesIndex, block 0x15, offset 0x540. -/
def b21 : List Nat := [25,25,25,25,299,300,25,25,25,25,25,301,0,0,0,0,0,0,0,0,0,0,0,0,0,0,0,0,0,0,0,0,0,0,0,0,0,0,0,0,0,0,0,0,0,0,0,0,25,302,303,0,0,0,0,0,0,0,0,0,0,0,0,0]
/-- sentences/trie.go, sentencesIndex, block 0x16, offset 0x580. -/
def b22 : List Nat := [0,0,0,0,0,0,0,0,0,0,0,0,0,0,0,0,0,0,0,0,0,0,0,0,0,0,0,0,0,0,0,0,0,0,0,0,0,0,0,0,0,0,0,0,0,0,0,0,0,0,0,304,0,0,0,0,0,0,0,0,305,306,0,0]
/-- sentences/trie.go, sentencesIndex, block 0x17, offset 0x5c0. -/
def b23 : List Nat := [0,0,0,0,0,307,308,0,0,309,0,0,0,0,0,0,310,311,312,313,314,315,316,317,318,319,320,321,322,323,324,325,0,0,0,0,0,0,0,0,326,327,328,0,0,0,0,0,0,0,0,0,0,0,0,0,0,0,0,0,329,0,0,0]
/-- sentences/trie.go, sentencesIndex, block 0x18, offset 0x600. -/
def b24 : List Nat := [330,331,332,0,333,334,0,0,0,0,335,336,0,0,0,0,0,0,0,337,0,0,0,338,0,0,0,339,0,0,0,340,25,25,25,341,342,343,0,0,0,0,0,0,0,0,0,0,0,0,0,0,0,0,0,0,344,345,346,0,0,0,0,0]
/-- sentences/trie.go, sentencesIndex, block 0x19, offset 0x640. -/
def b25 : List Nat := [0,0,0,0,347,348,349,0,0,0,0,0,0,0,0,0,0,0,0,0,0,0,0,0,0,350,0,0,0,0,0,0,0,0,0,0,0,0,0,0,0,0,0,0,0,0,0,304,0,0,0,0,0,0,0,0,0,0,0,0,0,0,0,0]
/-- sentences/trie.go, sentencesIndex, block 0x1a, offset 0x680. -/
def b26 : List Nat := [25,25,25,25,25,25,25,25,25,25,25,25,25,25,25,25,25,25,25,25,25,25,25,25,25,25,25,351,25,25,25,25,25,25,25,25,25,25,25,25,25,25,25,25,25,25,25,25,25,25,25,25,25,25,25,25,25,25,25,25,25,25,25,25]
/-- sentences/trie.go, sentencesIndex, block 0x1b, offset 0x6c0. -/
def b27 : List Nat := [25,25,25,25,25,25,25,25,25,25,25,25,25,25,25,25,25,25,25,25,25,25,25,25,25,25,25,25,25,25,25,25,190,25,25,25,25,25,25,25,25,25,25,25,25,25,25,25,25,25,25,25,25,25,25,25,25,25,25,25,25,25,25,25]
/-- sentences/trie.go, sentencesIndex, block 0x1c, offset 0x700. -/
def b28 : List Nat := [25,25,25,25,25,25,25,25,25,25,25,25,25,25,25,25,25,25,25,25,25,25,25,25,25,25,25,25,25,25,25,25,25,25,25,25,25,25,25,25,25,25,25,25,25,25,25,25,25,25,25,25,25,25,25,25,25,25,164,25,25,25,25,25]
/-- sentences/trie.go, sentencesIndex, block 0x1d, offset 0x740. -/
def b29 : List Nat := [25,25,25,25,25,25,25,25,25,25,25,25,25,25,25,25,25,25,25,25,25,25,25,25,25,25,25,25,25,25,25,25,25,25,25,25,25,25,25,25,25,25,25,25,25,25,25,352,25,25,25,25,25,25,25,25,25,353,0,0,0,0,0,0]
/-- sentences/trie.go, sentencesIndex, block 0x1e, offset 0x780. -/
def b30 : List Nat := [0,0,0,0,0,0,0,0,0,0,0,0,0,0,0,0,0,0,0,0,0,0,0,0,0,0,0,0,0,0,0,0,25,25,25,25,25,25,25,25,353,0,0,0,0,0,0,0,0,0,0,0,0,0,0,0,0,0,0,0,0,0,0,0]
/-- sentences/trie.go, sentencesIndex, block 0x1f, offset 0x7c0. -/
def b31 : List Nat := [25,25,25,25,25,25,25,25,25,25,25,25,25,354,25,25,25,25,25,25,25,25,25,25,25,25,25,25,25,25,25,25,25,25,25,25,25,25,25,25,25,25,25,25,25,25,25,25,25,25,25,25,25,25,25,25,25,25,25,25,25,25,25,25]
/-- sentences/trie.go, sentencesIndex, block 0x20, offset 0x800. -/
def b32 : List Nat := [25,25,25,25,25,25,25,25,25,25,25,25,25,25,25,25,25,355,0,0,0,0,0,0,0,0,0,0,0,0,0,0,0,0,0,0,0,0,0,0,0,0,0,0,0,0,0,0,0,0,0,0,0,0,0,0,0,0,0,0,0,0,0,0]
/-- sentences/trie.go, sentencesIndex, block 0x21, offset 0x840. -/
def b33 : List Nat := [0,0,0,0,0,0,0,0,0,0,0,0,0,0,0,0,11,12,13,14,15,0,16,7,17,0,18,19,20,21,22,23,7,7,7,7,7,7,7,7,7,7,24,25,26,7,27,28,7,29,7,30,0,0,0,0,0,0,0,0,0,0,0,0]
/-- sentences/trie.go, sentencesIndex, block 0x22, offset 0x880. -/
def b34 : List Nat := [356,11,0,0,11,11,11,357,0,0,0,0,0,0,0,0,0,0,0,0,0,0,0,0,0,0,0,0,0,0,0,0,0,0,0,0,0,0,0,0,0,0,0,0,0,0,0,0,0,0,0,0,0,0,0,0,0,0,0,0,0,0,0,0]
/-- sentences/trie.go, sentencesIndex, block 0x23, offset 0x8c0. -/
def b35 : List Nat := [0,0,0,0,0,0,0,0,0,0,0,0,0,0,0,0,0,0,0,0,0,0,0,0,0,0,0,0,0,0,0,0,32,0,0,0,0,0,0,0,0,0,0,0,0,0,0,0,0,0,0,0,0,0,0,0,0,0,0,0,0,0,0,0]
/-- sentences/trie.go:3616-3835, `sentencesIndex`, all blocks in order. -/
def blocks : List (List Nat) := [b0,b1,b2,b3,b4,b5,b6,b7,b8,b9,b10,b11,b12,b13,b14,b15,b16,b17,b18,b19,b20,b21,b22,b23,b24,b25,b26,b27,b28,b29,b30,b31,b32,b33,b34,b35]
end Uax29.Sentences.Table.Index
