/-!
GENERATED by tools/gen_tables.py from graphemes/trie.go:1591-1717. Do not edit.
`graphemesIndex` (1600 entries) as its 25 blocks of 64 entries.
Entry `o` of the Go array is entry `o % 64` of block `o / 64`.
-/
set_option maxRecDepth 4000
namespace Uax29.Graphemes.Table.Index
/-- graphemes/trie.go, graphemesIndex, block 0x0, offset 0x0. -/
def b0 : List Nat := [0,0,0,0,0,0,0,0,0,0,0,0,0,0,0,0,0,0,0,0,0,0,0,0,0,0,0,0,0,0,0,0,0,0,0,0,0,0,0,0,0,0,0,0,0,0,0,0,0,0,0,0,0,0,0,0,0,0,0,0,0,0,0,0]
/-- graphemes/trie.go, graphemesIndex, block 0x1, offset 0x40. -/
def b1 : List Nat := [0,0,0,0,0,0,0,0,0,0,0,0,0,0,0,0,0,0,0,0,0,0,0,0,0,0,0,0,0,0,0,0,0,0,0,0,0,0,0,0,0,0,0,0,0,0,0,0,0,0,0,0,0,0,0,0,0,0,0,0,0,0,0,0]
/-- graphemes/trie.go, graphemesIndex, block 0x2, offset 0x80. -/
def b2 : List Nat := [0,0,0,0,0,0,0,0,0,0,0,0,0,0,0,0,0,0,0,0,0,0,0,0,0,0,0,0,0,0,0,0,0,0,0,0,0,0,0,0,0,0,0,0,0,0,0,0,0,0,0,0,0,0,0,0,0,0,0,0,0,0,0,0]
/-- graphemes/trie.go, graphemesIndex, block 0x3, offset 0xc0. -/
def b3 : List Nat := [0,0,1,0,0,0,0,0,0,0,0,0,2,3,0,0,0,0,4,0,0,0,5,6,7,8,0,9,10,11,12,13,2,3,4,5,0,0,0,0,0,0,6,7,8,9,0,10,20,0,0,22,0,0,0,0,0,0,0,0,0,0,0,0]
/-- graphemes/trie.go, graphemesIndex, block 0x4, offset 0x100. -/
def b4 : List Nat := [0,0,0,0,0,0,0,0,0,0,0,0,0,0,0,0,0,0,0,0,0,0,0,0,0,0,0,0,0,0,0,0,14,15,16,17,18,19,20,21,22,23,24,25,26,27,28,29,30,31,32,33,34,35,36,37,38,39,40,41,42,43,44,45]
/-- graphemes/trie.go, graphemesIndex, block 0x5, offset 0x140. -/
def b5 : List Nat := [46,47,48,0,49,50,51,52,0,0,0,0,0,53,0,0,0,0,0,0,0,0,0,0,0,0,0,0,54,55,56,57,58,0,59,0,60,0,0,0,61,62,63,64,65,66,67,68,69,0,0,70,0,0,0,2,0,0,0,0,0,0,0,0]
/-- graphemes/trie.go, graphemesIndex, block 0x6, offset 0x180. -/
def b6 : List Nat := [71,72,0,73,74,0,75,0,0,0,0,0,76,0,0,77,0,0,0,78,0,0,79,80,81,82,83,84,85,86,87,0,0,0,0,0,88,0,0,0,0,0,0,0,89,90,0,0,0,0,0,91,0,92,0,93,0,0,0,0,0,0,0,0]
/-- graphemes/trie.go, graphemesIndex, block 0x7, offset 0x1c0. -/
def b7 : List Nat := [94,0,95,0,0,0,0,0,0,0,96,0,0,0,0,0,0,0,0,0,0,0,0,0,0,0,0,0,0,0,0,0,0,0,0,0,0,0,0,0,0,0,0,0,0,0,0,0,0,0,0,0,0,0,0,0,0,0,0,0,0,0,0,0]
/-- graphemes/trie.go, graphemesIndex, block 0x8, offset 0x200. -/
def b8 : List Nat := [0,0,0,0,0,0,0,0,0,0,0,0,0,0,0,0,0,0,0,0,0,0,0,0,0,97,98,99,0,0,0,0,100,0,101,102,103,104,105,106,107,108,109,110,0,0,0,111,112,113,114,115,116,117,118,112,113,114,115,116,117,118,112,113]
/-- graphemes/trie.go, graphemesIndex, block 0x9, offset 0x240. -/
def b9 : List Nat := [114,115,116,117,118,112,113,114,115,116,117,118,112,113,114,115,116,117,118,112,113,114,115,116,117,118,112,113,114,115,116,117,118,112,113,114,115,116,117,118,112,113,114,115,116,117,118,112,113,114,115,116,117,118,112,113,114,115,116,117,118,112,113,114]
/-- graphemes/trie.go, graphemesIndex, block 0xa, offset 0x280. -/
def b10 : List Nat := [115,116,117,118,112,113,114,115,116,117,118,112,113,114,115,116,117,118,112,113,114,115,116,117,118,112,113,114,115,116,117,118,112,113,114,115,116,117,118,112,113,114,115,116,117,118,112,113,114,115,116,117,118,112,113,114,115,116,117,118,112,113,114,115]
/-- graphemes/trie.go, graphemesIndex, block 0xb, offset 0x2c0. -/
def b11 : List Nat := [116,117,118,112,113,114,115,116,117,118,112,113,114,115,116,117,118,112,113,114,115,116,117,118,112,113,114,115,116,117,119,120,0,0,0,0,0,0,0,0,0,0,0,0,0,0,0,0,0,0,0,0,0,0,0,0,0,0,0,0,0,0,0,0]
/-- graphemes/trie.go, graphemesIndex, block 0xc, offset 0x300. -/
def b12 : List Nat := [0,0,0,0,0,0,0,0,0,0,0,0,0,0,0,0,0,0,0,0,0,0,0,0,0,0,0,0,0,0,0,0,0,0,0,0,0,0,0,0,0,0,0,0,121,0,0,0,0,0,0,0,0,0,0,0,122,0,0,123,0,0,98,124]
/-- graphemes/trie.go, graphemesIndex, block 0xd, offset 0x340. -/
def b13 : List Nat := [0,0,0,0,0,0,0,125,0,0,0,126,0,127,0,0,0,0,0,0,0,0,0,0,0,0,0,0,0,0,0,0,0,0,0,0,0,0,0,0,128,0,0,129,0,0,0,0,0,0,0,0,130,131,0,0,0,0,132,133,0,134,135,0]
/-- graphemes/trie.go, graphemesIndex, block 0xe, offset 0x380. -/
def b14 : List Nat := [136,137,138,139,140,141,142,143,144,145,0,146,147,148,149,150,151,152,153,154,0,0,155,156,157,158,159,0,160,0,0,0,161,0,0,0,162,163,0,164,165,166,167,0,0,168,0,0,169,0,170,0,171,172,173,0,0,0,0,174,175,176,0,0]
/-- graphemes/trie.go, graphemesIndex, block 0xf, offset 0x3c0. -/
def b15 : List Nat := [0,0,0,0,0,0,0,0,0,0,0,0,0,0,0,0,177,178,0,0,0,0,0,0,0,0,0,0,0,0,0,0,0,0,0,0,0,0,0,0,0,0,0,0,0,0,0,0,0,0,0,0,0,0,0,0,0,0,0,0,0,0,0,0]
/-- graphemes/trie.go, graphemesIndex, block 0x10, offset 0x400. -/
def b16 : List Nat := [0,0,0,0,179,0,0,0,0,0,0,0,0,0,0,0,0,0,0,0,0,0,0,0,0,0,0,0,0,0,0,0,0,0,0,0,0,0,0,0,0,0,0,180,181,0,0,0,0,0,0,0,0,182,0,0,0,0,0,0,0,183,184,185]
/-- graphemes/trie.go, graphemesIndex, block 0x11, offset 0x440. -/
def b17 : List Nat := [0,0,0,0,0,0,0,0,0,0,0,0,0,0,0,0,0,0,0,0,0,0,0,0,0,0,0,0,0,0,0,0,0,0,0,0,0,0,0,0,0,0,0,0,0,0,0,0,0,0,186,0,0,0,0,0,0,0,0,0,0,0,0,0]
/-- graphemes/trie.go, graphemesIndex, block 0x12, offset 0x480. -/
def b18 : List Nat := [0,0,0,0,0,0,0,0,0,0,0,0,0,0,0,0,0,0,0,0,0,0,0,0,0,0,0,0,0,0,0,0,0,0,0,0,0,0,0,0,0,0,0,0,0,0,0,0,0,0,0,0,0,0,0,0,0,0,0,0,187,188,0,0]
/-- graphemes/trie.go, graphemesIndex, block 0x13, offset 0x4c0. -/
def b19 : List Nat := [0,0,0,0,0,189,190,0,0,191,0,0,0,0,0,0,0,0,0,0,0,0,0,0,0,0,0,0,0,0,0,0,0,0,0,0,0,0,0,0,192,193,194,0,0,0,0,0,0,0,0,0,0,0,0,0,0,0,0,0,0,0,0,0]
/-- graphemes/trie.go, graphemesIndex, block 0x14, offset 0x500. -/
def b20 : List Nat := [195,0,196,0,181,0,0,0,0,0,197,198,0,0,0,0,0,0,0,198,0,0,0,199,0,0,0,200,0,0,0,0,0,0,0,201,0,202,0,0,0,0,0,0,0,0,0,0,0,0,0,0,0,0,0,0,0,0,0,0,0,0,0,0]
/-- graphemes/trie.go, graphemesIndex, block 0x15, offset 0x540. -/
def b21 : List Nat := [203,0,204,205,0,206,207,208,209,210,211,211,212,211,213,214,211,211,211,215,216,217,218,219,211,220,211,221,0,0,0,222,223,224,225,226,227,228,211,211,0,229,211,211,0,0,0,0,211,211,211,211,211,211,211,211,211,211,211,211,211,211,211,216]
/-- graphemes/trie.go, graphemesIndex, block 0x16, offset 0x580. -/
def b22 : List Nat := [0,0,0,0,0,0,0,0,0,0,0,0,0,0,0,0,11,12,0,13,0,0,14,0,0,0,0,15,16,17,18,19,0,0,0,0,0,0,0,0,0,0,0,0,0,0,0,0,0,0,0,0,0,0,0,0,0,0,0,0,0,0,0,0]
/-- graphemes/trie.go, graphemesIndex, block 0x17, offset 0x5c0. -/
def b23 : List Nat := [230,2,231,231,2,2,2,232,231,231,231,231,231,231,231,231,231,231,231,231,231,231,231,231,231,231,231,231,231,231,231,231,231,231,231,231,231,231,231,231,231,231,231,231,231,231,231,231,231,231,231,231,231,231,231,231,231,231,231,231,231,231,231,231]
/-- graphemes/trie.go, graphemesIndex, block 0x18, offset 0x600. -/
def b24 : List Nat := [0,0,0,0,0,0,0,0,0,0,0,0,0,0,0,0,0,0,0,0,0,0,0,0,0,0,0,0,0,0,0,0,21,0,0,0,0,0,0,0,0,0,0,0,0,0,0,0,0,0,0,0,0,0,0,0,0,0,0,0,0,0,0,0]
/-- graphemes/trie.go:1591-1717, `graphemesIndex`, all blocks in order. -/
def blocks : List (List Nat) := [b0,b1,b2,b3,b4,b5,b6,b7,b8,b9,b10,b11,b12,b13,b14,b15,b16,b17,b18,b19,b20,b21,b22,b23,b24]
end Uax29.Graphemes.Table.Index
