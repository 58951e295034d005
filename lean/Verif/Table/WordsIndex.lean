/-!
GENERATED by tools/gen_tables.py from words/trie.go:3551-3774. Do not edit.
`wordsIndex` (2304 entries) as its 36 blocks of 64 entries.
Entry `o` of the Go array is entry `o % 64` of block `o / 64`.
-/
set_option maxRecDepth 4000
namespace Uax29.Words.Table.Index
/-- words/trie.go, wordsIndex, block 0x0, offset 0x0. -/
def b0 : List Nat := [0,0,0,0,0,0,0,0,0,0,0,0,0,0,0,0,0,0,0,0,0,0,0,0,0,0,0,0,0,0,0,0,0,0,0,0,0,0,0,0,0,0,0,0,0,0,0,0,0,0,0,0,0,0,0,0,0,0,0,0,0,0,0,0]
/-- words/trie.go, wordsIndex, block 0x1, offset 0x40. -/
def b1 : List Nat := [0,0,0,0,0,0,0,0,0,0,0,0,0,0,0,0,0,0,0,0,0,0,0,0,0,0,0,0,0,0,0,0,0,0,0,0,0,0,0,0,0,0,0,0,0,0,0,0,0,0,0,0,0,0,0,0,0,0,0,0,0,0,0,0]
/-- words/trie.go, wordsIndex, block 0x2, offset 0x80. -/
def b2 : List Nat := [0,0,0,0,0,0,0,0,0,0,0,0,0,0,0,0,0,0,0,0,0,0,0,0,0,0,0,0,0,0,0,0,0,0,0,0,0,0,0,0,0,0,0,0,0,0,0,0,0,0,0,0,0,0,0,0,0,0,0,0,0,0,0,0]
/-- words/trie.go, wordsIndex, block 0x3, offset 0xc0. -/
def b3 : List Nat := [0,0,1,2,3,3,3,3,3,3,3,4,5,6,7,8,3,3,9,3,10,11,12,13,14,15,3,16,17,18,19,20,2,3,4,5,6,7,7,7,7,7,8,9,9,10,0,11,31,0,0,33,0,0,0,0,0,0,0,0,0,0,0,0]
/-- words/trie.go, wordsIndex, block 0x4, offset 0x100. -/
def b4 : List Nat := [0,0,0,0,0,0,0,0,0,0,0,0,0,0,0,0,0,0,0,0,0,0,0,0,0,0,0,0,0,0,0,0,21,22,23,24,25,26,27,28,29,30,31,32,33,34,35,36,37,38,39,40,41,42,43,44,45,46,47,48,49,50,51,52]
/-- words/trie.go, wordsIndex, block 0x5, offset 0x140. -/
def b5 : List Nat := [53,54,55,56,3,3,3,3,3,57,58,59,60,61,62,63,64,3,3,3,3,3,3,3,3,65,66,67,68,69,70,71,72,73,74,75,76,77,0,78,79,80,81,82,83,84,85,86,87,88,89,90,3,3,3,5,3,3,3,3,91,92,93,94]
/-- words/trie.go, wordsIndex, block 0x6, offset 0x180. -/
def b6 : List Nat := [95,96,97,98,99,100,101,0,0,0,0,0,102,0,0,103,0,0,104,105,0,0,106,107,108,109,110,111,112,113,114,0,0,0,0,0,115,0,0,0,0,0,0,0,116,117,0,0,3,3,3,118,119,120,121,122,123,0,124,125,126,126,126,127]
/-- words/trie.go, wordsIndex, block 0x7, offset 0x1c0. -/
def b7 : List Nat := [128,129,130,131,132,3,133,134,0,0,135,136,137,138,0,0,126,126,126,126,126,126,126,126,126,126,126,126,126,126,126,126,126,126,126,126,126,126,126,126,126,126,126,126,126,126,126,126,126,126,126,126,126,126,126,126,126,126,126,126,126,126,126,126]
/-- words/trie.go, wordsIndex, block 0x8, offset 0x200. -/
def b8 : List Nat := [126,126,126,126,126,126,126,126,126,126,126,126,126,126,126,126,126,126,126,126,126,126,126,126,126,126,126,126,126,126,126,126,126,126,126,126,126,126,126,126,126,126,126,126,126,126,126,126,126,126,126,126,126,126,126,0,126,126,126,126,126,126,126,126]
/-- words/trie.go, wordsIndex, block 0x9, offset 0x240. -/
def b9 : List Nat := [126,126,126,126,126,126,126,126,126,126,126,126,126,126,126,126,126,126,126,126,126,126,126,126,126,126,126,126,126,126,126,126,126,126,126,126,126,126,126,126,126,126,126,126,126,126,126,126,126,126,126,126,126,126,126,126,126,126,126,126,126,126,126,126]
/-- words/trie.go, wordsIndex, block 0xa, offset 0x280. -/
def b10 : List Nat := [3,3,3,3,3,3,3,3,3,3,3,3,3,3,3,3,3,3,139,140,3,3,3,3,141,142,143,144,145,3,3,146,147,148,149,150,151,152,153,154,155,156,157,158,159,160,3,161,3,3,3,3,3,3,3,3,3,3,3,3,3,3,3,3]
/-- words/trie.go, wordsIndex, block 0xb, offset 0x2c0. -/
def b11 : List Nat := [3,3,3,3,3,3,3,3,3,3,3,3,3,3,3,3,3,3,3,3,3,3,3,3,3,3,3,3,3,3,3,3,3,3,3,3,3,3,3,3,3,3,3,3,3,3,3,3,3,3,3,3,3,3,3,3,3,3,3,3,3,3,3,3]
/-- words/trie.go, wordsIndex, block 0xc, offset 0x300. -/
def b12 : List Nat := [3,3,3,3,3,3,3,3,3,3,3,3,3,3,3,3,3,3,3,3,3,3,3,3,3,3,3,3,3,3,162,163,0,0,0,0,0,0,0,0,0,0,0,0,0,0,0,0,0,0,0,0,0,0,0,0,0,0,0,0,0,0,0,0]
/-- words/trie.go, wordsIndex, block 0xd, offset 0x340. -/
def b13 : List Nat := [0,0,0,0,0,0,0,0,0,0,0,0,0,0,0,0,0,0,0,0,0,0,0,0,0,0,0,0,0,0,0,0,0,0,0,0,126,126,126,126,126,164,126,165,166,167,168,169,3,3,3,3,170,171,172,173,174,175,3,176,177,178,179,180]
/-- words/trie.go, wordsIndex, block 0xe, offset 0x380. -/
def b14 : List Nat := [181,182,3,183,0,184,0,185,0,0,186,187,188,189,190,191,3,3,192,193,194,195,196,148,3,3,3,3,197,198,199,0,200,201,202,203,204,205,206,0,207,208,209,210,75,211,212,0,3,213,214,214,215,216,217,0,0,0,218,219,220,221,222,223]
/-- words/trie.go, wordsIndex, block 0xf, offset 0x3c0. -/
def b15 : List Nat := [224,225,226,227,228,229,230,231,232,233,234,235,236,237,238,239,240,241,242,243,0,0,244,245,242,246,247,248,249,0,0,0,250,0,251,252,253,254,255,256,257,258,259,73,0,260,0,261,262,263,264,0,265,266,267,268,0,0,0,269,270,271,272,0]
/-- words/trie.go, wordsIndex, block 0x10, offset 0x400. -/
def b16 : List Nat := [3,3,3,3,3,3,3,3,3,3,3,3,3,3,205,0,3,273,3,3,3,274,0,0,0,0,0,0,0,0,0,0,0,0,0,0,0,0,0,0,0,0,0,0,0,0,0,0,0,0,0,0,0,0,0,0,0,0,0,0,0,0,171,275]
/-- words/trie.go, wordsIndex, block 0x11, offset 0x440. -/
def b17 : List Nat := [3,3,3,3,3,3,3,3,3,3,3,3,3,3,3,3,276,277,3,3,3,3,3,3,3,3,3,3,3,3,3,3,3,3,3,3,3,3,3,3,3,3,3,3,3,3,3,3,3,3,3,3,3,3,3,3,3,3,3,3,3,3,3,3]
/-- words/trie.go, wordsIndex, block 0x12, offset 0x480. -/
def b18 : List Nat := [3,3,3,3,3,3,3,3,3,3,3,3,3,3,3,183,3,3,3,3,3,3,3,3,3,278,0,0,0,0,0,0,0,0,0,0,0,0,0,0,0,0,0,0,0,0,0,0,0,0,0,0,0,0,0,0,0,0,0,0,0,0,0,0]
/-- words/trie.go, wordsIndex, block 0x13, offset 0x4c0. -/
def b19 : List Nat := [0,0,0,0,279,0,0,0,0,0,0,0,0,0,0,0,0,0,0,0,0,0,0,0,0,0,0,0,0,0,0,0,3,3,3,3,3,3,3,3,73,280,281,282,283,284,285,0,0,0,0,0,0,286,0,0,0,3,287,288,3,289,290,291]
/-- words/trie.go, wordsIndex, block 0x14, offset 0x500. -/
def b20 : List Nat := [0,0,0,0,0,0,0,0,0,0,0,0,0,0,0,0,0,0,0,0,0,0,0,0,0,0,0,0,0,0,0,0,0,0,0,0,0,0,0,0,0,0,0,0,0,0,0,0,0,0,0,0,0,0,0,0,0,0,0,0,0,0,0,292]
/-- words/trie.go, wordsIndex, block 0x15, offset 0x540. -/
def b21 : List Nat := [293,126,126,126,294,295,0,0,0,0,0,0,0,0,0,0,0,0,0,0,0,0,0,0,0,0,0,0,0,0,0,0,0,0,0,0,0,0,0,0,0,0,0,0,0,0,0,0,3,296,297,0,0,0,0,0,0,0,0,0,0,0,0,0]
/-- words/trie.go, wordsIndex, block 0x16, offset 0x580. -/
def b22 : List Nat := [0,0,0,0,0,0,0,0,0,0,0,0,0,0,0,0,0,0,0,0,0,0,0,0,0,0,0,0,0,0,0,0,0,0,0,0,0,0,0,0,0,0,0,0,0,0,0,0,0,0,0,298,0,0,0,0,0,0,0,0,299,300,0,0]
/-- words/trie.go, wordsIndex, block 0x17, offset 0x5c0. -/
def b23 : List Nat := [0,0,0,0,0,301,302,0,0,303,0,0,0,0,0,0,3,304,305,306,307,308,3,3,3,3,309,310,311,312,313,314,0,0,0,0,0,0,0,0,315,316,317,0,0,0,0,0,0,0,0,0,0,0,0,0,0,0,0,0,318,0,0,0]
/-- words/trie.go, wordsIndex, block 0x18, offset 0x600. -/
def b24 : List Nat := [319,320,321,0,322,323,0,0,0,0,324,325,0,0,0,0,0,0,0,326,0,0,0,327,0,0,0,328,0,0,0,329,3,3,3,330,3,331,0,0,0,0,0,0,0,0,0,0,0,0,0,0,0,0,0,0,332,333,334,0,0,0,0,0]
/-- words/trie.go, wordsIndex, block 0x19, offset 0x640. -/
def b25 : List Nat := [335,0,336,337,338,339,340,341,342,343,344,344,345,344,346,347,344,344,344,348,349,350,351,352,344,353,344,354,0,0,0,355,356,357,358,359,360,361,344,344,0,362,344,344,0,0,0,298,344,344,344,344,344,344,344,344,344,344,344,344,344,344,344,349]
/-- words/trie.go, wordsIndex, block 0x1a, offset 0x680. -/
def b26 : List Nat := [126,126,126,126,126,126,126,126,126,126,126,126,126,126,126,126,126,126,126,126,126,126,126,126,126,126,126,363,126,126,126,126,126,126,126,126,126,126,126,126,126,126,126,126,126,126,126,126,126,126,126,126,126,126,126,126,126,126,126,126,126,126,126,126]
/-- words/trie.go, wordsIndex, block 0x1b, offset 0x6c0. -/
def b27 : List Nat := [126,126,126,126,126,126,126,126,126,126,126,126,126,126,126,126,126,126,126,126,126,126,126,126,126,126,126,126,364,126,126,126,365,126,126,126,126,126,126,126,126,126,126,126,126,126,126,126,126,126,126,126,126,126,126,126,126,126,126,126,126,126,126,126]
/-- words/trie.go, wordsIndex, block 0x1c, offset 0x700. -/
def b28 : List Nat := [126,126,126,126,126,126,126,126,126,126,126,126,126,126,126,126,126,126,126,126,126,126,126,126,126,126,126,126,126,126,126,126,126,126,126,126,126,126,126,126,126,126,126,126,126,126,126,126,126,126,126,126,126,126,126,126,126,126,366,126,126,126,126,126]
/-- words/trie.go, wordsIndex, block 0x1d, offset 0x740. -/
def b29 : List Nat := [126,126,126,126,126,126,126,126,126,126,126,126,126,126,126,126,126,126,126,126,126,126,126,126,126,126,126,126,126,126,126,126,126,126,126,126,126,126,126,126,126,126,126,126,126,126,126,367,0,0,0,0,0,0,0,0,0,0,0,0,0,0,0,0]
/-- words/trie.go, wordsIndex, block 0x1e, offset 0x780. -/
def b30 : List Nat := [0,0,0,0,0,0,0,0,0,0,0,0,0,0,0,0,0,0,0,0,0,0,0,0,0,0,0,0,0,0,0,0,126,126,126,126,126,126,126,126,368,0,0,0,0,0,0,0,0,0,0,0,0,0,0,0,0,0,0,0,0,0,0,0]
/-- words/trie.go, wordsIndex, block 0x1f, offset 0x7c0. -/
def b31 : List Nat := [126,126,126,126,126,126,126,126,126,126,126,126,126,369,126,126,126,126,126,126,126,126,126,126,126,126,126,126,126,126,126,126,126,126,126,126,126,126,126,126,126,126,126,126,126,126,126,126,126,126,126,126,126,126,126,126,126,126,126,126,126,126,126,126]
/-- words/trie.go, wordsIndex, block 0x20, offset 0x800. -/
def b32 : List Nat := [126,126,126,126,126,126,126,126,126,126,126,126,126,126,370,0,0,0,0,0,0,0,0,0,0,0,0,0,0,0,0,0,0,0,0,0,0,0,0,0,0,0,0,0,0,0,0,0,0,0,0,0,0,0,0,0,0,0,0,0,0,0,0,0]
/-- words/trie.go, wordsIndex, block 0x21, offset 0x840. -/
def b33 : List Nat := [0,0,0,0,0,0,0,0,0,0,0,0,0,0,0,0,12,13,14,15,16,0,17,0,0,0,18,19,20,21,22,23,7,7,7,7,7,7,7,7,7,7,24,25,26,7,27,28,7,29,30,0,0,0,0,0,0,0,0,0,0,0,0,0]
/-- words/trie.go, wordsIndex, block 0x22, offset 0x880. -/
def b34 : List Nat := [371,5,0,0,5,5,5,372,0,0,0,0,0,0,0,0,0,0,0,0,0,0,0,0,0,0,0,0,0,0,0,0,0,0,0,0,0,0,0,0,0,0,0,0,0,0,0,0,0,0,0,0,0,0,0,0,0,0,0,0,0,0,0,0]
/-- words/trie.go, wordsIndex, block 0x23, offset 0x8c0. -/
def b35 : List Nat := [0,0,0,0,0,0,0,0,0,0,0,0,0,0,0,0,0,0,0,0,0,0,0,0,0,0,0,0,0,0,0,0,32,0,0,0,0,0,0,0,0,0,0,0,0,0,0,0,0,0,0,0,0,0,0,0,0,0,0,0,0,0,0,0]
/-- words/trie.go:3551-3774, `wordsIndex`, all blocks in order. -/
def blocks : List (List Nat) := [b0,b1,b2,b3,b4,b5,b6,b7,b8,b9,b10,b11,b12,b13,b14,b15,b16,b17,b18,b19,b20,b21,b22,b23,b24,b25,b26,b27,b28,b29,b30,b31,b32,b33,b34,b35]
end Uax29.Words.Table.Index
