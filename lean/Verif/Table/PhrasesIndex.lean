/-!
GENERATED by tools/gen_tables.py from phrases/trie.go:3383-3529. Do not edit.
`phrasesIndex` (1728 entries) as its 27 blocks of 64 entries.
Entry `o` of the Go array is entry `o % 64` of block `o / 64`.
-/
set_option maxRecDepth 4000
namespace Uax29.Phrases.Table.Index
/-- phrases/trie.go, phrasesIndex, block 0x0, offset 0x0. -/
def b0 : List Nat := [0,0,0,0,0,0,0,0,0,0,0,0,0,0,0,0,0,0,0,0,0,0,0,0,0,0,0,0,0,0,0,0,0,0,0,0,0,0,0,0,0,0,0,0,0,0,0,0,0,0,0,0,0,0,0,0,0,0,0,0,0,0,0,0]
/-- phrases/trie.go, phrasesIndex, block 0x1, offset 0x40. -/
def b1 : List Nat := [0,0,0,0,0,0,0,0,0,0,0,0,0,0,0,0,0,0,0,0,0,0,0,0,0,0,0,0,0,0,0,0,0,0,0,0,0,0,0,0,0,0,0,0,0,0,0,0,0,0,0,0,0,0,0,0,0,0,0,0,0,0,0,0]
/-- phrases/trie.go, phrasesIndex, block 0x2, offset 0x80. -/
def b2 : List Nat := [0,0,0,0,0,0,0,0,0,0,0,0,0,0,0,0,0,0,0,0,0,0,0,0,0,0,0,0,0,0,0,0,0,0,0,0,0,0,0,0,0,0,0,0,0,0,0,0,0,0,0,0,0,0,0,0,0,0,0,0,0,0,0,0]
/-- phrases/trie.go, phrasesIndex, block 0x3, offset 0xc0. -/
def b3 : List Nat := [0,0,1,2,3,3,3,3,3,3,3,4,5,6,7,8,3,3,9,3,10,11,12,13,14,15,3,16,17,18,19,20,2,3,4,5,0,0,0,0,0,0,6,7,7,8,0,9,22,0,0,24,0,0,0,0,0,0,0,0,0,0,0,0]
/-- phrases/trie.go, phrasesIndex, block 0x4, offset 0x100. -/
def b4 : List Nat := [0,0,0,0,0,0,0,0,0,0,0,0,0,0,0,0,0,0,0,0,0,0,0,0,0,0,0,0,0,0,0,0,21,22,23,24,25,26,27,28,29,30,31,32,33,34,35,36,37,38,39,40,41,42,43,44,45,46,47,48,49,50,51,52]
/-- phrases/trie.go, phrasesIndex, block 0x5, offset 0x140. -/
def b5 : List Nat := [53,54,55,56,3,3,3,3,3,57,58,59,60,61,62,63,64,3,3,3,3,3,3,3,3,65,66,67,68,69,70,71,72,73,74,75,76,77,0,78,79,80,81,82,83,84,85,86,87,88,89,90,3,3,3,5,3,3,3,3,91,92,93,94]
/-- phrases/trie.go, phrasesIndex, block 0x6, offset 0x180. -/
def b6 : List Nat := [95,96,97,98,99,100,101,0,0,0,0,0,102,0,0,103,0,0,104,105,0,0,106,107,108,109,110,111,112,113,114,0,0,0,0,0,115,0,0,0,0,0,0,0,116,117,0,0,3,3,3,118,119,120,121,122,123,0,0,0,0,0,0,0]
/-- phrases/trie.go, phrasesIndex, block 0x7, offset 0x1c0. -/
def b7 : List Nat := [124,0,125,126,127,3,128,129,0,0,130,131,132,133,0,0,0,0,0,0,0,0,0,0,0,0,0,0,0,0,0,0,0,0,0,0,0,0,0,0,0,0,0,0,0,0,0,0,0,0,0,0,0,0,0,0,0,0,0,0,0,0,0,0]
/-- phrases/trie.go, phrasesIndex, block 0x8, offset 0x200. -/
def b8 : List Nat := [3,3,3,3,3,3,3,3,3,3,3,3,3,3,3,3,3,3,134,135,3,3,3,3,136,137,138,139,140,3,3,141,142,143,144,145,146,147,148,149,150,151,152,153,154,155,3,156,3,3,3,3,3,3,3,3,3,3,3,3,3,3,3,3]
/-- phrases/trie.go, phrasesIndex, block 0x9, offset 0x240. -/
def b9 : List Nat := [3,3,3,3,3,3,3,3,3,3,3,3,3,3,3,3,3,3,3,3,3,3,3,3,3,3,3,3,3,3,3,3,3,3,3,3,3,3,3,3,3,3,3,3,3,3,3,3,3,3,3,3,3,3,3,3,3,3,3,3,3,3,3,3]
/-- phrases/trie.go, phrasesIndex, block 0xa, offset 0x280. -/
def b10 : List Nat := [3,3,3,3,3,3,3,3,3,3,3,3,3,3,3,3,3,3,3,3,3,3,3,3,3,3,3,3,3,3,157,158,0,0,0,0,0,0,0,0,0,0,0,0,0,0,0,0,0,0,0,0,0,0,0,0,0,0,0,0,0,0,0,0]
/-- phrases/trie.go, phrasesIndex, block 0xb, offset 0x2c0. -/
def b11 : List Nat := [0,0,0,0,0,0,0,0,0,0,0,0,0,0,0,0,0,0,0,0,0,0,0,0,0,0,0,0,0,0,0,0,0,0,0,0,0,0,0,0,0,0,0,0,159,160,161,162,3,3,3,3,163,164,165,166,167,168,3,169,170,171,172,173]
/-- phrases/trie.go, phrasesIndex, block 0xc, offset 0x300. -/
def b12 : List Nat := [174,175,3,176,0,177,0,178,0,0,179,180,181,182,183,184,3,3,185,186,187,188,189,143,3,3,3,3,190,191,192,0,193,194,195,196,197,198,199,0,200,201,202,203,75,204,205,0,3,206,207,207,208,209,210,0,0,0,211,212,213,214,215,216]
/-- phrases/trie.go, phrasesIndex, block 0xd, offset 0x340. -/
def b13 : List Nat := [217,218,219,220,221,222,223,224,225,226,227,228,229,230,231,232,233,234,235,236,0,0,237,238,235,239,240,241,242,0,0,0,243,0,244,245,246,247,248,249,250,251,252,73,0,253,0,254,255,256,257,0,258,259,260,261,0,0,0,262,263,264,265,0]
/-- phrases/trie.go, phrasesIndex, block 0xe, offset 0x380. -/
def b14 : List Nat := [3,3,3,3,3,3,3,3,3,3,3,3,3,3,198,0,3,266,3,3,3,267,0,0,0,0,0,0,0,0,0,0,0,0,0,0,0,0,0,0,0,0,0,0,0,0,0,0,0,0,0,0,0,0,0,0,0,0,0,0,0,0,164,268]
/-- phrases/trie.go, phrasesIndex, block 0xf, offset 0x3c0. -/
def b15 : List Nat := [3,3,3,3,3,3,3,3,3,3,3,3,3,3,3,3,269,270,3,3,3,3,3,3,3,3,3,3,3,3,3,3,3,3,3,3,3,3,3,3,3,3,3,3,3,3,3,3,3,3,3,3,3,3,3,3,3,3,3,3,3,3,3,3]
/-- phrases/trie.go, phrasesIndex, block 0x10, offset 0x400. -/
def b16 : List Nat := [3,3,3,3,3,3,3,3,3,3,3,3,3,3,3,176,3,3,3,3,3,3,3,3,3,271,0,0,0,0,0,0,0,0,0,0,0,0,0,0,0,0,0,0,0,0,0,0,0,0,0,0,0,0,0,0,0,0,0,0,0,0,0,0]
/-- phrases/trie.go, phrasesIndex, block 0x11, offset 0x440. -/
def b17 : List Nat := [0,0,0,0,272,0,0,0,0,0,0,0,0,0,0,0,0,0,0,0,0,0,0,0,0,0,0,0,0,0,0,0,3,3,3,3,3,3,3,3,73,273,274,275,276,277,278,0,0,0,0,0,0,279,0,0,0,3,280,281,3,282,283,284]
/-- phrases/trie.go, phrasesIndex, block 0x12, offset 0x480. -/
def b18 : List Nat := [0,0,0,0,0,0,0,0,0,0,0,0,0,0,0,0,0,0,0,0,0,0,0,0,0,0,0,0,0,0,0,0,0,0,0,0,0,0,0,0,0,0,0,0,0,0,0,0,0,0,0,0,0,0,0,0,0,0,0,0,0,0,0,285]
/-- phrases/trie.go, phrasesIndex, block 0x13, offset 0x4c0. -/
def b19 : List Nat := [286,0,0,0,287,288,0,0,0,0,0,0,0,0,0,0,0,0,0,0,0,0,0,0,0,0,0,0,0,0,0,0,0,0,0,0,0,0,0,0,0,0,0,0,0,0,0,0,3,289,290,0,0,0,0,0,0,0,0,0,0,0,0,0]
/-- phrases/trie.go, phrasesIndex, block 0x14, offset 0x500. -/
def b20 : List Nat := [0,0,0,0,0,0,0,0,0,0,0,0,0,0,0,0,0,0,0,0,0,0,0,0,0,0,0,0,0,0,0,0,0,0,0,0,0,0,0,0,0,0,0,0,0,0,0,0,0,0,0,291,0,0,0,0,0,0,0,0,292,293,0,0]
/-- phrases/trie.go, phrasesIndex, block 0x15, offset 0x540. -/
def b21 : List Nat := [0,0,0,0,0,294,295,0,0,296,0,0,0,0,0,0,3,297,298,299,300,301,3,3,3,3,302,303,304,305,306,307,0,0,0,0,0,0,0,0,308,309,310,0,0,0,0,0,0,0,0,0,0,0,0,0,0,0,0,0,311,0,0,0]
/-- phrases/trie.go, phrasesIndex, block 0x16, offset 0x580. -/
def b22 : List Nat := [312,313,314,0,315,316,0,0,0,0,317,318,0,0,0,0,0,0,0,319,0,0,0,320,0,0,0,321,0,0,0,322,3,3,3,323,3,324,0,0,0,0,0,0,0,0,0,0,0,0,0,0,0,0,0,0,325,326,327,0,0,0,0,0]
/-- phrases/trie.go, phrasesIndex, block 0x17, offset 0x5c0. -/
def b23 : List Nat := [328,0,329,330,331,332,333,334,335,336,337,337,338,337,339,340,337,337,337,341,342,343,344,345,337,346,337,347,0,0,0,348,349,350,351,352,353,354,337,337,0,355,337,337,0,0,0,291,337,337,337,337,337,337,337,337,337,337,337,337,337,337,337,342]
/-- phrases/trie.go, phrasesIndex, block 0x18, offset 0x600. -/
def b24 : List Nat := [0,0,0,0,0,0,0,0,0,0,0,0,0,0,0,0,10,11,12,13,14,0,15,0,0,0,16,17,18,19,20,21,0,0,0,0,0,0,0,0,0,0,0,0,0,0,0,0,0,0,0,0,0,0,0,0,0,0,0,0,0,0,0,0]
/-- phrases/trie.go, phrasesIndex, block 0x19, offset 0x640. -/
def b25 : List Nat := [356,5,0,0,5,5,5,357,0,0,0,0,0,0,0,0,0,0,0,0,0,0,0,0,0,0,0,0,0,0,0,0,0,0,0,0,0,0,0,0,0,0,0,0,0,0,0,0,0,0,0,0,0,0,0,0,0,0,0,0,0,0,0,0]
/-- phrases/trie.go, phrasesIndex, block 0x1a, offset 0x680. -/
def b26 : List Nat := [0,0,0,0,0,0,0,0,0,0,0,0,0,0,0,0,0,0,0,0,0,0,0,0,0,0,0,0,0,0,0,0,23,0,0,0,0,0,0,0,0,0,0,0,0,0,0,0,0,0,0,0,0,0,0,0,0,0,0,0,0,0,0,0]
/-- phrases/trie.go:3383-3529, `phrasesIndex`, all blocks in order. -/
def blocks : List (List Nat) := [b0,b1,b2,b3,b4,b5,b6,b7,b8,b9,b10,b11,b12,b13,b14,b15,b16,b17,b18,b19,b20,b21,b22,b23,b24,b25,b26]
end Uax29.Phrases.Table.Index
