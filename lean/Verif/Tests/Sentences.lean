import Verif.Tests.Check
/-!
GENERATED by tools/gen_tests.py from the tests in /repo. Do not edit.
-/
set_option maxRecDepth 20000
namespace Uax29.Tests

/-- TestASCIIOptimization in sentences/string_test.go: the expected tokens. -/
def sentencesTestASCIIOptimization : List (List (List Nat)) :=
  [[[72, 101, 108, 108, 111, 32, 119, 111, 114, 108, 100, 46]],
   [[72, 101, 108, 108, 111, 32, 119, 111, 114, 108, 100, 33]],
   [[72, 101, 108, 108, 111, 32, 119, 111, 114, 108, 100, 63]],
   [[72, 101, 108, 108, 111, 46, 32], [87, 111, 114, 108, 100, 46]],
   [[72, 101, 108, 108, 111, 46, 87, 111, 114, 108, 100, 46]],
   [[79, 110, 101, 46, 32], [84, 119, 111, 46, 32], [84, 104, 114, 101, 101, 46]],
   [[84, 104, 101, 32, 118, 97, 108, 117, 101, 32, 105, 115, 32, 51, 46, 49, 52, 32, 101, 120, 97, 99, 116, 108, 121, 46]],
   [[73, 116, 32, 99, 111, 115, 116, 115, 32, 57, 46, 57, 57, 32, 100, 111, 108, 108, 97, 114, 115, 46]],
   [[85, 115, 101, 32, 118, 101, 114, 115, 105, 111, 110, 32, 50, 46, 48, 32, 110, 111, 119, 46]],
   [[68, 114, 46, 32], [83, 109, 105, 116, 104, 32, 105, 115, 32, 104, 101, 114, 101, 46]],
   [[68, 114, 46, 83, 109, 105, 116, 104, 32, 105, 115, 32, 104, 101, 114, 101, 46]],
   [[86, 105, 115, 105, 116, 32, 116, 104, 101, 32, 85, 46, 83, 46, 65, 46, 32, 116, 111, 100, 97, 121, 46]],
   [[86, 105, 115, 105, 116, 32, 116, 104, 101, 32, 85, 46, 83, 46, 65, 46, 32], [84, 111, 100, 97, 121, 46]],
   [[72, 101, 108, 108, 111, 10], [87, 111, 114, 108, 100]],
   [[72, 101, 108, 108, 111, 13, 10], [87, 111, 114, 108, 100]],
   [[84, 104, 101, 32, 113, 117, 105, 99, 107, 32, 98, 114, 111, 119, 110, 32, 102, 111, 120, 32, 106, 117, 109, 112, 115, 32, 111, 118, 101, 114, 32, 52, 50, 32, 108, 97, 122, 121, 32, 100, 111, 103, 115]],
   [[97, 98, 99, 100, 101, 102, 103, 104, 105, 106, 107, 108, 109, 110, 111, 112, 113, 114, 115, 116, 117, 118, 119, 120, 121, 122]],
   [[65, 46, 32], [66, 46, 32], [67, 46]],
   [[84, 104, 105, 115, 32, 105, 115, 32, 97, 32, 118, 101, 114, 121, 32, 108, 111, 110, 103, 32, 115, 101, 110, 116, 101, 110, 99, 101, 32, 119, 105, 116, 104, 32, 109, 97, 110, 121, 32, 119, 111, 114, 100, 115, 46, 32], [78, 101, 120, 116, 46]],
   [[66, 117, 121, 32, 51, 46, 32], [71, 101, 116, 32, 49, 32, 102, 114, 101, 101, 46]],
   [[72, 101, 108, 108, 111, 32, 240, 159, 152, 128, 32, 119, 111, 114, 108, 100, 46]],
   [[72, 101, 108, 108, 111, 32, 99, 97, 102, 195, 169, 32, 119, 111, 114, 108, 100, 46]],
   [[72, 101, 108, 108, 111, 46, 32, 32], [87, 111, 114, 108, 100, 46]],
   [[72, 101, 108, 108, 111]],
   [[65]],
   [[32, 32, 32]],
   [[65, 228, 184, 173, 66, 228, 184, 173, 67, 46]]]

theorem sentencesTestASCIIOptimization_pass : (sentencesTestASCIIOptimization.all (tokensAre .sentences)) = true := by decide +kernel

/-- TestFirstASCIIOptimization in sentences/string_test.go: the input and its first token. -/
def sentencesTestFirstASCIIOptimization : List (List Nat × List Nat) :=
  [([104, 101, 108, 108, 111, 32, 119, 111, 114, 108, 100], [104, 101, 108, 108, 111, 32, 119, 111, 114, 108, 100]),
   ([97, 98, 99, 49, 50, 51, 32, 100, 101, 102, 52, 53, 54], [97, 98, 99, 49, 50, 51, 32, 100, 101, 102, 52, 53, 54]),
   ([104, 101, 108, 108, 111, 32], [104, 101, 108, 108, 111, 32]),
   ([32, 32, 32], [32, 32, 32]),
   ([72, 101, 108, 108, 111, 32, 119, 111, 114, 108, 100, 46], [72, 101, 108, 108, 111, 32, 119, 111, 114, 108, 100, 46]),
   ([72, 101, 108, 108, 111, 46, 32, 87, 111, 114, 108, 100, 46], [72, 101, 108, 108, 111, 46, 32]),
   ([72, 101, 108, 108, 111, 33], [72, 101, 108, 108, 111, 33]),
   ([72, 101, 108, 108, 111, 63], [72, 101, 108, 108, 111, 63]),
   ([72, 101, 108, 108, 111, 10, 87, 111, 114, 108, 100], [72, 101, 108, 108, 111, 10]),
   ([72, 101, 108, 108, 111, 32, 240, 159, 152, 128, 32, 119, 111, 114, 108, 100, 46], [72, 101, 108, 108, 111, 32, 240, 159, 152, 128, 32, 119, 111, 114, 108, 100, 46]),
   ([72, 101, 108, 108, 111, 32, 99, 97, 102, 195, 169, 46], [72, 101, 108, 108, 111, 32, 99, 97, 102, 195, 169, 46]),
   ([65], [65]),
   ([32], [32]),
   ([46], [46]),
   ([195, 137, 99, 108, 97, 105, 114, 32, 105, 115, 32, 116, 97, 115, 116, 121, 46], [195, 137, 99, 108, 97, 105, 114, 32, 105, 115, 32, 116, 97, 115, 116, 121, 46]),
   ([240, 159, 142, 137, 32, 80, 97, 114, 116, 121, 32, 116, 105, 109, 101, 33], [240, 159, 142, 137, 32, 80, 97, 114, 116, 121, 32, 116, 105, 109, 101, 33]),
   ([65, 46, 32, 66, 46], [65, 46, 32]),
   ([65, 66, 46, 32, 67, 68, 46], [65, 66, 46, 32]),
   ([80, 105, 32, 105, 115, 32, 51, 46, 49, 52, 32, 101, 120, 97, 99, 116, 108, 121, 46], [80, 105, 32, 105, 115, 32, 51, 46, 49, 52, 32, 101, 120, 97, 99, 116, 108, 121, 46]),
   ([85, 115, 101, 32, 118, 50, 46, 48, 32, 110, 111, 119, 46], [85, 115, 101, 32, 118, 50, 46, 48, 32, 110, 111, 119, 46]),
   ([68, 114, 46, 32, 83, 109, 105, 116, 104, 32, 97, 114, 114, 105, 118, 101, 100, 46], [68, 114, 46, 32]),
   ([68, 114, 46, 83, 109, 105, 116, 104, 32, 97, 114, 114, 105, 118, 101, 100, 46], [68, 114, 46, 83, 109, 105, 116, 104, 32, 97, 114, 114, 105, 118, 101, 100, 46])]

theorem sentencesTestFirstASCIIOptimization_pass : (sentencesTestFirstASCIIOptimization.all (firstIs .sentences)) = true := by decide +kernel

/-- TestFirst in sentences/string_test.go: the input and its first token. -/
def sentencesTestFirst : List (List Nat × List Nat) :=
  [([72, 101, 108, 108, 111, 32, 119, 111, 114, 108, 100, 46], [72, 101, 108, 108, 111, 32, 119, 111, 114, 108, 100, 46]),
   ([72, 101, 108, 108, 111, 46, 32, 87, 111, 114, 108, 100, 46], [72, 101, 108, 108, 111, 46, 32]),
   ([104, 101, 108, 108, 111, 32, 119, 111, 114, 108, 100], [104, 101, 108, 108, 111, 32, 119, 111, 114, 108, 100]),
   ([72, 195, 169, 108, 108, 111, 32, 119, 111, 114, 108, 100, 46], [72, 195, 169, 108, 108, 111, 32, 119, 111, 114, 108, 100, 46]),
   ([], []),
   ([97, 98, 99, 49, 50, 51, 32, 100, 101, 102, 52, 53, 54], [97, 98, 99, 49, 50, 51, 32, 100, 101, 102, 52, 53, 54]),
   ([72, 101, 108, 108, 111, 10, 87, 111, 114, 108, 100], [72, 101, 108, 108, 111, 10]),
   ([72, 101, 108, 108, 111, 33, 32, 87, 111, 114, 108, 100, 46], [72, 101, 108, 108, 111, 33, 32]),
   ([72, 101, 108, 108, 111, 63, 32, 87, 111, 114, 108, 100, 46], [72, 101, 108, 108, 111, 63, 32]),
   ([84, 104, 101, 32, 118, 97, 108, 117, 101, 32, 105, 115, 32, 51, 46, 49, 52, 32, 101, 120, 97, 99, 116, 108, 121, 46], [84, 104, 101, 32, 118, 97, 108, 117, 101, 32, 105, 115, 32, 51, 46, 49, 52, 32, 101, 120, 97, 99, 116, 108, 121, 46]),
   ([68, 114, 46, 32, 83, 109, 105, 116, 104, 32, 105, 115, 32, 104, 101, 114, 101, 46], [68, 114, 46, 32]),
   ([72, 101, 108, 108, 111, 32, 240, 159, 152, 128, 32, 119, 111, 114, 108, 100, 46], [72, 101, 108, 108, 111, 32, 240, 159, 152, 128, 32, 119, 111, 114, 108, 100, 46])]

theorem sentencesTestFirst_pass : (sentencesTestFirst.all (firstIs .sentences)) = true := by decide +kernel

/-- TestSubsequent in sentences/seek_test.go: properties, data, atEOF and the expected result. -/
def sentencesTestSubsequent : List (Nat × List Nat × Bool × Int × Bool) :=
  [(Sentences._Numeric, [49, 50, 51], true, 0, false),
   (Sentences._Numeric, [226, 128, 141, 49], true, 3, false),
   (Sentences._Numeric, [97, 98, 99], true, -1, false),
   (Sentences._Numeric, [97], true, -1, false),
   (Sentences._Numeric, [], true, -1, false),
   (Sentences._Numeric, [], false, -1, true),
   (Sentences._Numeric, [226, 128, 141], true, -1, false),
   (Sentences._Numeric, [226, 128, 141], false, -1, true),
   (Sentences._Numeric, [226, 128], true, -1, false),
   (Sentences._Numeric, [226, 128], false, -1, true),
   (Sentences._Numeric, [226, 128, 141, 226, 128, 141, 49], true, 6, false),
   (Sentences._Numeric ||| Sentences._Upper, [49], true, 0, false)]

theorem sentencesTestSubsequent_pass : (sentencesTestSubsequent.all (subsequentIs Sentences.trie Sentences._Ignore)) = true := by decide +kernel


end Uax29.Tests
