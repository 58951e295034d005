import Verif.Tests.Check
/-!
GENERATED by tools/gen_tests.py from the tests in /repo. Do not edit.
-/
set_option maxRecDepth 20000
namespace Uax29.Tests

/-- TestASCIIOptimization in phrases/string_test.go: the expected tokens. -/
def phrasesTestASCIIOptimization : List (List (List Nat)) :=
  [[[104, 101, 108, 108, 111, 32, 119, 111, 114, 108, 100]],
   [[104, 101, 108, 108, 111], [44], [119, 111, 114, 108, 100]],
   [[33], [104, 101, 108, 108, 111]],
   [[104, 101, 108, 108, 111, 32], [230, 151, 165], [230, 156, 172]],
   [[104, 101, 108, 108, 111], [10], [119, 111, 114, 108, 100]],
   [[104, 101, 108, 108, 111], [9], [119, 111, 114, 108, 100]],
   [[104, 101, 108, 108, 111], [46], [32, 119, 111, 114, 108, 100]],
   [[97, 98, 99, 49, 50, 51, 32, 100, 101, 102, 52, 53, 54]],
   [],
   [[97]],
   [[33]],
   [[104, 101, 108, 108, 111, 32]],
   [[32, 104, 101, 108, 108, 111]],
   [[32, 32, 32]],
   [[104, 101, 108, 108, 111, 32, 240, 159, 142, 137]],
   [[97, 46, 98], [44], [99], [33], [100]],
   [[100, 111, 110, 39, 116, 32, 115, 116, 111, 112]],
   [[108, 101, 116, 39, 115, 32, 103, 111]]]

theorem phrasesTestASCIIOptimization_pass : (phrasesTestASCIIOptimization.all (tokensAre .phrases)) = true := by decide +kernel

/-- TestFirstASCIIOptimization in phrases/string_test.go: the input and its first token. -/
def phrasesTestFirstASCIIOptimization : List (List Nat × List Nat) :=
  [([104, 101, 108, 108, 111, 32, 119, 111, 114, 108, 100], [104, 101, 108, 108, 111, 32, 119, 111, 114, 108, 100]),
   ([97, 98, 99, 49, 50, 51, 32, 100, 101, 102, 52, 53, 54], [97, 98, 99, 49, 50, 51, 32, 100, 101, 102, 52, 53, 54]),
   ([104, 101, 108, 108, 111, 32], [104, 101, 108, 108, 111, 32]),
   ([32, 104, 101, 108, 108, 111], [32, 104, 101, 108, 108, 111]),
   ([32, 32, 32], [32, 32, 32]),
   ([104, 101, 108, 108, 111, 32, 240, 159, 142, 137, 32, 119, 111, 114, 108, 100], [104, 101, 108, 108, 111, 32, 240, 159, 142, 137, 32, 119, 111, 114, 108, 100]),
   ([104, 101, 108, 108, 111, 32, 99, 97, 102, 195, 169], [104, 101, 108, 108, 111, 32, 99, 97, 102, 195, 169]),
   ([104, 101, 108, 108, 111, 32, 230, 151, 165, 230, 156, 172], [104, 101, 108, 108, 111, 32]),
   ([104, 101, 108, 108, 111, 44, 32, 119, 111, 114, 108, 100], [104, 101, 108, 108, 111]),
   ([104, 101, 108, 108, 111, 46, 32, 119, 111, 114, 108, 100], [104, 101, 108, 108, 111]),
   ([104, 101, 108, 108, 111, 33, 32, 119, 111, 114, 108, 100], [104, 101, 108, 108, 111]),
   ([104, 101, 108, 108, 111, 10, 119, 111, 114, 108, 100], [104, 101, 108, 108, 111]),
   ([104, 101, 108, 108, 111, 9, 119, 111, 114, 108, 100], [104, 101, 108, 108, 111]),
   ([97], [97]),
   ([32], [32]),
   ([33], [33]),
   ([195, 169, 99, 108, 97, 105, 114, 32, 105, 115, 32, 116, 97, 115, 116, 121], [195, 169, 99, 108, 97, 105, 114, 32, 105, 115, 32, 116, 97, 115, 116, 121]),
   ([240, 159, 142, 137, 32, 112, 97, 114, 116, 121, 32, 116, 105, 109, 101], [240, 159, 142, 137, 32, 112, 97, 114, 116, 121, 32, 116, 105, 109, 101]),
   ([33, 104, 101, 108, 108, 111, 32, 119, 111, 114, 108, 100], [33]),
   ([97, 44, 98], [97]),
   ([97, 98, 44, 99, 100], [97, 98]),
   ([100, 111, 110, 39, 116, 32, 115, 116, 111, 112], [100, 111, 110, 39, 116, 32, 115, 116, 111, 112])]

theorem phrasesTestFirstASCIIOptimization_pass : (phrasesTestFirstASCIIOptimization.all (firstIs .phrases)) = true := by decide +kernel

/-- TestFirst in phrases/string_test.go: the input and its first token. -/
def phrasesTestFirst : List (List Nat × List Nat) :=
  [([104, 101, 108, 108, 111, 32, 119, 111, 114, 108, 100], [104, 101, 108, 108, 111, 32, 119, 111, 114, 108, 100]),
   ([104, 101, 108, 108, 111, 44, 32, 119, 111, 114, 108, 100], [104, 101, 108, 108, 111]),
   ([104, 195, 169, 108, 108, 111, 32, 119, 111, 114, 108, 100], [104, 195, 169, 108, 108, 111, 32, 119, 111, 114, 108, 100]),
   ([], []),
   ([104, 101, 108, 108, 111], [104, 101, 108, 108, 111]),
   ([97, 98, 99, 49, 50, 51, 32, 100, 101, 102, 52, 53, 54], [97, 98, 99, 49, 50, 51, 32, 100, 101, 102, 52, 53, 54]),
   ([33, 104, 101, 108, 108, 111], [33]),
   ([104, 101, 108, 108, 111, 46, 32, 119, 111, 114, 108, 100], [104, 101, 108, 108, 111]),
   ([100, 111, 110, 39, 116, 32, 115, 116, 111, 112], [100, 111, 110, 39, 116, 32, 115, 116, 111, 112]),
   ([104, 101, 108, 108, 111, 32, 240, 159, 142, 137], [104, 101, 108, 108, 111, 32, 240, 159, 142, 137]),
   ([104, 101, 108, 108, 111, 10, 119, 111, 114, 108, 100], [104, 101, 108, 108, 111])]

theorem phrasesTestFirst_pass : (phrasesTestFirst.all (firstIs .phrases)) = true := by decide +kernel

/-- TestSubsequent in phrases/seek_test.go: properties, data, atEOF and the expected result. -/
def phrasesTestSubsequent : List (Nat × List Nat × Bool × Int × Bool) :=
  [(Phrases._Numeric, [49, 50, 51], true, 0, false),
   (Phrases._Numeric, [226, 128, 141, 49], true, 3, false),
   (Phrases._Numeric, [97, 98, 99], true, -1, false),
   (Phrases._Numeric, [97], true, -1, false),
   (Phrases._Numeric, [], true, -1, false),
   (Phrases._Numeric, [], false, -1, true),
   (Phrases._Numeric, [226, 128, 141], true, -1, false),
   (Phrases._Numeric, [226, 128, 141], false, -1, true),
   (Phrases._Numeric, [226, 128], true, -1, false),
   (Phrases._Numeric, [226, 128], false, -1, true),
   (Phrases._ALetter, [226, 128, 141, 226, 128, 141, 97], true, 6, false),
   (Phrases._Numeric ||| Phrases._ALetter, [97], true, 0, false)]

theorem phrasesTestSubsequent_pass : (phrasesTestSubsequent.all (subsequentIs Phrases.trie Phrases._Ignore)) = true := by decide +kernel


end Uax29.Tests
