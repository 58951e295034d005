import Verif.Tests.Check
/-!
GENERATED by tools/gen_tests.py from the tests in /repo. Do not edit.
-/
set_option maxRecDepth 20000
namespace Uax29.Tests

/-- TestFirst in words/string_test.go: the input and its first token. -/
def wordsTestFirst : List (List Nat × List Nat) :=
  [([104, 101, 108, 108, 111, 32, 119, 111, 114, 108, 100], [104, 101, 108, 108, 111]),
   ([104, 101, 108, 108, 111, 32], [104, 101, 108, 108, 111]),
   ([104, 195, 169, 108, 108, 111, 32, 119, 111, 114, 108, 100], [104, 195, 169, 108, 108, 111]),
   ([230, 151, 165, 230, 156, 172, 232, 170, 158, 32, 116, 101, 120, 116], [230, 151, 165]),
   ([], []),
   ([104, 101, 108, 108, 111], [104, 101, 108, 108, 111]),
   ([97, 98, 99, 49, 50, 51, 32, 100, 101, 102, 52, 53, 54], [97, 98, 99, 49, 50, 51]),
   ([32, 104, 101, 108, 108, 111], [32]),
   ([33, 104, 101, 108, 108, 111], [33]),
   ([100, 111, 110, 39, 116, 32, 115, 116, 111, 112], [100, 111, 110, 39, 116])]

theorem wordsTestFirst_pass : (wordsTestFirst.all (firstIs .words)) = true := by decide +kernel

/-- TestFirstASCIIOptimization in words/string_test.go: the input and its first token. -/
def wordsTestFirstASCIIOptimization : List (List Nat × List Nat) :=
  [([104, 101, 108, 108, 111, 32], [104, 101, 108, 108, 111]),
   ([104, 101, 108, 108, 111], [104, 101, 108, 108, 111]),
   ([104, 101, 108, 108, 111, 32, 119, 111, 114, 108, 100, 32, 102, 111, 111], [104, 101, 108, 108, 111]),
   ([104, 101, 108, 108, 111, 44, 119, 111, 114, 108, 100], [104, 101, 108, 108, 111]),
   ([104, 101, 108, 108, 111, 228, 184, 150, 231, 149, 140], [104, 101, 108, 108, 111]),
   ([100, 111, 110, 39, 116], [100, 111, 110, 39, 116]),
   ([115, 101, 108, 102, 45, 116, 101, 115, 116, 32, 102, 111, 111], [115, 101, 108, 102]),
   ([97], [97]),
   ([53], [53]),
   ([32], [32]),
   ([195, 169, 99, 108, 97, 105, 114, 32, 105, 115, 32, 116, 97, 115, 116, 121], [195, 169, 99, 108, 97, 105, 114]),
   ([240, 159, 142, 137, 32, 112, 97, 114, 116, 121], [240, 159, 142, 137]),
   ([49, 50, 51, 52, 53, 32, 110, 101, 120, 116], [49, 50, 51, 52, 53]),
   ([97, 98, 99, 49, 50, 51, 100, 101, 102, 32], [97, 98, 99, 49, 50, 51, 100, 101, 102]),
   ([101, 204, 129, 99, 111, 108, 101], [101, 204, 129, 99, 111, 108, 101])]

theorem wordsTestFirstASCIIOptimization_pass : (wordsTestFirstASCIIOptimization.all (firstIs .words)) = true := by decide +kernel

/-- TestSubsequent in words/seek_test.go: properties, data, atEOF and the expected result. -/
def wordsTestSubsequent : List (Nat × List Nat × Bool × Int × Bool) :=
  [(Words._Numeric, [49, 50, 51], true, 0, false),
   (Words._Numeric, [49, 97, 98], true, 0, false),
   (Words._Numeric, [226, 128, 141, 49], true, 3, false),
   (Words._HebrewLetter, [215, 144], true, 0, false),
   (Words._Numeric, [97, 98, 99], true, -1, false),
   (Words._Numeric, [120, 121, 122], false, -1, false),
   (Words._Numeric, [97, 49, 50, 51], true, -1, false),
   (Words._Numeric, [226, 128, 141, 97, 98, 99], true, -1, false),
   (Words._Numeric, [], true, -1, false),
   (Words._Numeric, [], false, -1, true),
   (Words._Numeric, [226, 128, 141], true, -1, false),
   (Words._Numeric, [226, 128, 141], false, -1, true),
   (Words._Numeric, [226, 128], true, -1, false),
   (Words._Numeric, [226, 128], false, -1, true),
   (Words._AHLetter, [226, 128, 141, 205, 143, 72, 101, 108, 108, 111], true, 5, false),
   (Words._Numeric ||| Words._AHLetter, [65, 49, 50, 51], true, 0, false)]

theorem wordsTestSubsequent_pass : (wordsTestSubsequent.all (subsequentIs Words.trie Words._Ignore)) = true := by decide +kernel

/-- joinersInput in words/joiners_test.go. -/
def joinersInput : List Nat :=
  [72, 101, 108, 108, 111, 44, 32, 228, 184, 150, 231, 149, 140, 46, 32, 84, 101, 108, 108, 32, 109, 101, 32, 97, 98, 111, 117, 116, 32, 121, 111, 117, 114, 32, 115, 117, 112, 101, 114, 45, 99, 111, 111, 108, 32, 46, 99, 111, 109, 46, 32, 73, 39, 109, 32, 46, 48, 49, 37, 32, 105, 110, 116, 101, 114, 101, 115, 116, 101, 100, 32, 97, 110, 100, 32, 51, 47, 52, 32, 111, 102, 32, 97, 32, 109, 105, 108, 101, 32, 97, 119, 97, 121, 46, 32, 69, 109, 97, 105, 108, 32, 109, 101, 32, 97, 116, 32, 102, 111, 111, 64, 101, 120, 97, 109, 112, 108, 101, 46, 98, 105, 122, 46, 32, 35, 119, 105, 110, 110, 105, 110, 103]

/-- joinersTests in words/joiners_test.go: a word, is it found without, is it found with joiners. -/
def joinersTests : List (List Nat × Bool × Bool) :=
  [([72, 101, 108, 108, 111], true, true),
   ([228, 184, 150], true, true),
   ([115, 117, 112, 101, 114], true, false),
   ([45], true, false),
   ([99, 111, 111, 108], true, false),
   ([115, 117, 112, 101, 114, 45, 99, 111, 111, 108], false, true),
   ([99, 111, 109], true, false),
   ([46, 99, 111, 109], false, true),
   ([48, 49], true, false),
   ([46, 48, 49], false, true),
   ([51], true, false),
   ([51, 47, 52], false, true),
   ([102, 111, 111], true, false),
   ([64], true, false),
   ([101, 120, 97, 109, 112, 108, 101, 46, 98, 105, 122], true, false),
   ([102, 111, 111, 64, 101, 120, 97, 109, 112, 108, 101, 46, 98, 105, 122], false, true),
   ([35], true, false),
   ([119, 105, 110, 110, 105, 110, 103], true, false),
   ([35, 119, 105, 110, 110, 105, 110, 103], false, true)]

theorem joinersTests_pass : (joinersTests.all (joinersFind joinersInput)) = true := by decide +kernel

/-- TestAdhocSegmentsWithType in words/bleve_compat_test.go: the expected tokens. -/
def wordsTestAdhocSegmentsWithType : List (List (List Nat)) :=
  [[[78, 111, 119], [32, 32], [105, 115], [32], [116, 104, 101], [46], [10], [32], [69, 110, 100], [46]],
   [[51, 46, 53]],
   [[97, 103, 101], [32], [50, 53]],
   [[99, 97, 116, 51, 46, 53]],
   [[99]],
   [[227, 129, 147], [227, 130, 147], [227, 129, 171], [227, 129, 161], [227, 129, 175], [228, 184, 150], [231, 149, 140]],
   [[228, 189, 160], [229, 165, 189], [228, 184, 150], [231, 149, 140]],
   [[227, 130, 181, 227, 131, 131, 227, 130, 171]],
   [[215, 144, 34, 215, 144]]]

theorem wordsTestAdhocSegmentsWithType_pass : (wordsTestAdhocSegmentsWithType.all (tokensAre .words)) = true := by decide +kernel

/-- The kinds of the tokens in TestAdhocSegmentsWithType: BleveNumeric, BleveIdeographic. -/
def bleveKinds : List (List Nat × Bool × Bool) :=
  [([78, 111, 119], false, false),
   ([32, 32], false, false),
   ([105, 115], false, false),
   ([32], false, false),
   ([116, 104, 101], false, false),
   ([46], false, false),
   ([10], false, false),
   ([32], false, false),
   ([69, 110, 100], false, false),
   ([46], false, false),
   ([51, 46, 53], true, false),
   ([97, 103, 101], false, false),
   ([32], false, false),
   ([50, 53], true, false),
   ([99, 97, 116, 51, 46, 53], false, false),
   ([99], false, false),
   ([227, 129, 147], false, true),
   ([227, 130, 147], false, true),
   ([227, 129, 171], false, true),
   ([227, 129, 161], false, true),
   ([227, 129, 175], false, true),
   ([228, 184, 150], false, true),
   ([231, 149, 140], false, true),
   ([228, 189, 160], false, true),
   ([229, 165, 189], false, true),
   ([228, 184, 150], false, true),
   ([231, 149, 140], false, true),
   ([227, 130, 181, 227, 131, 131, 227, 130, 171], false, true),
   ([215, 144, 34, 215, 144], false, false)]

theorem bleveKinds_pass : (bleveKinds.all bleveKind) = true := by decide +kernel


end Uax29.Tests
