import Verif.Tests.Check
/-!
GENERATED by tools/gen_tests.py from the tests in /repo. Do not edit.
-/
set_option maxRecDepth 20000
namespace Uax29.Tests

/-- TestFirst in graphemes/string_test.go: the input and its first token. -/
def graphemesTestFirst : List (List Nat × List Nat) :=
  [([104, 195, 169, 108, 108, 111, 32, 119, 111, 114, 108, 100], [104]),
   ([195, 137, 108, 118, 105, 115], [195, 137]),
   ([], []),
   ([97], [97]),
   ([104, 101, 108, 108, 111], [104]),
   ([240, 159, 142, 137, 32, 112, 97, 114, 116, 121], [240, 159, 142, 137]),
   ([230, 151, 165, 230, 156, 172, 232, 170, 158], [230, 151, 165])]

theorem graphemesTestFirst_pass : (graphemesTestFirst.all (firstIs .graphemes)) = true := by decide +kernel

/-- TestFirstASCIIOptimization in graphemes/string_test.go: the input and its first token. -/
def graphemesTestFirstASCIIOptimization : List (List Nat × List Nat) :=
  [([97], [97]),
   ([97, 98], [97]),
   ([32, 104, 101, 108, 108, 111], [32]),
   ([53, 97, 98, 99], [53]),
   ([33, 104, 101, 108, 108, 111], [33]),
   ([97, 230, 151, 165], [97]),
   ([101, 204, 129], [101, 204, 129]),
   ([230, 151, 165, 230, 156, 172], [230, 151, 165]),
   ([240, 159, 145, 168, 226, 128, 141, 240, 159, 145, 169, 226, 128, 141, 240, 159, 145, 167, 226, 128, 141, 240, 159, 145, 166, 32, 102, 97, 109, 105, 108, 121], [240, 159, 145, 168, 226, 128, 141, 240, 159, 145, 169, 226, 128, 141, 240, 159, 145, 167, 226, 128, 141, 240, 159, 145, 166]),
   ([240, 159, 135, 186, 240, 159, 135, 184, 32, 85, 83, 65], [240, 159, 135, 186, 240, 159, 135, 184]),
   ([9, 32, 104, 101, 108, 108, 111], [9]),
   ([127, 104, 101, 108, 108, 111], [127]),
   ([110, 204, 131], [110, 204, 131])]

theorem graphemesTestFirstASCIIOptimization_pass : (graphemesTestFirstASCIIOptimization.all (firstIs .graphemes)) = true := by decide +kernel

/-- TestAnsiEscapeSequences7BitOnlyAsGraphemes in graphemes/ansi_test.go: the expected tokens. -/
def graphemesTestAnsiEscapeSequences7BitOnlyAsGraphemes : List (List (List Nat)) :=
  [[[27, 91, 48, 109]],
   [[27, 91, 51, 49, 109], [104], [101], [108], [108], [111]],
   [[27, 91, 48, 32, 113]],
   [[27, 93, 48, 59, 77, 121, 32, 84, 105, 116, 108, 101, 7]],
   [[27, 93, 48, 59, 84, 105, 116, 108, 101, 27, 92]],
   [[27, 80, 113, 35, 48, 59, 50, 59, 48, 59, 48, 59, 48, 27, 92]],
   [[27, 80, 113, 100, 97, 116, 97], [24], [122]],
   [[27, 88, 104, 101, 108, 108, 111, 27, 92]],
   [[27, 94, 109, 115, 103, 27, 92]],
   [[27, 95, 100, 97, 116, 97, 27, 92]],
   [[27, 68]],
   [[27, 55]],
   [[27, 32, 33, 70], [120]],
   [[27], [91], [32], [49], [109], [111], [107]],
   [[155], [51], [49], [109], [104], [101], [108], [108], [111]],
   [[27], [93], [48], [59], [84], [105], [116], [108], [101], [156], [122]]]

theorem graphemesTestAnsiEscapeSequences7BitOnlyAsGraphemes_pass : (graphemesTestAnsiEscapeSequences7BitOnlyAsGraphemes.all (ansiTokensAre ⟨true, false⟩)) = true := by decide +kernel

/-- TestAnsiEscapeSequences8BitOnlyAsGraphemes in graphemes/ansi_test.go: the expected tokens. -/
def graphemesTestAnsiEscapeSequences8BitOnlyAsGraphemes : List (List (List Nat)) :=
  [[[155, 51, 49, 109], [104], [101], [108], [108], [111]],
   [[155, 49, 59, 50, 59, 51, 109]],
   [[157, 48, 59, 84, 105, 116, 108, 101, 156]],
   [[157], [48], [59], [84], [105], [116], [108], [101], [27], [92]],
   [[144, 113, 112, 97, 121, 108, 111, 97, 100, 156]],
   [[144], [113], [112], [97], [121], [108], [111], [97], [100], [27], [92]],
   [[144, 113, 112, 97, 121, 108, 111, 97, 100], [24], [120]],
   [[152, 104, 101, 108, 108, 111, 156]],
   [[158], [109], [115], [103], [27], [92]],
   [[159, 100, 97, 116, 97, 156]],
   [[132]],
   [[157], [48], [59], [116], [105], [116], [108], [101]],
   [[144], [100], [97], [116], [97]],
   [[27], [91], [51], [49], [109], [104], [101], [108], [108], [111]]]

theorem graphemesTestAnsiEscapeSequences8BitOnlyAsGraphemes_pass : (graphemesTestAnsiEscapeSequences8BitOnlyAsGraphemes.all (ansiTokensAre ⟨false, true⟩)) = true := by decide +kernel

/-- TestAnsiEscapeSequencesBothEnabledAsGraphemes in graphemes/ansi_test.go: the expected tokens. -/
def graphemesTestAnsiEscapeSequencesBothEnabledAsGraphemes : List (List (List Nat)) :=
  [[[27, 91, 48, 109]],
   [[27, 91, 51, 49, 109], [104], [101], [108], [108], [111]],
   [[27, 91, 49, 59, 51, 50, 109]],
   [[27, 93, 48, 59, 77, 121, 32, 84, 105, 116, 108, 101, 7]],
   [[27, 93, 48, 59, 230, 156, 172, 7]],
   [[27, 93, 48, 59, 84, 105, 116, 108, 101, 27, 92]],
   [[27, 80, 113, 35, 48, 59, 50, 59, 48, 59, 48, 59, 48, 27, 92]],
   [[27, 80, 113, 230, 156, 172, 27, 92]],
   [[27], [80], [113], [7], [114], [101], [115], [116]],
   [[27, 80, 113, 100, 97, 116, 97], [24], [122]],
   [[27, 80], [24], [122]],
   [[27, 80, 113, 100, 97, 116, 97], [26], [122]],
   [[27, 88, 104, 101, 108, 108, 111, 27, 92]],
   [[27], [88], [104], [105], [7]],
   [[27, 94, 109, 115, 103, 27, 92]],
   [[27], [94], [109], [7]],
   [[27, 95, 100, 97, 116, 97, 27, 92]],
   [[27], [95], [100], [7]],
   [[27, 93, 7]],
   [[27], [80], [100], [97], [116], [97]],
   [[27], [93], [48], [59], [116], [105], [116], [108], [101]],
   [[27, 93, 48, 59, 116, 105, 116, 108, 101], [24], [120]],
   [[27, 93, 48, 59, 116, 105, 116, 108, 101], [26], [120]],
   [[27, 68]],
   [[27, 99]],
   [[27, 126], [120]],
   [[27], [127]],
   [[27, 55]],
   [[27, 32, 70]],
   [[27, 91, 109], [120]],
   [[155, 51, 49, 109], [104], [101], [108], [108], [111]],
   [[157, 48, 59, 84, 105, 116, 108, 101, 156]],
   [[157], [48], [59], [84], [105], [116], [108], [101], [27, 92]],
   [[27], [93], [48], [59], [84], [105], [116], [108], [101], [156]],
   [[144, 113, 112, 97, 121, 108, 111, 97, 100, 156]],
   [[144, 113, 112, 97, 121, 108, 111, 97, 100], [24], [120]],
   [[144], [113], [112], [97], [121], [108], [111], [97], [100], [27, 92]],
   [[27], [80], [113], [112], [97], [121], [108], [111], [97], [100], [156]],
   [[132]],
   [[27], [32], [27]],
   [[27, 32, 33, 70], [120]],
   [[27, 32, 48]],
   [[27, 91, 48, 32, 113]],
   [[157], [48], [59], [116], [105], [116], [108], [101]],
   [[144], [100], [97], [116], [97]],
   [[152, 104, 101, 108, 108, 111, 156]],
   [[158], [109], [115], [103], [27, 92]],
   [[159, 100, 97, 116, 97, 156]],
   [[27]],
   [[132]],
   [[99], [97], [102], [195, 169]],
   [[230, 151, 165], [230, 156, 172], [232, 170, 158]],
   [[196, 128], [196, 159], [215, 156]],
   [[27, 91, 51, 49, 109], [196, 128], [196, 159], [230, 151, 165], [230, 156, 172], [232, 170, 158], [99], [97], [102], [195, 169], [27, 91, 48, 109]],
   [[27, 88, 104, 101, 108, 108, 111], [24], [122]],
   [[27], [91], [32], [49], [109], [111], [107]],
   [[112], [108], [97], [105], [110]]]

theorem graphemesTestAnsiEscapeSequencesBothEnabledAsGraphemes_pass : (graphemesTestAnsiEscapeSequencesBothEnabledAsGraphemes.all (ansiTokensAre ⟨true, true⟩)) = true := by decide +kernel


end Uax29.Tests
