import Verif.Tests.Check
/-!
GENERATED by tools/gen_tests.py from the tests in /repo. Do not edit.
-/
set_option maxRecDepth 20000
namespace Uax29.Tests

/-- sentences/unicode_test.go: the expected tokens. -/
def sentencesUnicode : List (List (List Nat)) :=
  [[[13], [13]],
   [[13], [204, 136, 13]],
   [[13, 10]],
   [[13], [204, 136, 10]],
   [[13], [204, 128]],
   [[13], [204, 136, 204, 128]],
   [[13], [194, 173]],
   [[13], [204, 136, 194, 173]],
   [[13], [194, 133]],
   [[13], [204, 136, 194, 133]],
   [[13], [9]],
   [[13], [204, 136, 9]],
   [[13], [97]],
   [[13], [204, 136, 97]],
   [[13], [65]],
   [[13], [204, 136, 65]],
   [[13], [198, 187]],
   [[13], [204, 136, 198, 187]],
   [[13], [48]],
   [[13], [204, 136, 48]],
   [[13], [46]],
   [[13], [204, 136, 46]],
   [[13], [33]],
   [[13], [204, 136, 33]],
   [[13], [34]],
   [[13], [204, 136, 34]],
   [[13], [44]],
   [[13], [204, 136, 44]],
   [[13], [0]],
   [[13], [204, 136, 0]],
   [[10], [13]],
   [[10], [204, 136, 13]],
   [[10], [10]],
   [[10], [204, 136, 10]],
   [[10], [204, 128]],
   [[10], [204, 136, 204, 128]],
   [[10], [194, 173]],
   [[10], [204, 136, 194, 173]],
   [[10], [194, 133]],
   [[10], [204, 136, 194, 133]],
   [[10], [9]],
   [[10], [204, 136, 9]],
   [[10], [97]],
   [[10], [204, 136, 97]],
   [[10], [65]],
   [[10], [204, 136, 65]],
   [[10], [198, 187]],
   [[10], [204, 136, 198, 187]],
   [[10], [48]],
   [[10], [204, 136, 48]],
   [[10], [46]],
   [[10], [204, 136, 46]],
   [[10], [33]],
   [[10], [204, 136, 33]],
   [[10], [34]],
   [[10], [204, 136, 34]],
   [[10], [44]],
   [[10], [204, 136, 44]],
   [[10], [0]],
   [[10], [204, 136, 0]],
   [[204, 128, 13]],
   [[204, 128, 204, 136, 13]],
   [[204, 128, 10]],
   [[204, 128, 204, 136, 10]],
   [[204, 128, 204, 128]],
   [[204, 128, 204, 136, 204, 128]],
   [[204, 128, 194, 173]],
   [[204, 128, 204, 136, 194, 173]],
   [[204, 128, 194, 133]],
   [[204, 128, 204, 136, 194, 133]],
   [[204, 128, 9]],
   [[204, 128, 204, 136, 9]],
   [[204, 128, 97]],
   [[204, 128, 204, 136, 97]],
   [[204, 128, 65]],
   [[204, 128, 204, 136, 65]],
   [[204, 128, 198, 187]],
   [[204, 128, 204, 136, 198, 187]],
   [[204, 128, 48]],
   [[204, 128, 204, 136, 48]],
   [[204, 128, 46]],
   [[204, 128, 204, 136, 46]],
   [[204, 128, 33]],
   [[204, 128, 204, 136, 33]],
   [[204, 128, 34]],
   [[204, 128, 204, 136, 34]],
   [[204, 128, 44]],
   [[204, 128, 204, 136, 44]],
   [[204, 128, 0]],
   [[204, 128, 204, 136, 0]],
   [[194, 173, 13]],
   [[194, 173, 204, 136, 13]],
   [[194, 173, 10]],
   [[194, 173, 204, 136, 10]],
   [[194, 173, 204, 128]],
   [[194, 173, 204, 136, 204, 128]],
   [[194, 173, 194, 173]],
   [[194, 173, 204, 136, 194, 173]],
   [[194, 173, 194, 133]],
   [[194, 173, 204, 136, 194, 133]],
   [[194, 173, 9]],
   [[194, 173, 204, 136, 9]],
   [[194, 173, 97]],
   [[194, 173, 204, 136, 97]],
   [[194, 173, 65]],
   [[194, 173, 204, 136, 65]],
   [[194, 173, 198, 187]],
   [[194, 173, 204, 136, 198, 187]],
   [[194, 173, 48]],
   [[194, 173, 204, 136, 48]],
   [[194, 173, 46]],
   [[194, 173, 204, 136, 46]],
   [[194, 173, 33]],
   [[194, 173, 204, 136, 33]],
   [[194, 173, 34]],
   [[194, 173, 204, 136, 34]],
   [[194, 173, 44]],
   [[194, 173, 204, 136, 44]],
   [[194, 173, 0]],
   [[194, 173, 204, 136, 0]],
   [[194, 133], [13]],
   [[194, 133], [204, 136, 13]],
   [[194, 133], [10]],
   [[194, 133], [204, 136, 10]],
   [[194, 133], [204, 128]],
   [[194, 133], [204, 136, 204, 128]],
   [[194, 133], [194, 173]],
   [[194, 133], [204, 136, 194, 173]],
   [[194, 133], [194, 133]],
   [[194, 133], [204, 136, 194, 133]],
   [[194, 133], [9]],
   [[194, 133], [204, 136, 9]],
   [[194, 133], [97]],
   [[194, 133], [204, 136, 97]],
   [[194, 133], [65]],
   [[194, 133], [204, 136, 65]],
   [[194, 133], [198, 187]],
   [[194, 133], [204, 136, 198, 187]],
   [[194, 133], [48]],
   [[194, 133], [204, 136, 48]],
   [[194, 133], [46]],
   [[194, 133], [204, 136, 46]],
   [[194, 133], [33]],
   [[194, 133], [204, 136, 33]],
   [[194, 133], [34]],
   [[194, 133], [204, 136, 34]],
   [[194, 133], [44]],
   [[194, 133], [204, 136, 44]],
   [[194, 133], [0]],
   [[194, 133], [204, 136, 0]],
   [[9, 13]],
   [[9, 204, 136, 13]],
   [[9, 10]],
   [[9, 204, 136, 10]],
   [[9, 204, 128]],
   [[9, 204, 136, 204, 128]],
   [[9, 194, 173]],
   [[9, 204, 136, 194, 173]],
   [[9, 194, 133]],
   [[9, 204, 136, 194, 133]],
   [[9, 9]],
   [[9, 204, 136, 9]],
   [[9, 97]],
   [[9, 204, 136, 97]],
   [[9, 65]],
   [[9, 204, 136, 65]],
   [[9, 198, 187]],
   [[9, 204, 136, 198, 187]],
   [[9, 48]],
   [[9, 204, 136, 48]],
   [[9, 46]],
   [[9, 204, 136, 46]],
   [[9, 33]],
   [[9, 204, 136, 33]],
   [[9, 34]],
   [[9, 204, 136, 34]],
   [[9, 44]],
   [[9, 204, 136, 44]],
   [[9, 0]],
   [[9, 204, 136, 0]],
   [[97, 13]],
   [[97, 204, 136, 13]],
   [[97, 10]],
   [[97, 204, 136, 10]],
   [[97, 204, 128]],
   [[97, 204, 136, 204, 128]],
   [[97, 194, 173]],
   [[97, 204, 136, 194, 173]],
   [[97, 194, 133]],
   [[97, 204, 136, 194, 133]],
   [[97, 9]],
   [[97, 204, 136, 9]],
   [[97, 97]],
   [[97, 204, 136, 97]],
   [[97, 65]],
   [[97, 204, 136, 65]],
   [[97, 198, 187]],
   [[97, 204, 136, 198, 187]],
   [[97, 48]],
   [[97, 204, 136, 48]],
   [[97, 46]],
   [[97, 204, 136, 46]],
   [[97, 33]],
   [[97, 204, 136, 33]],
   [[97, 34]],
   [[97, 204, 136, 34]],
   [[97, 44]],
   [[97, 204, 136, 44]],
   [[97, 0]],
   [[97, 204, 136, 0]],
   [[65, 13]],
   [[65, 204, 136, 13]],
   [[65, 10]],
   [[65, 204, 136, 10]],
   [[65, 204, 128]],
   [[65, 204, 136, 204, 128]],
   [[65, 194, 173]],
   [[65, 204, 136, 194, 173]],
   [[65, 194, 133]],
   [[65, 204, 136, 194, 133]],
   [[65, 9]],
   [[65, 204, 136, 9]],
   [[65, 97]],
   [[65, 204, 136, 97]],
   [[65, 65]],
   [[65, 204, 136, 65]],
   [[65, 198, 187]],
   [[65, 204, 136, 198, 187]],
   [[65, 48]],
   [[65, 204, 136, 48]],
   [[65, 46]],
   [[65, 204, 136, 46]],
   [[65, 33]],
   [[65, 204, 136, 33]],
   [[65, 34]],
   [[65, 204, 136, 34]],
   [[65, 44]],
   [[65, 204, 136, 44]],
   [[65, 0]],
   [[65, 204, 136, 0]],
   [[198, 187, 13]],
   [[198, 187, 204, 136, 13]],
   [[198, 187, 10]],
   [[198, 187, 204, 136, 10]],
   [[198, 187, 204, 128]],
   [[198, 187, 204, 136, 204, 128]],
   [[198, 187, 194, 173]],
   [[198, 187, 204, 136, 194, 173]],
   [[198, 187, 194, 133]],
   [[198, 187, 204, 136, 194, 133]],
   [[198, 187, 9]],
   [[198, 187, 204, 136, 9]],
   [[198, 187, 97]],
   [[198, 187, 204, 136, 97]],
   [[198, 187, 65]],
   [[198, 187, 204, 136, 65]],
   [[198, 187, 198, 187]],
   [[198, 187, 204, 136, 198, 187]],
   [[198, 187, 48]],
   [[198, 187, 204, 136, 48]],
   [[198, 187, 46]],
   [[198, 187, 204, 136, 46]],
   [[198, 187, 33]],
   [[198, 187, 204, 136, 33]],
   [[198, 187, 34]],
   [[198, 187, 204, 136, 34]],
   [[198, 187, 44]],
   [[198, 187, 204, 136, 44]],
   [[198, 187, 0]],
   [[198, 187, 204, 136, 0]],
   [[48, 13]],
   [[48, 204, 136, 13]],
   [[48, 10]],
   [[48, 204, 136, 10]],
   [[48, 204, 128]],
   [[48, 204, 136, 204, 128]],
   [[48, 194, 173]],
   [[48, 204, 136, 194, 173]],
   [[48, 194, 133]],
   [[48, 204, 136, 194, 133]],
   [[48, 9]],
   [[48, 204, 136, 9]],
   [[48, 97]],
   [[48, 204, 136, 97]],
   [[48, 65]],
   [[48, 204, 136, 65]],
   [[48, 198, 187]],
   [[48, 204, 136, 198, 187]],
   [[48, 48]],
   [[48, 204, 136, 48]],
   [[48, 46]],
   [[48, 204, 136, 46]],
   [[48, 33]],
   [[48, 204, 136, 33]],
   [[48, 34]],
   [[48, 204, 136, 34]],
   [[48, 44]],
   [[48, 204, 136, 44]],
   [[48, 0]],
   [[48, 204, 136, 0]],
   [[46, 13]],
   [[46, 204, 136, 13]],
   [[46, 10]],
   [[46, 204, 136, 10]],
   [[46, 204, 128]],
   [[46, 204, 136, 204, 128]],
   [[46, 194, 173]],
   [[46, 204, 136, 194, 173]],
   [[46, 194, 133]],
   [[46, 204, 136, 194, 133]],
   [[46, 9]],
   [[46, 204, 136, 9]],
   [[46, 97]],
   [[46, 204, 136, 97]],
   [[46], [65]],
   [[46, 204, 136], [65]],
   [[46], [198, 187]],
   [[46, 204, 136], [198, 187]],
   [[46, 48]],
   [[46, 204, 136, 48]],
   [[46, 46]],
   [[46, 204, 136, 46]],
   [[46, 33]],
   [[46, 204, 136, 33]],
   [[46, 34]],
   [[46, 204, 136, 34]],
   [[46, 44]],
   [[46, 204, 136, 44]],
   [[46], [0]],
   [[46, 204, 136], [0]],
   [[33, 13]],
   [[33, 204, 136, 13]],
   [[33, 10]],
   [[33, 204, 136, 10]],
   [[33, 204, 128]],
   [[33, 204, 136, 204, 128]],
   [[33, 194, 173]],
   [[33, 204, 136, 194, 173]],
   [[33, 194, 133]],
   [[33, 204, 136, 194, 133]],
   [[33, 9]],
   [[33, 204, 136, 9]],
   [[33], [97]],
   [[33, 204, 136], [97]],
   [[33], [65]],
   [[33, 204, 136], [65]],
   [[33], [198, 187]],
   [[33, 204, 136], [198, 187]],
   [[33], [48]],
   [[33, 204, 136], [48]],
   [[33, 46]],
   [[33, 204, 136, 46]],
   [[33, 33]],
   [[33, 204, 136, 33]],
   [[33, 34]],
   [[33, 204, 136, 34]],
   [[33, 44]],
   [[33, 204, 136, 44]],
   [[33], [0]],
   [[33, 204, 136], [0]],
   [[34, 13]],
   [[34, 204, 136, 13]],
   [[34, 10]],
   [[34, 204, 136, 10]],
   [[34, 204, 128]],
   [[34, 204, 136, 204, 128]],
   [[34, 194, 173]],
   [[34, 204, 136, 194, 173]],
   [[34, 194, 133]],
   [[34, 204, 136, 194, 133]],
   [[34, 9]],
   [[34, 204, 136, 9]],
   [[34, 97]],
   [[34, 204, 136, 97]],
   [[34, 65]],
   [[34, 204, 136, 65]],
   [[34, 198, 187]],
   [[34, 204, 136, 198, 187]],
   [[34, 48]],
   [[34, 204, 136, 48]],
   [[34, 46]],
   [[34, 204, 136, 46]],
   [[34, 33]],
   [[34, 204, 136, 33]],
   [[34, 34]],
   [[34, 204, 136, 34]],
   [[34, 44]],
   [[34, 204, 136, 44]],
   [[34, 0]],
   [[34, 204, 136, 0]],
   [[44, 13]],
   [[44, 204, 136, 13]],
   [[44, 10]],
   [[44, 204, 136, 10]],
   [[44, 204, 128]],
   [[44, 204, 136, 204, 128]],
   [[44, 194, 173]],
   [[44, 204, 136, 194, 173]],
   [[44, 194, 133]],
   [[44, 204, 136, 194, 133]],
   [[44, 9]],
   [[44, 204, 136, 9]],
   [[44, 97]],
   [[44, 204, 136, 97]],
   [[44, 65]],
   [[44, 204, 136, 65]],
   [[44, 198, 187]],
   [[44, 204, 136, 198, 187]],
   [[44, 48]],
   [[44, 204, 136, 48]],
   [[44, 46]],
   [[44, 204, 136, 46]],
   [[44, 33]],
   [[44, 204, 136, 33]],
   [[44, 34]],
   [[44, 204, 136, 34]],
   [[44, 44]],
   [[44, 204, 136, 44]],
   [[44, 0]],
   [[44, 204, 136, 0]],
   [[0, 13]],
   [[0, 204, 136, 13]],
   [[0, 10]],
   [[0, 204, 136, 10]],
   [[0, 204, 128]],
   [[0, 204, 136, 204, 128]],
   [[0, 194, 173]],
   [[0, 204, 136, 194, 173]],
   [[0, 194, 133]],
   [[0, 204, 136, 194, 133]],
   [[0, 9]],
   [[0, 204, 136, 9]],
   [[0, 97]],
   [[0, 204, 136, 97]],
   [[0, 65]],
   [[0, 204, 136, 65]],
   [[0, 198, 187]],
   [[0, 204, 136, 198, 187]],
   [[0, 48]],
   [[0, 204, 136, 48]],
   [[0, 46]],
   [[0, 204, 136, 46]],
   [[0, 33]],
   [[0, 204, 136, 33]],
   [[0, 34]],
   [[0, 204, 136, 34]],
   [[0, 44]],
   [[0, 204, 136, 44]],
   [[0, 0]],
   [[0, 204, 136, 0]],
   [[13, 10], [97, 10], [204, 136]],
   [[97, 204, 136]],
   [[32, 226, 128, 141, 217, 134]],
   [[217, 134, 226, 128, 141, 32]],
   [[40, 34, 71, 111, 46, 34, 41, 32], [40, 72, 101, 32, 100, 105, 100, 46, 41]],
   [[40, 226, 128, 156, 71, 111, 63, 226, 128, 157, 41, 32], [40, 72, 101, 32, 100, 105, 100, 46, 41]],
   [[85, 46, 83, 46, 65, 204, 128, 46, 32, 105, 115]],
   [[85, 46, 83, 46, 65, 204, 128, 63, 32], [72, 101]],
   [[85, 46, 83, 46, 65, 204, 128, 46]],
   [[51, 46, 52]],
   [[99, 46, 100]],
   [[67, 46, 100]],
   [[99, 46, 68]],
   [[67, 46, 68]],
   [[101, 116, 99, 46, 41, 226, 128, 153, 194, 160, 116, 104, 101]],
   [[101, 116, 99, 46, 41, 226, 128, 153, 194, 160], [84, 104, 101]],
   [[101, 116, 99, 46, 41, 226, 128, 153, 194, 160, 226, 128, 152, 40, 116, 104, 101]],
   [[101, 116, 99, 46, 41, 226, 128, 153, 194, 160], [226, 128, 152, 40, 84, 104, 101]],
   [[101, 116, 99, 46, 41, 226, 128, 153, 194, 160, 204, 136, 116, 104, 101]],
   [[101, 116, 99, 46, 41, 226, 128, 153, 194, 160, 204, 136], [84, 104, 101]],
   [[101, 116, 99, 46, 41, 226, 128, 153, 204, 136], [84, 104, 101]],
   [[101, 116, 99, 46, 41, 10], [204, 136, 84, 104, 101]],
   [[116, 104, 101, 32, 114, 101, 115, 112, 46, 32, 108, 101, 97, 100, 101, 114, 115, 32, 97, 114, 101]],
   [[229, 173, 151, 46], [229, 173, 151]],
   [[101, 116, 99, 46], [229, 174, 131]],
   [[101, 116, 99, 46, 227, 128, 130]],
   [[229, 173, 151, 227, 128, 130], [229, 174, 131]],
   [[33, 32, 32]],
   [[97, 46]],
   [[97, 46, 13, 10]],
   [[97, 46, 13, 10], [32]],
   [[97, 46, 13, 10], [97]],
   [[65, 46, 13, 10], [65]],
   [[226, 129, 160, 40, 226, 129, 160, 34, 226, 129, 160, 71, 226, 129, 160, 111, 226, 129, 160, 46, 226, 129, 160, 34, 226, 129, 160, 41, 226, 129, 160, 32, 226, 129, 160], [40, 226, 129, 160, 72, 226, 129, 160, 101, 226, 129, 160, 32, 226, 129, 160, 100, 226, 129, 160, 105, 226, 129, 160, 100, 226, 129, 160, 46, 226, 129, 160, 41, 226, 129, 160, 226, 129, 160]],
   [[226, 129, 160, 40, 226, 129, 160, 226, 128, 156, 226, 129, 160, 71, 226, 129, 160, 111, 226, 129, 160, 63, 226, 129, 160, 226, 128, 157, 226, 129, 160, 41, 226, 129, 160, 32, 226, 129, 160], [40, 226, 129, 160, 72, 226, 129, 160, 101, 226, 129, 160, 32, 226, 129, 160, 100, 226, 129, 160, 105, 226, 129, 160, 100, 226, 129, 160, 46, 226, 129, 160, 41, 226, 129, 160, 226, 129, 160]],
   [[226, 129, 160, 85, 226, 129, 160, 46, 226, 129, 160, 83, 226, 129, 160, 46, 226, 129, 160, 65, 226, 129, 160, 204, 128, 46, 226, 129, 160, 32, 226, 129, 160, 105, 226, 129, 160, 115, 226, 129, 160, 226, 129, 160]],
   [[226, 129, 160, 85, 226, 129, 160, 46, 226, 129, 160, 83, 226, 129, 160, 46, 226, 129, 160, 65, 226, 129, 160, 204, 128, 63, 226, 129, 160, 32, 226, 129, 160], [72, 226, 129, 160, 101, 226, 129, 160, 226, 129, 160]],
   [[226, 129, 160, 85, 226, 129, 160, 46, 226, 129, 160, 83, 226, 129, 160, 46, 226, 129, 160, 65, 226, 129, 160, 204, 128, 46, 226, 129, 160, 226, 129, 160]],
   [[226, 129, 160, 51, 226, 129, 160, 46, 226, 129, 160, 52, 226, 129, 160, 226, 129, 160]],
   [[226, 129, 160, 99, 226, 129, 160, 46, 226, 129, 160, 100, 226, 129, 160, 226, 129, 160]],
   [[226, 129, 160, 67, 226, 129, 160, 46, 226, 129, 160, 100, 226, 129, 160, 226, 129, 160]],
   [[226, 129, 160, 99, 226, 129, 160, 46, 226, 129, 160, 68, 226, 129, 160, 226, 129, 160]],
   [[226, 129, 160, 67, 226, 129, 160, 46, 226, 129, 160, 68, 226, 129, 160, 226, 129, 160]],
   [[226, 129, 160, 101, 226, 129, 160, 116, 226, 129, 160, 99, 226, 129, 160, 46, 226, 129, 160, 41, 226, 129, 160, 226, 128, 153, 226, 129, 160, 194, 160, 226, 129, 160, 116, 226, 129, 160, 104, 226, 129, 160, 101, 226, 129, 160, 226, 129, 160]],
   [[226, 129, 160, 101, 226, 129, 160, 116, 226, 129, 160, 99, 226, 129, 160, 46, 226, 129, 160, 41, 226, 129, 160, 226, 128, 153, 226, 129, 160, 194, 160, 226, 129, 160], [84, 226, 129, 160, 104, 226, 129, 160, 101, 226, 129, 160, 226, 129, 160]],
   [[226, 129, 160, 101, 226, 129, 160, 116, 226, 129, 160, 99, 226, 129, 160, 46, 226, 129, 160, 41, 226, 129, 160, 226, 128, 153, 226, 129, 160, 194, 160, 226, 129, 160, 226, 128, 152, 226, 129, 160, 40, 226, 129, 160, 116, 226, 129, 160, 104, 226, 129, 160, 101, 226, 129, 160, 226, 129, 160]],
   [[226, 129, 160, 101, 226, 129, 160, 116, 226, 129, 160, 99, 226, 129, 160, 46, 226, 129, 160, 41, 226, 129, 160, 226, 128, 153, 226, 129, 160, 194, 160, 226, 129, 160], [226, 128, 152, 226, 129, 160, 40, 226, 129, 160, 84, 226, 129, 160, 104, 226, 129, 160, 101, 226, 129, 160, 226, 129, 160]],
   [[226, 129, 160, 101, 226, 129, 160, 116, 226, 129, 160, 99, 226, 129, 160, 46, 226, 129, 160, 41, 226, 129, 160, 226, 128, 153, 226, 129, 160, 194, 160, 226, 129, 160, 204, 136, 116, 226, 129, 160, 104, 226, 129, 160, 101, 226, 129, 160, 226, 129, 160]],
   [[226, 129, 160, 101, 226, 129, 160, 116, 226, 129, 160, 99, 226, 129, 160, 46, 226, 129, 160, 41, 226, 129, 160, 226, 128, 153, 226, 129, 160, 194, 160, 226, 129, 160, 204, 136], [84, 226, 129, 160, 104, 226, 129, 160, 101, 226, 129, 160, 226, 129, 160]],
   [[226, 129, 160, 101, 226, 129, 160, 116, 226, 129, 160, 99, 226, 129, 160, 46, 226, 129, 160, 41, 226, 129, 160, 226, 128, 153, 226, 129, 160, 204, 136], [84, 226, 129, 160, 104, 226, 129, 160, 101, 226, 129, 160, 226, 129, 160]],
   [[226, 129, 160, 101, 226, 129, 160, 116, 226, 129, 160, 99, 226, 129, 160, 46, 226, 129, 160, 41, 226, 129, 160, 10], [226, 129, 160, 204, 136, 226, 129, 160, 84, 226, 129, 160, 104, 226, 129, 160, 101, 226, 129, 160, 226, 129, 160]],
   [[226, 129, 160, 116, 226, 129, 160, 104, 226, 129, 160, 101, 226, 129, 160, 32, 226, 129, 160, 114, 226, 129, 160, 101, 226, 129, 160, 115, 226, 129, 160, 112, 226, 129, 160, 46, 226, 129, 160, 32, 226, 129, 160, 108, 226, 129, 160, 101, 226, 129, 160, 97, 226, 129, 160, 100, 226, 129, 160, 101, 226, 129, 160, 114, 226, 129, 160, 115, 226, 129, 160, 32, 226, 129, 160, 97, 226, 129, 160, 114, 226, 129, 160, 101, 226, 129, 160, 226, 129, 160]],
   [[226, 129, 160, 229, 173, 151, 226, 129, 160, 46, 226, 129, 160], [229, 173, 151, 226, 129, 160, 226, 129, 160]],
   [[226, 129, 160, 101, 226, 129, 160, 116, 226, 129, 160, 99, 226, 129, 160, 46, 226, 129, 160], [229, 174, 131, 226, 129, 160, 226, 129, 160]],
   [[226, 129, 160, 101, 226, 129, 160, 116, 226, 129, 160, 99, 226, 129, 160, 46, 226, 129, 160, 227, 128, 130, 226, 129, 160, 226, 129, 160]],
   [[226, 129, 160, 229, 173, 151, 226, 129, 160, 227, 128, 130, 226, 129, 160], [229, 174, 131, 226, 129, 160, 226, 129, 160]],
   [[226, 129, 160, 33, 226, 129, 160, 32, 226, 129, 160, 32, 226, 129, 160, 226, 129, 160]],
   [[226, 129, 160, 97, 226, 129, 160, 46, 226, 129, 160, 226, 129, 160]],
   [[226, 129, 160, 97, 226, 129, 160, 46, 226, 129, 160, 13], [226, 129, 160, 10], [226, 129, 160]],
   [[226, 129, 160, 97, 226, 129, 160, 46, 226, 129, 160, 13], [226, 129, 160, 10], [32, 226, 129, 160, 226, 129, 160]],
   [[226, 129, 160, 97, 226, 129, 160, 46, 226, 129, 160, 13], [226, 129, 160, 10], [97, 226, 129, 160, 226, 129, 160]],
   [[226, 129, 160, 65, 226, 129, 160, 46, 226, 129, 160, 13], [226, 129, 160, 10], [65, 226, 129, 160, 226, 129, 160]]]

theorem sentencesUnicode_pass : (sentencesUnicode.all (tokensAre .sentences)) = true := by decide +kernel


end Uax29.Tests
