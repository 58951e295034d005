import Verif.Tests.Check
/-!
GENERATED by tools/gen_tests.py from the tests in /repo. Do not edit.
-/
set_option maxRecDepth 20000
namespace Uax29.Tests

/-- words/unicode_test.go: the expected tokens. -/
def wordsUnicode : List (List (List Nat)) :=
  [[[13], [13]],
   [[13], [204, 136], [13]],
   [[13, 10]],
   [[13], [204, 136], [10]],
   [[13], [11]],
   [[13], [204, 136], [11]],
   [[13], [204, 128]],
   [[13], [204, 136, 204, 128]],
   [[13], [194, 173]],
   [[13], [204, 136, 194, 173]],
   [[13], [227, 128, 177]],
   [[13], [204, 136], [227, 128, 177]],
   [[13], [226, 147, 130]],
   [[13], [204, 136], [226, 147, 130]],
   [[13], [65]],
   [[13], [204, 136], [65]],
   [[13], [58]],
   [[13], [204, 136], [58]],
   [[13], [44]],
   [[13], [204, 136], [44]],
   [[13], [46]],
   [[13], [204, 136], [46]],
   [[13], [48]],
   [[13], [204, 136], [48]],
   [[13], [95]],
   [[13], [204, 136], [95]],
   [[13], [240, 159, 135, 166]],
   [[13], [204, 136], [240, 159, 135, 166]],
   [[13], [215, 144]],
   [[13], [204, 136], [215, 144]],
   [[13], [34]],
   [[13], [204, 136], [34]],
   [[13], [39]],
   [[13], [204, 136], [39]],
   [[13], [226, 128, 141]],
   [[13], [204, 136, 226, 128, 141]],
   [[13], [194, 169]],
   [[13], [204, 136], [194, 169]],
   [[13], [32]],
   [[13], [204, 136], [32]],
   [[13], [0]],
   [[13], [204, 136], [0]],
   [[13], [97, 226, 129, 160]],
   [[13], [204, 136], [97, 226, 129, 160]],
   [[13], [97], [58]],
   [[13], [204, 136], [97], [58]],
   [[13], [97], [39]],
   [[13], [204, 136], [97], [39]],
   [[13], [97], [39, 226, 129, 160]],
   [[13], [204, 136], [97], [39, 226, 129, 160]],
   [[13], [97], [44]],
   [[13], [204, 136], [97], [44]],
   [[13], [49], [58]],
   [[13], [204, 136], [49], [58]],
   [[13], [49], [39]],
   [[13], [204, 136], [49], [39]],
   [[13], [49], [44]],
   [[13], [204, 136], [49], [44]],
   [[13], [49], [46, 226, 129, 160]],
   [[13], [204, 136], [49], [46, 226, 129, 160]],
   [[10], [13]],
   [[10], [204, 136], [13]],
   [[10], [10]],
   [[10], [204, 136], [10]],
   [[10], [11]],
   [[10], [204, 136], [11]],
   [[10], [204, 128]],
   [[10], [204, 136, 204, 128]],
   [[10], [194, 173]],
   [[10], [204, 136, 194, 173]],
   [[10], [227, 128, 177]],
   [[10], [204, 136], [227, 128, 177]],
   [[10], [226, 147, 130]],
   [[10], [204, 136], [226, 147, 130]],
   [[10], [65]],
   [[10], [204, 136], [65]],
   [[10], [58]],
   [[10], [204, 136], [58]],
   [[10], [44]],
   [[10], [204, 136], [44]],
   [[10], [46]],
   [[10], [204, 136], [46]],
   [[10], [48]],
   [[10], [204, 136], [48]],
   [[10], [95]],
   [[10], [204, 136], [95]],
   [[10], [240, 159, 135, 166]],
   [[10], [204, 136], [240, 159, 135, 166]],
   [[10], [215, 144]],
   [[10], [204, 136], [215, 144]],
   [[10], [34]],
   [[10], [204, 136], [34]],
   [[10], [39]],
   [[10], [204, 136], [39]],
   [[10], [226, 128, 141]],
   [[10], [204, 136, 226, 128, 141]],
   [[10], [194, 169]],
   [[10], [204, 136], [194, 169]],
   [[10], [32]],
   [[10], [204, 136], [32]],
   [[10], [0]],
   [[10], [204, 136], [0]],
   [[10], [97, 226, 129, 160]],
   [[10], [204, 136], [97, 226, 129, 160]],
   [[10], [97], [58]],
   [[10], [204, 136], [97], [58]],
   [[10], [97], [39]],
   [[10], [204, 136], [97], [39]],
   [[10], [97], [39, 226, 129, 160]],
   [[10], [204, 136], [97], [39, 226, 129, 160]],
   [[10], [97], [44]],
   [[10], [204, 136], [97], [44]],
   [[10], [49], [58]],
   [[10], [204, 136], [49], [58]],
   [[10], [49], [39]],
   [[10], [204, 136], [49], [39]],
   [[10], [49], [44]],
   [[10], [204, 136], [49], [44]],
   [[10], [49], [46, 226, 129, 160]],
   [[10], [204, 136], [49], [46, 226, 129, 160]],
   [[11], [13]],
   [[11], [204, 136], [13]],
   [[11], [10]],
   [[11], [204, 136], [10]],
   [[11], [11]],
   [[11], [204, 136], [11]],
   [[11], [204, 128]],
   [[11], [204, 136, 204, 128]],
   [[11], [194, 173]],
   [[11], [204, 136, 194, 173]],
   [[11], [227, 128, 177]],
   [[11], [204, 136], [227, 128, 177]],
   [[11], [226, 147, 130]],
   [[11], [204, 136], [226, 147, 130]],
   [[11], [65]],
   [[11], [204, 136], [65]],
   [[11], [58]],
   [[11], [204, 136], [58]],
   [[11], [44]],
   [[11], [204, 136], [44]],
   [[11], [46]],
   [[11], [204, 136], [46]],
   [[11], [48]],
   [[11], [204, 136], [48]],
   [[11], [95]],
   [[11], [204, 136], [95]],
   [[11], [240, 159, 135, 166]],
   [[11], [204, 136], [240, 159, 135, 166]],
   [[11], [215, 144]],
   [[11], [204, 136], [215, 144]],
   [[11], [34]],
   [[11], [204, 136], [34]],
   [[11], [39]],
   [[11], [204, 136], [39]],
   [[11], [226, 128, 141]],
   [[11], [204, 136, 226, 128, 141]],
   [[11], [194, 169]],
   [[11], [204, 136], [194, 169]],
   [[11], [32]],
   [[11], [204, 136], [32]],
   [[11], [0]],
   [[11], [204, 136], [0]],
   [[11], [97, 226, 129, 160]],
   [[11], [204, 136], [97, 226, 129, 160]],
   [[11], [97], [58]],
   [[11], [204, 136], [97], [58]],
   [[11], [97], [39]],
   [[11], [204, 136], [97], [39]],
   [[11], [97], [39, 226, 129, 160]],
   [[11], [204, 136], [97], [39, 226, 129, 160]],
   [[11], [97], [44]],
   [[11], [204, 136], [97], [44]],
   [[11], [49], [58]],
   [[11], [204, 136], [49], [58]],
   [[11], [49], [39]],
   [[11], [204, 136], [49], [39]],
   [[11], [49], [44]],
   [[11], [204, 136], [49], [44]],
   [[11], [49], [46, 226, 129, 160]],
   [[11], [204, 136], [49], [46, 226, 129, 160]],
   [[204, 128], [13]],
   [[204, 128, 204, 136], [13]],
   [[204, 128], [10]],
   [[204, 128, 204, 136], [10]],
   [[204, 128], [11]],
   [[204, 128, 204, 136], [11]],
   [[204, 128, 204, 128]],
   [[204, 128, 204, 136, 204, 128]],
   [[204, 128, 194, 173]],
   [[204, 128, 204, 136, 194, 173]],
   [[204, 128], [227, 128, 177]],
   [[204, 128, 204, 136], [227, 128, 177]],
   [[204, 128], [226, 147, 130]],
   [[204, 128, 204, 136], [226, 147, 130]],
   [[204, 128], [65]],
   [[204, 128, 204, 136], [65]],
   [[204, 128], [58]],
   [[204, 128, 204, 136], [58]],
   [[204, 128], [44]],
   [[204, 128, 204, 136], [44]],
   [[204, 128], [46]],
   [[204, 128, 204, 136], [46]],
   [[204, 128], [48]],
   [[204, 128, 204, 136], [48]],
   [[204, 128], [95]],
   [[204, 128, 204, 136], [95]],
   [[204, 128], [240, 159, 135, 166]],
   [[204, 128, 204, 136], [240, 159, 135, 166]],
   [[204, 128], [215, 144]],
   [[204, 128, 204, 136], [215, 144]],
   [[204, 128], [34]],
   [[204, 128, 204, 136], [34]],
   [[204, 128], [39]],
   [[204, 128, 204, 136], [39]],
   [[204, 128, 226, 128, 141]],
   [[204, 128, 204, 136, 226, 128, 141]],
   [[204, 128], [194, 169]],
   [[204, 128, 204, 136], [194, 169]],
   [[204, 128], [32]],
   [[204, 128, 204, 136], [32]],
   [[204, 128], [0]],
   [[204, 128, 204, 136], [0]],
   [[204, 128], [97, 226, 129, 160]],
   [[204, 128, 204, 136], [97, 226, 129, 160]],
   [[204, 128], [97], [58]],
   [[204, 128, 204, 136], [97], [58]],
   [[204, 128], [97], [39]],
   [[204, 128, 204, 136], [97], [39]],
   [[204, 128], [97], [39, 226, 129, 160]],
   [[204, 128, 204, 136], [97], [39, 226, 129, 160]],
   [[204, 128], [97], [44]],
   [[204, 128, 204, 136], [97], [44]],
   [[204, 128], [49], [58]],
   [[204, 128, 204, 136], [49], [58]],
   [[204, 128], [49], [39]],
   [[204, 128, 204, 136], [49], [39]],
   [[204, 128], [49], [44]],
   [[204, 128, 204, 136], [49], [44]],
   [[204, 128], [49], [46, 226, 129, 160]],
   [[204, 128, 204, 136], [49], [46, 226, 129, 160]],
   [[194, 173], [13]],
   [[194, 173, 204, 136], [13]],
   [[194, 173], [10]],
   [[194, 173, 204, 136], [10]],
   [[194, 173], [11]],
   [[194, 173, 204, 136], [11]],
   [[194, 173, 204, 128]],
   [[194, 173, 204, 136, 204, 128]],
   [[194, 173, 194, 173]],
   [[194, 173, 204, 136, 194, 173]],
   [[194, 173], [227, 128, 177]],
   [[194, 173, 204, 136], [227, 128, 177]],
   [[194, 173], [226, 147, 130]],
   [[194, 173, 204, 136], [226, 147, 130]],
   [[194, 173], [65]],
   [[194, 173, 204, 136], [65]],
   [[194, 173], [58]],
   [[194, 173, 204, 136], [58]],
   [[194, 173], [44]],
   [[194, 173, 204, 136], [44]],
   [[194, 173], [46]],
   [[194, 173, 204, 136], [46]],
   [[194, 173], [48]],
   [[194, 173, 204, 136], [48]],
   [[194, 173], [95]],
   [[194, 173, 204, 136], [95]],
   [[194, 173], [240, 159, 135, 166]],
   [[194, 173, 204, 136], [240, 159, 135, 166]],
   [[194, 173], [215, 144]],
   [[194, 173, 204, 136], [215, 144]],
   [[194, 173], [34]],
   [[194, 173, 204, 136], [34]],
   [[194, 173], [39]],
   [[194, 173, 204, 136], [39]],
   [[194, 173, 226, 128, 141]],
   [[194, 173, 204, 136, 226, 128, 141]],
   [[194, 173], [194, 169]],
   [[194, 173, 204, 136], [194, 169]],
   [[194, 173], [32]],
   [[194, 173, 204, 136], [32]],
   [[194, 173], [0]],
   [[194, 173, 204, 136], [0]],
   [[194, 173], [97, 226, 129, 160]],
   [[194, 173, 204, 136], [97, 226, 129, 160]],
   [[194, 173], [97], [58]],
   [[194, 173, 204, 136], [97], [58]],
   [[194, 173], [97], [39]],
   [[194, 173, 204, 136], [97], [39]],
   [[194, 173], [97], [39, 226, 129, 160]],
   [[194, 173, 204, 136], [97], [39, 226, 129, 160]],
   [[194, 173], [97], [44]],
   [[194, 173, 204, 136], [97], [44]],
   [[194, 173], [49], [58]],
   [[194, 173, 204, 136], [49], [58]],
   [[194, 173], [49], [39]],
   [[194, 173, 204, 136], [49], [39]],
   [[194, 173], [49], [44]],
   [[194, 173, 204, 136], [49], [44]],
   [[194, 173], [49], [46, 226, 129, 160]],
   [[194, 173, 204, 136], [49], [46, 226, 129, 160]],
   [[227, 128, 177], [13]],
   [[227, 128, 177, 204, 136], [13]],
   [[227, 128, 177], [10]],
   [[227, 128, 177, 204, 136], [10]],
   [[227, 128, 177], [11]],
   [[227, 128, 177, 204, 136], [11]],
   [[227, 128, 177, 204, 128]],
   [[227, 128, 177, 204, 136, 204, 128]],
   [[227, 128, 177, 194, 173]],
   [[227, 128, 177, 204, 136, 194, 173]],
   [[227, 128, 177, 227, 128, 177]],
   [[227, 128, 177, 204, 136, 227, 128, 177]],
   [[227, 128, 177], [226, 147, 130]],
   [[227, 128, 177, 204, 136], [226, 147, 130]],
   [[227, 128, 177], [65]],
   [[227, 128, 177, 204, 136], [65]],
   [[227, 128, 177], [58]],
   [[227, 128, 177, 204, 136], [58]],
   [[227, 128, 177], [44]],
   [[227, 128, 177, 204, 136], [44]],
   [[227, 128, 177], [46]],
   [[227, 128, 177, 204, 136], [46]],
   [[227, 128, 177], [48]],
   [[227, 128, 177, 204, 136], [48]],
   [[227, 128, 177, 95]],
   [[227, 128, 177, 204, 136, 95]],
   [[227, 128, 177], [240, 159, 135, 166]],
   [[227, 128, 177, 204, 136], [240, 159, 135, 166]],
   [[227, 128, 177], [215, 144]],
   [[227, 128, 177, 204, 136], [215, 144]],
   [[227, 128, 177], [34]],
   [[227, 128, 177, 204, 136], [34]],
   [[227, 128, 177], [39]],
   [[227, 128, 177, 204, 136], [39]],
   [[227, 128, 177, 226, 128, 141]],
   [[227, 128, 177, 204, 136, 226, 128, 141]],
   [[227, 128, 177], [194, 169]],
   [[227, 128, 177, 204, 136], [194, 169]],
   [[227, 128, 177], [32]],
   [[227, 128, 177, 204, 136], [32]],
   [[227, 128, 177], [0]],
   [[227, 128, 177, 204, 136], [0]],
   [[227, 128, 177], [97, 226, 129, 160]],
   [[227, 128, 177, 204, 136], [97, 226, 129, 160]],
   [[227, 128, 177], [97], [58]],
   [[227, 128, 177, 204, 136], [97], [58]],
   [[227, 128, 177], [97], [39]],
   [[227, 128, 177, 204, 136], [97], [39]],
   [[227, 128, 177], [97], [39, 226, 129, 160]],
   [[227, 128, 177, 204, 136], [97], [39, 226, 129, 160]],
   [[227, 128, 177], [97], [44]],
   [[227, 128, 177, 204, 136], [97], [44]],
   [[227, 128, 177], [49], [58]],
   [[227, 128, 177, 204, 136], [49], [58]],
   [[227, 128, 177], [49], [39]],
   [[227, 128, 177, 204, 136], [49], [39]],
   [[227, 128, 177], [49], [44]],
   [[227, 128, 177, 204, 136], [49], [44]],
   [[227, 128, 177], [49], [46, 226, 129, 160]],
   [[227, 128, 177, 204, 136], [49], [46, 226, 129, 160]],
   [[226, 147, 130], [13]],
   [[226, 147, 130, 204, 136], [13]],
   [[226, 147, 130], [10]],
   [[226, 147, 130, 204, 136], [10]],
   [[226, 147, 130], [11]],
   [[226, 147, 130, 204, 136], [11]],
   [[226, 147, 130, 204, 128]],
   [[226, 147, 130, 204, 136, 204, 128]],
   [[226, 147, 130, 194, 173]],
   [[226, 147, 130, 204, 136, 194, 173]],
   [[226, 147, 130], [227, 128, 177]],
   [[226, 147, 130, 204, 136], [227, 128, 177]],
   [[226, 147, 130, 226, 147, 130]],
   [[226, 147, 130, 204, 136, 226, 147, 130]],
   [[226, 147, 130, 65]],
   [[226, 147, 130, 204, 136, 65]],
   [[226, 147, 130], [58]],
   [[226, 147, 130, 204, 136], [58]],
   [[226, 147, 130], [44]],
   [[226, 147, 130, 204, 136], [44]],
   [[226, 147, 130], [46]],
   [[226, 147, 130, 204, 136], [46]],
   [[226, 147, 130, 48]],
   [[226, 147, 130, 204, 136, 48]],
   [[226, 147, 130, 95]],
   [[226, 147, 130, 204, 136, 95]],
   [[226, 147, 130], [240, 159, 135, 166]],
   [[226, 147, 130, 204, 136], [240, 159, 135, 166]],
   [[226, 147, 130, 215, 144]],
   [[226, 147, 130, 204, 136, 215, 144]],
   [[226, 147, 130], [34]],
   [[226, 147, 130, 204, 136], [34]],
   [[226, 147, 130], [39]],
   [[226, 147, 130, 204, 136], [39]],
   [[226, 147, 130, 226, 128, 141]],
   [[226, 147, 130, 204, 136, 226, 128, 141]],
   [[226, 147, 130], [194, 169]],
   [[226, 147, 130, 204, 136], [194, 169]],
   [[226, 147, 130], [32]],
   [[226, 147, 130, 204, 136], [32]],
   [[226, 147, 130], [0]],
   [[226, 147, 130, 204, 136], [0]],
   [[226, 147, 130, 97, 226, 129, 160]],
   [[226, 147, 130, 204, 136, 97, 226, 129, 160]],
   [[226, 147, 130, 97], [58]],
   [[226, 147, 130, 204, 136, 97], [58]],
   [[226, 147, 130, 97], [39]],
   [[226, 147, 130, 204, 136, 97], [39]],
   [[226, 147, 130, 97], [39, 226, 129, 160]],
   [[226, 147, 130, 204, 136, 97], [39, 226, 129, 160]],
   [[226, 147, 130, 97], [44]],
   [[226, 147, 130, 204, 136, 97], [44]],
   [[226, 147, 130, 49], [58]],
   [[226, 147, 130, 204, 136, 49], [58]],
   [[226, 147, 130, 49], [39]],
   [[226, 147, 130, 204, 136, 49], [39]],
   [[226, 147, 130, 49], [44]],
   [[226, 147, 130, 204, 136, 49], [44]],
   [[226, 147, 130, 49], [46, 226, 129, 160]],
   [[226, 147, 130, 204, 136, 49], [46, 226, 129, 160]],
   [[65], [13]],
   [[65, 204, 136], [13]],
   [[65], [10]],
   [[65, 204, 136], [10]],
   [[65], [11]],
   [[65, 204, 136], [11]],
   [[65, 204, 128]],
   [[65, 204, 136, 204, 128]],
   [[65, 194, 173]],
   [[65, 204, 136, 194, 173]],
   [[65], [227, 128, 177]],
   [[65, 204, 136], [227, 128, 177]],
   [[65, 226, 147, 130]],
   [[65, 204, 136, 226, 147, 130]],
   [[65, 65]],
   [[65, 204, 136, 65]],
   [[65], [58]],
   [[65, 204, 136], [58]],
   [[65], [44]],
   [[65, 204, 136], [44]],
   [[65], [46]],
   [[65, 204, 136], [46]],
   [[65, 48]],
   [[65, 204, 136, 48]],
   [[65, 95]],
   [[65, 204, 136, 95]],
   [[65], [240, 159, 135, 166]],
   [[65, 204, 136], [240, 159, 135, 166]],
   [[65, 215, 144]],
   [[65, 204, 136, 215, 144]],
   [[65], [34]],
   [[65, 204, 136], [34]],
   [[65], [39]],
   [[65, 204, 136], [39]],
   [[65, 226, 128, 141]],
   [[65, 204, 136, 226, 128, 141]],
   [[65], [194, 169]],
   [[65, 204, 136], [194, 169]],
   [[65], [32]],
   [[65, 204, 136], [32]],
   [[65], [0]],
   [[65, 204, 136], [0]],
   [[65, 97, 226, 129, 160]],
   [[65, 204, 136, 97, 226, 129, 160]],
   [[65, 97], [58]],
   [[65, 204, 136, 97], [58]],
   [[65, 97], [39]],
   [[65, 204, 136, 97], [39]],
   [[65, 97], [39, 226, 129, 160]],
   [[65, 204, 136, 97], [39, 226, 129, 160]],
   [[65, 97], [44]],
   [[65, 204, 136, 97], [44]],
   [[65, 49], [58]],
   [[65, 204, 136, 49], [58]],
   [[65, 49], [39]],
   [[65, 204, 136, 49], [39]],
   [[65, 49], [44]],
   [[65, 204, 136, 49], [44]],
   [[65, 49], [46, 226, 129, 160]],
   [[65, 204, 136, 49], [46, 226, 129, 160]],
   [[58], [13]],
   [[58, 204, 136], [13]],
   [[58], [10]],
   [[58, 204, 136], [10]],
   [[58], [11]],
   [[58, 204, 136], [11]],
   [[58, 204, 128]],
   [[58, 204, 136, 204, 128]],
   [[58, 194, 173]],
   [[58, 204, 136, 194, 173]],
   [[58], [227, 128, 177]],
   [[58, 204, 136], [227, 128, 177]],
   [[58], [226, 147, 130]],
   [[58, 204, 136], [226, 147, 130]],
   [[58], [65]],
   [[58, 204, 136], [65]],
   [[58], [58]],
   [[58, 204, 136], [58]],
   [[58], [44]],
   [[58, 204, 136], [44]],
   [[58], [46]],
   [[58, 204, 136], [46]],
   [[58], [48]],
   [[58, 204, 136], [48]],
   [[58], [95]],
   [[58, 204, 136], [95]],
   [[58], [240, 159, 135, 166]],
   [[58, 204, 136], [240, 159, 135, 166]],
   [[58], [215, 144]],
   [[58, 204, 136], [215, 144]],
   [[58], [34]],
   [[58, 204, 136], [34]],
   [[58], [39]],
   [[58, 204, 136], [39]],
   [[58, 226, 128, 141]],
   [[58, 204, 136, 226, 128, 141]],
   [[58], [194, 169]],
   [[58, 204, 136], [194, 169]],
   [[58], [32]],
   [[58, 204, 136], [32]],
   [[58], [0]],
   [[58, 204, 136], [0]],
   [[58], [97, 226, 129, 160]],
   [[58, 204, 136], [97, 226, 129, 160]],
   [[58], [97], [58]],
   [[58, 204, 136], [97], [58]],
   [[58], [97], [39]],
   [[58, 204, 136], [97], [39]],
   [[58], [97], [39, 226, 129, 160]],
   [[58, 204, 136], [97], [39, 226, 129, 160]],
   [[58], [97], [44]],
   [[58, 204, 136], [97], [44]],
   [[58], [49], [58]],
   [[58, 204, 136], [49], [58]],
   [[58], [49], [39]],
   [[58, 204, 136], [49], [39]],
   [[58], [49], [44]],
   [[58, 204, 136], [49], [44]],
   [[58], [49], [46, 226, 129, 160]],
   [[58, 204, 136], [49], [46, 226, 129, 160]],
   [[44], [13]],
   [[44, 204, 136], [13]],
   [[44], [10]],
   [[44, 204, 136], [10]],
   [[44], [11]],
   [[44, 204, 136], [11]],
   [[44, 204, 128]],
   [[44, 204, 136, 204, 128]],
   [[44, 194, 173]],
   [[44, 204, 136, 194, 173]],
   [[44], [227, 128, 177]],
   [[44, 204, 136], [227, 128, 177]],
   [[44], [226, 147, 130]],
   [[44, 204, 136], [226, 147, 130]],
   [[44], [65]],
   [[44, 204, 136], [65]],
   [[44], [58]],
   [[44, 204, 136], [58]],
   [[44], [44]],
   [[44, 204, 136], [44]],
   [[44], [46]],
   [[44, 204, 136], [46]],
   [[44], [48]],
   [[44, 204, 136], [48]],
   [[44], [95]],
   [[44, 204, 136], [95]],
   [[44], [240, 159, 135, 166]],
   [[44, 204, 136], [240, 159, 135, 166]],
   [[44], [215, 144]],
   [[44, 204, 136], [215, 144]],
   [[44], [34]],
   [[44, 204, 136], [34]],
   [[44], [39]],
   [[44, 204, 136], [39]],
   [[44, 226, 128, 141]],
   [[44, 204, 136, 226, 128, 141]],
   [[44], [194, 169]],
   [[44, 204, 136], [194, 169]],
   [[44], [32]],
   [[44, 204, 136], [32]],
   [[44], [0]],
   [[44, 204, 136], [0]],
   [[44], [97, 226, 129, 160]],
   [[44, 204, 136], [97, 226, 129, 160]],
   [[44], [97], [58]],
   [[44, 204, 136], [97], [58]],
   [[44], [97], [39]],
   [[44, 204, 136], [97], [39]],
   [[44], [97], [39, 226, 129, 160]],
   [[44, 204, 136], [97], [39, 226, 129, 160]],
   [[44], [97], [44]],
   [[44, 204, 136], [97], [44]],
   [[44], [49], [58]],
   [[44, 204, 136], [49], [58]],
   [[44], [49], [39]],
   [[44, 204, 136], [49], [39]],
   [[44], [49], [44]],
   [[44, 204, 136], [49], [44]],
   [[44], [49], [46, 226, 129, 160]],
   [[44, 204, 136], [49], [46, 226, 129, 160]],
   [[46], [13]],
   [[46, 204, 136], [13]],
   [[46], [10]],
   [[46, 204, 136], [10]],
   [[46], [11]],
   [[46, 204, 136], [11]],
   [[46, 204, 128]],
   [[46, 204, 136, 204, 128]],
   [[46, 194, 173]],
   [[46, 204, 136, 194, 173]],
   [[46], [227, 128, 177]],
   [[46, 204, 136], [227, 128, 177]],
   [[46], [226, 147, 130]],
   [[46, 204, 136], [226, 147, 130]],
   [[46], [65]],
   [[46, 204, 136], [65]],
   [[46], [58]],
   [[46, 204, 136], [58]],
   [[46], [44]],
   [[46, 204, 136], [44]],
   [[46], [46]],
   [[46, 204, 136], [46]],
   [[46], [48]],
   [[46, 204, 136], [48]],
   [[46], [95]],
   [[46, 204, 136], [95]],
   [[46], [240, 159, 135, 166]],
   [[46, 204, 136], [240, 159, 135, 166]],
   [[46], [215, 144]],
   [[46, 204, 136], [215, 144]],
   [[46], [34]],
   [[46, 204, 136], [34]],
   [[46], [39]],
   [[46, 204, 136], [39]],
   [[46, 226, 128, 141]],
   [[46, 204, 136, 226, 128, 141]],
   [[46], [194, 169]],
   [[46, 204, 136], [194, 169]],
   [[46], [32]],
   [[46, 204, 136], [32]],
   [[46], [0]],
   [[46, 204, 136], [0]],
   [[46], [97, 226, 129, 160]],
   [[46, 204, 136], [97, 226, 129, 160]],
   [[46], [97], [58]],
   [[46, 204, 136], [97], [58]],
   [[46], [97], [39]],
   [[46, 204, 136], [97], [39]],
   [[46], [97], [39, 226, 129, 160]],
   [[46, 204, 136], [97], [39, 226, 129, 160]],
   [[46], [97], [44]],
   [[46, 204, 136], [97], [44]],
   [[46], [49], [58]],
   [[46, 204, 136], [49], [58]],
   [[46], [49], [39]],
   [[46, 204, 136], [49], [39]],
   [[46], [49], [44]],
   [[46, 204, 136], [49], [44]],
   [[46], [49], [46, 226, 129, 160]],
   [[46, 204, 136], [49], [46, 226, 129, 160]],
   [[48], [13]],
   [[48, 204, 136], [13]],
   [[48], [10]],
   [[48, 204, 136], [10]],
   [[48], [11]],
   [[48, 204, 136], [11]],
   [[48, 204, 128]],
   [[48, 204, 136, 204, 128]],
   [[48, 194, 173]],
   [[48, 204, 136, 194, 173]],
   [[48], [227, 128, 177]],
   [[48, 204, 136], [227, 128, 177]],
   [[48, 226, 147, 130]],
   [[48, 204, 136, 226, 147, 130]],
   [[48, 65]],
   [[48, 204, 136, 65]],
   [[48], [58]],
   [[48, 204, 136], [58]],
   [[48], [44]],
   [[48, 204, 136], [44]],
   [[48], [46]],
   [[48, 204, 136], [46]],
   [[48, 48]],
   [[48, 204, 136, 48]],
   [[48, 95]],
   [[48, 204, 136, 95]],
   [[48], [240, 159, 135, 166]],
   [[48, 204, 136], [240, 159, 135, 166]],
   [[48, 215, 144]],
   [[48, 204, 136, 215, 144]],
   [[48], [34]],
   [[48, 204, 136], [34]],
   [[48], [39]],
   [[48, 204, 136], [39]],
   [[48, 226, 128, 141]],
   [[48, 204, 136, 226, 128, 141]],
   [[48], [194, 169]],
   [[48, 204, 136], [194, 169]],
   [[48], [32]],
   [[48, 204, 136], [32]],
   [[48], [0]],
   [[48, 204, 136], [0]],
   [[48, 97, 226, 129, 160]],
   [[48, 204, 136, 97, 226, 129, 160]],
   [[48, 97], [58]],
   [[48, 204, 136, 97], [58]],
   [[48, 97], [39]],
   [[48, 204, 136, 97], [39]],
   [[48, 97], [39, 226, 129, 160]],
   [[48, 204, 136, 97], [39, 226, 129, 160]],
   [[48, 97], [44]],
   [[48, 204, 136, 97], [44]],
   [[48, 49], [58]],
   [[48, 204, 136, 49], [58]],
   [[48, 49], [39]],
   [[48, 204, 136, 49], [39]],
   [[48, 49], [44]],
   [[48, 204, 136, 49], [44]],
   [[48, 49], [46, 226, 129, 160]],
   [[48, 204, 136, 49], [46, 226, 129, 160]],
   [[95], [13]],
   [[95, 204, 136], [13]],
   [[95], [10]],
   [[95, 204, 136], [10]],
   [[95], [11]],
   [[95, 204, 136], [11]],
   [[95, 204, 128]],
   [[95, 204, 136, 204, 128]],
   [[95, 194, 173]],
   [[95, 204, 136, 194, 173]],
   [[95, 227, 128, 177]],
   [[95, 204, 136, 227, 128, 177]],
   [[95, 226, 147, 130]],
   [[95, 204, 136, 226, 147, 130]],
   [[95, 65]],
   [[95, 204, 136, 65]],
   [[95], [58]],
   [[95, 204, 136], [58]],
   [[95], [44]],
   [[95, 204, 136], [44]],
   [[95], [46]],
   [[95, 204, 136], [46]],
   [[95, 48]],
   [[95, 204, 136, 48]],
   [[95, 95]],
   [[95, 204, 136, 95]],
   [[95], [240, 159, 135, 166]],
   [[95, 204, 136], [240, 159, 135, 166]],
   [[95, 215, 144]],
   [[95, 204, 136, 215, 144]],
   [[95], [34]],
   [[95, 204, 136], [34]],
   [[95], [39]],
   [[95, 204, 136], [39]],
   [[95, 226, 128, 141]],
   [[95, 204, 136, 226, 128, 141]],
   [[95], [194, 169]],
   [[95, 204, 136], [194, 169]],
   [[95], [32]],
   [[95, 204, 136], [32]],
   [[95], [0]],
   [[95, 204, 136], [0]],
   [[95, 97, 226, 129, 160]],
   [[95, 204, 136, 97, 226, 129, 160]],
   [[95, 97], [58]],
   [[95, 204, 136, 97], [58]],
   [[95, 97], [39]],
   [[95, 204, 136, 97], [39]],
   [[95, 97], [39, 226, 129, 160]],
   [[95, 204, 136, 97], [39, 226, 129, 160]],
   [[95, 97], [44]],
   [[95, 204, 136, 97], [44]],
   [[95, 49], [58]],
   [[95, 204, 136, 49], [58]],
   [[95, 49], [39]],
   [[95, 204, 136, 49], [39]],
   [[95, 49], [44]],
   [[95, 204, 136, 49], [44]],
   [[95, 49], [46, 226, 129, 160]],
   [[95, 204, 136, 49], [46, 226, 129, 160]],
   [[240, 159, 135, 166], [13]],
   [[240, 159, 135, 166, 204, 136], [13]],
   [[240, 159, 135, 166], [10]],
   [[240, 159, 135, 166, 204, 136], [10]],
   [[240, 159, 135, 166], [11]],
   [[240, 159, 135, 166, 204, 136], [11]],
   [[240, 159, 135, 166, 204, 128]],
   [[240, 159, 135, 166, 204, 136, 204, 128]],
   [[240, 159, 135, 166, 194, 173]],
   [[240, 159, 135, 166, 204, 136, 194, 173]],
   [[240, 159, 135, 166], [227, 128, 177]],
   [[240, 159, 135, 166, 204, 136], [227, 128, 177]],
   [[240, 159, 135, 166], [226, 147, 130]],
   [[240, 159, 135, 166, 204, 136], [226, 147, 130]],
   [[240, 159, 135, 166], [65]],
   [[240, 159, 135, 166, 204, 136], [65]],
   [[240, 159, 135, 166], [58]],
   [[240, 159, 135, 166, 204, 136], [58]],
   [[240, 159, 135, 166], [44]],
   [[240, 159, 135, 166, 204, 136], [44]],
   [[240, 159, 135, 166], [46]],
   [[240, 159, 135, 166, 204, 136], [46]],
   [[240, 159, 135, 166], [48]],
   [[240, 159, 135, 166, 204, 136], [48]],
   [[240, 159, 135, 166], [95]],
   [[240, 159, 135, 166, 204, 136], [95]],
   [[240, 159, 135, 166, 240, 159, 135, 166]],
   [[240, 159, 135, 166, 204, 136, 240, 159, 135, 166]],
   [[240, 159, 135, 166], [215, 144]],
   [[240, 159, 135, 166, 204, 136], [215, 144]],
   [[240, 159, 135, 166], [34]],
   [[240, 159, 135, 166, 204, 136], [34]],
   [[240, 159, 135, 166], [39]],
   [[240, 159, 135, 166, 204, 136], [39]],
   [[240, 159, 135, 166, 226, 128, 141]],
   [[240, 159, 135, 166, 204, 136, 226, 128, 141]],
   [[240, 159, 135, 166], [194, 169]],
   [[240, 159, 135, 166, 204, 136], [194, 169]],
   [[240, 159, 135, 166], [32]],
   [[240, 159, 135, 166, 204, 136], [32]],
   [[240, 159, 135, 166], [0]],
   [[240, 159, 135, 166, 204, 136], [0]],
   [[240, 159, 135, 166], [97, 226, 129, 160]],
   [[240, 159, 135, 166, 204, 136], [97, 226, 129, 160]],
   [[240, 159, 135, 166], [97], [58]],
   [[240, 159, 135, 166, 204, 136], [97], [58]],
   [[240, 159, 135, 166], [97], [39]],
   [[240, 159, 135, 166, 204, 136], [97], [39]],
   [[240, 159, 135, 166], [97], [39, 226, 129, 160]],
   [[240, 159, 135, 166, 204, 136], [97], [39, 226, 129, 160]],
   [[240, 159, 135, 166], [97], [44]],
   [[240, 159, 135, 166, 204, 136], [97], [44]],
   [[240, 159, 135, 166], [49], [58]],
   [[240, 159, 135, 166, 204, 136], [49], [58]],
   [[240, 159, 135, 166], [49], [39]],
   [[240, 159, 135, 166, 204, 136], [49], [39]],
   [[240, 159, 135, 166], [49], [44]],
   [[240, 159, 135, 166, 204, 136], [49], [44]],
   [[240, 159, 135, 166], [49], [46, 226, 129, 160]],
   [[240, 159, 135, 166, 204, 136], [49], [46, 226, 129, 160]],
   [[215, 144], [13]],
   [[215, 144, 204, 136], [13]],
   [[215, 144], [10]],
   [[215, 144, 204, 136], [10]],
   [[215, 144], [11]],
   [[215, 144, 204, 136], [11]],
   [[215, 144, 204, 128]],
   [[215, 144, 204, 136, 204, 128]],
   [[215, 144, 194, 173]],
   [[215, 144, 204, 136, 194, 173]],
   [[215, 144], [227, 128, 177]],
   [[215, 144, 204, 136], [227, 128, 177]],
   [[215, 144, 226, 147, 130]],
   [[215, 144, 204, 136, 226, 147, 130]],
   [[215, 144, 65]],
   [[215, 144, 204, 136, 65]],
   [[215, 144], [58]],
   [[215, 144, 204, 136], [58]],
   [[215, 144], [44]],
   [[215, 144, 204, 136], [44]],
   [[215, 144], [46]],
   [[215, 144, 204, 136], [46]],
   [[215, 144, 48]],
   [[215, 144, 204, 136, 48]],
   [[215, 144, 95]],
   [[215, 144, 204, 136, 95]],
   [[215, 144], [240, 159, 135, 166]],
   [[215, 144, 204, 136], [240, 159, 135, 166]],
   [[215, 144, 215, 144]],
   [[215, 144, 204, 136, 215, 144]],
   [[215, 144], [34]],
   [[215, 144, 204, 136], [34]],
   [[215, 144, 39]],
   [[215, 144, 204, 136, 39]],
   [[215, 144, 226, 128, 141]],
   [[215, 144, 204, 136, 226, 128, 141]],
   [[215, 144], [194, 169]],
   [[215, 144, 204, 136], [194, 169]],
   [[215, 144], [32]],
   [[215, 144, 204, 136], [32]],
   [[215, 144], [0]],
   [[215, 144, 204, 136], [0]],
   [[215, 144, 97, 226, 129, 160]],
   [[215, 144, 204, 136, 97, 226, 129, 160]],
   [[215, 144, 97], [58]],
   [[215, 144, 204, 136, 97], [58]],
   [[215, 144, 97], [39]],
   [[215, 144, 204, 136, 97], [39]],
   [[215, 144, 97], [39, 226, 129, 160]],
   [[215, 144, 204, 136, 97], [39, 226, 129, 160]],
   [[215, 144, 97], [44]],
   [[215, 144, 204, 136, 97], [44]],
   [[215, 144, 49], [58]],
   [[215, 144, 204, 136, 49], [58]],
   [[215, 144, 49], [39]],
   [[215, 144, 204, 136, 49], [39]],
   [[215, 144, 49], [44]],
   [[215, 144, 204, 136, 49], [44]],
   [[215, 144, 49], [46, 226, 129, 160]],
   [[215, 144, 204, 136, 49], [46, 226, 129, 160]],
   [[34], [13]],
   [[34, 204, 136], [13]],
   [[34], [10]],
   [[34, 204, 136], [10]],
   [[34], [11]],
   [[34, 204, 136], [11]],
   [[34, 204, 128]],
   [[34, 204, 136, 204, 128]],
   [[34, 194, 173]],
   [[34, 204, 136, 194, 173]],
   [[34], [227, 128, 177]],
   [[34, 204, 136], [227, 128, 177]],
   [[34], [226, 147, 130]],
   [[34, 204, 136], [226, 147, 130]],
   [[34], [65]],
   [[34, 204, 136], [65]],
   [[34], [58]],
   [[34, 204, 136], [58]],
   [[34], [44]],
   [[34, 204, 136], [44]],
   [[34], [46]],
   [[34, 204, 136], [46]],
   [[34], [48]],
   [[34, 204, 136], [48]],
   [[34], [95]],
   [[34, 204, 136], [95]],
   [[34], [240, 159, 135, 166]],
   [[34, 204, 136], [240, 159, 135, 166]],
   [[34], [215, 144]],
   [[34, 204, 136], [215, 144]],
   [[34], [34]],
   [[34, 204, 136], [34]],
   [[34], [39]],
   [[34, 204, 136], [39]],
   [[34, 226, 128, 141]],
   [[34, 204, 136, 226, 128, 141]],
   [[34], [194, 169]],
   [[34, 204, 136], [194, 169]],
   [[34], [32]],
   [[34, 204, 136], [32]],
   [[34], [0]],
   [[34, 204, 136], [0]],
   [[34], [97, 226, 129, 160]],
   [[34, 204, 136], [97, 226, 129, 160]],
   [[34], [97], [58]],
   [[34, 204, 136], [97], [58]],
   [[34], [97], [39]],
   [[34, 204, 136], [97], [39]],
   [[34], [97], [39, 226, 129, 160]],
   [[34, 204, 136], [97], [39, 226, 129, 160]],
   [[34], [97], [44]],
   [[34, 204, 136], [97], [44]],
   [[34], [49], [58]],
   [[34, 204, 136], [49], [58]],
   [[34], [49], [39]],
   [[34, 204, 136], [49], [39]],
   [[34], [49], [44]],
   [[34, 204, 136], [49], [44]],
   [[34], [49], [46, 226, 129, 160]],
   [[34, 204, 136], [49], [46, 226, 129, 160]],
   [[39], [13]],
   [[39, 204, 136], [13]],
   [[39], [10]],
   [[39, 204, 136], [10]],
   [[39], [11]],
   [[39, 204, 136], [11]],
   [[39, 204, 128]],
   [[39, 204, 136, 204, 128]],
   [[39, 194, 173]],
   [[39, 204, 136, 194, 173]],
   [[39], [227, 128, 177]],
   [[39, 204, 136], [227, 128, 177]],
   [[39], [226, 147, 130]],
   [[39, 204, 136], [226, 147, 130]],
   [[39], [65]],
   [[39, 204, 136], [65]],
   [[39], [58]],
   [[39, 204, 136], [58]],
   [[39], [44]],
   [[39, 204, 136], [44]],
   [[39], [46]],
   [[39, 204, 136], [46]],
   [[39], [48]],
   [[39, 204, 136], [48]],
   [[39], [95]],
   [[39, 204, 136], [95]],
   [[39], [240, 159, 135, 166]],
   [[39, 204, 136], [240, 159, 135, 166]],
   [[39], [215, 144]],
   [[39, 204, 136], [215, 144]],
   [[39], [34]],
   [[39, 204, 136], [34]],
   [[39], [39]],
   [[39, 204, 136], [39]],
   [[39, 226, 128, 141]],
   [[39, 204, 136, 226, 128, 141]],
   [[39], [194, 169]],
   [[39, 204, 136], [194, 169]],
   [[39], [32]],
   [[39, 204, 136], [32]],
   [[39], [0]],
   [[39, 204, 136], [0]],
   [[39], [97, 226, 129, 160]],
   [[39, 204, 136], [97, 226, 129, 160]],
   [[39], [97], [58]],
   [[39, 204, 136], [97], [58]],
   [[39], [97], [39]],
   [[39, 204, 136], [97], [39]],
   [[39], [97], [39, 226, 129, 160]],
   [[39, 204, 136], [97], [39, 226, 129, 160]],
   [[39], [97], [44]],
   [[39, 204, 136], [97], [44]],
   [[39], [49], [58]],
   [[39, 204, 136], [49], [58]],
   [[39], [49], [39]],
   [[39, 204, 136], [49], [39]],
   [[39], [49], [44]],
   [[39, 204, 136], [49], [44]],
   [[39], [49], [46, 226, 129, 160]],
   [[39, 204, 136], [49], [46, 226, 129, 160]],
   [[226, 128, 141], [13]],
   [[226, 128, 141, 204, 136], [13]],
   [[226, 128, 141], [10]],
   [[226, 128, 141, 204, 136], [10]],
   [[226, 128, 141], [11]],
   [[226, 128, 141, 204, 136], [11]],
   [[226, 128, 141, 204, 128]],
   [[226, 128, 141, 204, 136, 204, 128]],
   [[226, 128, 141, 194, 173]],
   [[226, 128, 141, 204, 136, 194, 173]],
   [[226, 128, 141], [227, 128, 177]],
   [[226, 128, 141, 204, 136], [227, 128, 177]],
   [[226, 128, 141, 226, 147, 130]],
   [[226, 128, 141, 204, 136], [226, 147, 130]],
   [[226, 128, 141], [65]],
   [[226, 128, 141, 204, 136], [65]],
   [[226, 128, 141], [58]],
   [[226, 128, 141, 204, 136], [58]],
   [[226, 128, 141], [44]],
   [[226, 128, 141, 204, 136], [44]],
   [[226, 128, 141], [46]],
   [[226, 128, 141, 204, 136], [46]],
   [[226, 128, 141], [48]],
   [[226, 128, 141, 204, 136], [48]],
   [[226, 128, 141], [95]],
   [[226, 128, 141, 204, 136], [95]],
   [[226, 128, 141], [240, 159, 135, 166]],
   [[226, 128, 141, 204, 136], [240, 159, 135, 166]],
   [[226, 128, 141], [215, 144]],
   [[226, 128, 141, 204, 136], [215, 144]],
   [[226, 128, 141], [34]],
   [[226, 128, 141, 204, 136], [34]],
   [[226, 128, 141], [39]],
   [[226, 128, 141, 204, 136], [39]],
   [[226, 128, 141, 226, 128, 141]],
   [[226, 128, 141, 204, 136, 226, 128, 141]],
   [[226, 128, 141, 194, 169]],
   [[226, 128, 141, 204, 136], [194, 169]],
   [[226, 128, 141], [32]],
   [[226, 128, 141, 204, 136], [32]],
   [[226, 128, 141], [0]],
   [[226, 128, 141, 204, 136], [0]],
   [[226, 128, 141], [97, 226, 129, 160]],
   [[226, 128, 141, 204, 136], [97, 226, 129, 160]],
   [[226, 128, 141], [97], [58]],
   [[226, 128, 141, 204, 136], [97], [58]],
   [[226, 128, 141], [97], [39]],
   [[226, 128, 141, 204, 136], [97], [39]],
   [[226, 128, 141], [97], [39, 226, 129, 160]],
   [[226, 128, 141, 204, 136], [97], [39, 226, 129, 160]],
   [[226, 128, 141], [97], [44]],
   [[226, 128, 141, 204, 136], [97], [44]],
   [[226, 128, 141], [49], [58]],
   [[226, 128, 141, 204, 136], [49], [58]],
   [[226, 128, 141], [49], [39]],
   [[226, 128, 141, 204, 136], [49], [39]],
   [[226, 128, 141], [49], [44]],
   [[226, 128, 141, 204, 136], [49], [44]],
   [[226, 128, 141], [49], [46, 226, 129, 160]],
   [[226, 128, 141, 204, 136], [49], [46, 226, 129, 160]],
   [[194, 169], [13]],
   [[194, 169, 204, 136], [13]],
   [[194, 169], [10]],
   [[194, 169, 204, 136], [10]],
   [[194, 169], [11]],
   [[194, 169, 204, 136], [11]],
   [[194, 169, 204, 128]],
   [[194, 169, 204, 136, 204, 128]],
   [[194, 169, 194, 173]],
   [[194, 169, 204, 136, 194, 173]],
   [[194, 169], [227, 128, 177]],
   [[194, 169, 204, 136], [227, 128, 177]],
   [[194, 169], [226, 147, 130]],
   [[194, 169, 204, 136], [226, 147, 130]],
   [[194, 169], [65]],
   [[194, 169, 204, 136], [65]],
   [[194, 169], [58]],
   [[194, 169, 204, 136], [58]],
   [[194, 169], [44]],
   [[194, 169, 204, 136], [44]],
   [[194, 169], [46]],
   [[194, 169, 204, 136], [46]],
   [[194, 169], [48]],
   [[194, 169, 204, 136], [48]],
   [[194, 169], [95]],
   [[194, 169, 204, 136], [95]],
   [[194, 169], [240, 159, 135, 166]],
   [[194, 169, 204, 136], [240, 159, 135, 166]],
   [[194, 169], [215, 144]],
   [[194, 169, 204, 136], [215, 144]],
   [[194, 169], [34]],
   [[194, 169, 204, 136], [34]],
   [[194, 169], [39]],
   [[194, 169, 204, 136], [39]],
   [[194, 169, 226, 128, 141]],
   [[194, 169, 204, 136, 226, 128, 141]],
   [[194, 169], [194, 169]],
   [[194, 169, 204, 136], [194, 169]],
   [[194, 169], [32]],
   [[194, 169, 204, 136], [32]],
   [[194, 169], [0]],
   [[194, 169, 204, 136], [0]],
   [[194, 169], [97, 226, 129, 160]],
   [[194, 169, 204, 136], [97, 226, 129, 160]],
   [[194, 169], [97], [58]],
   [[194, 169, 204, 136], [97], [58]],
   [[194, 169], [97], [39]],
   [[194, 169, 204, 136], [97], [39]],
   [[194, 169], [97], [39, 226, 129, 160]],
   [[194, 169, 204, 136], [97], [39, 226, 129, 160]],
   [[194, 169], [97], [44]],
   [[194, 169, 204, 136], [97], [44]],
   [[194, 169], [49], [58]],
   [[194, 169, 204, 136], [49], [58]],
   [[194, 169], [49], [39]],
   [[194, 169, 204, 136], [49], [39]],
   [[194, 169], [49], [44]],
   [[194, 169, 204, 136], [49], [44]],
   [[194, 169], [49], [46, 226, 129, 160]],
   [[194, 169, 204, 136], [49], [46, 226, 129, 160]],
   [[32], [13]],
   [[32, 204, 136], [13]],
   [[32], [10]],
   [[32, 204, 136], [10]],
   [[32], [11]],
   [[32, 204, 136], [11]],
   [[32, 204, 128]],
   [[32, 204, 136, 204, 128]],
   [[32, 194, 173]],
   [[32, 204, 136, 194, 173]],
   [[32], [227, 128, 177]],
   [[32, 204, 136], [227, 128, 177]],
   [[32], [226, 147, 130]],
   [[32, 204, 136], [226, 147, 130]],
   [[32], [65]],
   [[32, 204, 136], [65]],
   [[32], [58]],
   [[32, 204, 136], [58]],
   [[32], [44]],
   [[32, 204, 136], [44]],
   [[32], [46]],
   [[32, 204, 136], [46]],
   [[32], [48]],
   [[32, 204, 136], [48]],
   [[32], [95]],
   [[32, 204, 136], [95]],
   [[32], [240, 159, 135, 166]],
   [[32, 204, 136], [240, 159, 135, 166]],
   [[32], [215, 144]],
   [[32, 204, 136], [215, 144]],
   [[32], [34]],
   [[32, 204, 136], [34]],
   [[32], [39]],
   [[32, 204, 136], [39]],
   [[32, 226, 128, 141]],
   [[32, 204, 136, 226, 128, 141]],
   [[32], [194, 169]],
   [[32, 204, 136], [194, 169]],
   [[32, 32]],
   [[32, 204, 136], [32]],
   [[32], [0]],
   [[32, 204, 136], [0]],
   [[32], [97, 226, 129, 160]],
   [[32, 204, 136], [97, 226, 129, 160]],
   [[32], [97], [58]],
   [[32, 204, 136], [97], [58]],
   [[32], [97], [39]],
   [[32, 204, 136], [97], [39]],
   [[32], [97], [39, 226, 129, 160]],
   [[32, 204, 136], [97], [39, 226, 129, 160]],
   [[32], [97], [44]],
   [[32, 204, 136], [97], [44]],
   [[32], [49], [58]],
   [[32, 204, 136], [49], [58]],
   [[32], [49], [39]],
   [[32, 204, 136], [49], [39]],
   [[32], [49], [44]],
   [[32, 204, 136], [49], [44]],
   [[32], [49], [46, 226, 129, 160]],
   [[32, 204, 136], [49], [46, 226, 129, 160]],
   [[0], [13]],
   [[0, 204, 136], [13]],
   [[0], [10]],
   [[0, 204, 136], [10]],
   [[0], [11]],
   [[0, 204, 136], [11]],
   [[0, 204, 128]],
   [[0, 204, 136, 204, 128]],
   [[0, 194, 173]],
   [[0, 204, 136, 194, 173]],
   [[0], [227, 128, 177]],
   [[0, 204, 136], [227, 128, 177]],
   [[0], [226, 147, 130]],
   [[0, 204, 136], [226, 147, 130]],
   [[0], [65]],
   [[0, 204, 136], [65]],
   [[0], [58]],
   [[0, 204, 136], [58]],
   [[0], [44]],
   [[0, 204, 136], [44]],
   [[0], [46]],
   [[0, 204, 136], [46]],
   [[0], [48]],
   [[0, 204, 136], [48]],
   [[0], [95]],
   [[0, 204, 136], [95]],
   [[0], [240, 159, 135, 166]],
   [[0, 204, 136], [240, 159, 135, 166]],
   [[0], [215, 144]],
   [[0, 204, 136], [215, 144]],
   [[0], [34]],
   [[0, 204, 136], [34]],
   [[0], [39]],
   [[0, 204, 136], [39]],
   [[0, 226, 128, 141]],
   [[0, 204, 136, 226, 128, 141]],
   [[0], [194, 169]],
   [[0, 204, 136], [194, 169]],
   [[0], [32]],
   [[0, 204, 136], [32]],
   [[0], [0]],
   [[0, 204, 136], [0]],
   [[0], [97, 226, 129, 160]],
   [[0, 204, 136], [97, 226, 129, 160]],
   [[0], [97], [58]],
   [[0, 204, 136], [97], [58]],
   [[0], [97], [39]],
   [[0, 204, 136], [97], [39]],
   [[0], [97], [39, 226, 129, 160]],
   [[0, 204, 136], [97], [39, 226, 129, 160]],
   [[0], [97], [44]],
   [[0, 204, 136], [97], [44]],
   [[0], [49], [58]],
   [[0, 204, 136], [49], [58]],
   [[0], [49], [39]],
   [[0, 204, 136], [49], [39]],
   [[0], [49], [44]],
   [[0, 204, 136], [49], [44]],
   [[0], [49], [46, 226, 129, 160]],
   [[0, 204, 136], [49], [46, 226, 129, 160]],
   [[97, 226, 129, 160], [13]],
   [[97, 226, 129, 160, 204, 136], [13]],
   [[97, 226, 129, 160], [10]],
   [[97, 226, 129, 160, 204, 136], [10]],
   [[97, 226, 129, 160], [11]],
   [[97, 226, 129, 160, 204, 136], [11]],
   [[97, 226, 129, 160, 204, 128]],
   [[97, 226, 129, 160, 204, 136, 204, 128]],
   [[97, 226, 129, 160, 194, 173]],
   [[97, 226, 129, 160, 204, 136, 194, 173]],
   [[97, 226, 129, 160], [227, 128, 177]],
   [[97, 226, 129, 160, 204, 136], [227, 128, 177]],
   [[97, 226, 129, 160, 226, 147, 130]],
   [[97, 226, 129, 160, 204, 136, 226, 147, 130]],
   [[97, 226, 129, 160, 65]],
   [[97, 226, 129, 160, 204, 136, 65]],
   [[97, 226, 129, 160], [58]],
   [[97, 226, 129, 160, 204, 136], [58]],
   [[97, 226, 129, 160], [44]],
   [[97, 226, 129, 160, 204, 136], [44]],
   [[97, 226, 129, 160], [46]],
   [[97, 226, 129, 160, 204, 136], [46]],
   [[97, 226, 129, 160, 48]],
   [[97, 226, 129, 160, 204, 136, 48]],
   [[97, 226, 129, 160, 95]],
   [[97, 226, 129, 160, 204, 136, 95]],
   [[97, 226, 129, 160], [240, 159, 135, 166]],
   [[97, 226, 129, 160, 204, 136], [240, 159, 135, 166]],
   [[97, 226, 129, 160, 215, 144]],
   [[97, 226, 129, 160, 204, 136, 215, 144]],
   [[97, 226, 129, 160], [34]],
   [[97, 226, 129, 160, 204, 136], [34]],
   [[97, 226, 129, 160], [39]],
   [[97, 226, 129, 160, 204, 136], [39]],
   [[97, 226, 129, 160, 226, 128, 141]],
   [[97, 226, 129, 160, 204, 136, 226, 128, 141]],
   [[97, 226, 129, 160], [194, 169]],
   [[97, 226, 129, 160, 204, 136], [194, 169]],
   [[97, 226, 129, 160], [32]],
   [[97, 226, 129, 160, 204, 136], [32]],
   [[97, 226, 129, 160], [0]],
   [[97, 226, 129, 160, 204, 136], [0]],
   [[97, 226, 129, 160, 97, 226, 129, 160]],
   [[97, 226, 129, 160, 204, 136, 97, 226, 129, 160]],
   [[97, 226, 129, 160, 97], [58]],
   [[97, 226, 129, 160, 204, 136, 97], [58]],
   [[97, 226, 129, 160, 97], [39]],
   [[97, 226, 129, 160, 204, 136, 97], [39]],
   [[97, 226, 129, 160, 97], [39, 226, 129, 160]],
   [[97, 226, 129, 160, 204, 136, 97], [39, 226, 129, 160]],
   [[97, 226, 129, 160, 97], [44]],
   [[97, 226, 129, 160, 204, 136, 97], [44]],
   [[97, 226, 129, 160, 49], [58]],
   [[97, 226, 129, 160, 204, 136, 49], [58]],
   [[97, 226, 129, 160, 49], [39]],
   [[97, 226, 129, 160, 204, 136, 49], [39]],
   [[97, 226, 129, 160, 49], [44]],
   [[97, 226, 129, 160, 204, 136, 49], [44]],
   [[97, 226, 129, 160, 49], [46, 226, 129, 160]],
   [[97, 226, 129, 160, 204, 136, 49], [46, 226, 129, 160]],
   [[97], [58], [13]],
   [[97], [58, 204, 136], [13]],
   [[97], [58], [10]],
   [[97], [58, 204, 136], [10]],
   [[97], [58], [11]],
   [[97], [58, 204, 136], [11]],
   [[97], [58, 204, 128]],
   [[97], [58, 204, 136, 204, 128]],
   [[97], [58, 194, 173]],
   [[97], [58, 204, 136, 194, 173]],
   [[97], [58], [227, 128, 177]],
   [[97], [58, 204, 136], [227, 128, 177]],
   [[97, 58, 226, 147, 130]],
   [[97, 58, 204, 136, 226, 147, 130]],
   [[97, 58, 65]],
   [[97, 58, 204, 136, 65]],
   [[97], [58], [58]],
   [[97], [58, 204, 136], [58]],
   [[97], [58], [44]],
   [[97], [58, 204, 136], [44]],
   [[97], [58], [46]],
   [[97], [58, 204, 136], [46]],
   [[97], [58], [48]],
   [[97], [58, 204, 136], [48]],
   [[97], [58], [95]],
   [[97], [58, 204, 136], [95]],
   [[97], [58], [240, 159, 135, 166]],
   [[97], [58, 204, 136], [240, 159, 135, 166]],
   [[97, 58, 215, 144]],
   [[97, 58, 204, 136, 215, 144]],
   [[97], [58], [34]],
   [[97], [58, 204, 136], [34]],
   [[97], [58], [39]],
   [[97], [58, 204, 136], [39]],
   [[97], [58, 226, 128, 141]],
   [[97], [58, 204, 136, 226, 128, 141]],
   [[97], [58], [194, 169]],
   [[97], [58, 204, 136], [194, 169]],
   [[97], [58], [32]],
   [[97], [58, 204, 136], [32]],
   [[97], [58], [0]],
   [[97], [58, 204, 136], [0]],
   [[97, 58, 97, 226, 129, 160]],
   [[97, 58, 204, 136, 97, 226, 129, 160]],
   [[97, 58, 97], [58]],
   [[97, 58, 204, 136, 97], [58]],
   [[97, 58, 97], [39]],
   [[97, 58, 204, 136, 97], [39]],
   [[97, 58, 97], [39, 226, 129, 160]],
   [[97, 58, 204, 136, 97], [39, 226, 129, 160]],
   [[97, 58, 97], [44]],
   [[97, 58, 204, 136, 97], [44]],
   [[97], [58], [49], [58]],
   [[97], [58, 204, 136], [49], [58]],
   [[97], [58], [49], [39]],
   [[97], [58, 204, 136], [49], [39]],
   [[97], [58], [49], [44]],
   [[97], [58, 204, 136], [49], [44]],
   [[97], [58], [49], [46, 226, 129, 160]],
   [[97], [58, 204, 136], [49], [46, 226, 129, 160]],
   [[97], [39], [13]],
   [[97], [39, 204, 136], [13]],
   [[97], [39], [10]],
   [[97], [39, 204, 136], [10]],
   [[97], [39], [11]],
   [[97], [39, 204, 136], [11]],
   [[97], [39, 204, 128]],
   [[97], [39, 204, 136, 204, 128]],
   [[97], [39, 194, 173]],
   [[97], [39, 204, 136, 194, 173]],
   [[97], [39], [227, 128, 177]],
   [[97], [39, 204, 136], [227, 128, 177]],
   [[97, 39, 226, 147, 130]],
   [[97, 39, 204, 136, 226, 147, 130]],
   [[97, 39, 65]],
   [[97, 39, 204, 136, 65]],
   [[97], [39], [58]],
   [[97], [39, 204, 136], [58]],
   [[97], [39], [44]],
   [[97], [39, 204, 136], [44]],
   [[97], [39], [46]],
   [[97], [39, 204, 136], [46]],
   [[97], [39], [48]],
   [[97], [39, 204, 136], [48]],
   [[97], [39], [95]],
   [[97], [39, 204, 136], [95]],
   [[97], [39], [240, 159, 135, 166]],
   [[97], [39, 204, 136], [240, 159, 135, 166]],
   [[97, 39, 215, 144]],
   [[97, 39, 204, 136, 215, 144]],
   [[97], [39], [34]],
   [[97], [39, 204, 136], [34]],
   [[97], [39], [39]],
   [[97], [39, 204, 136], [39]],
   [[97], [39, 226, 128, 141]],
   [[97], [39, 204, 136, 226, 128, 141]],
   [[97], [39], [194, 169]],
   [[97], [39, 204, 136], [194, 169]],
   [[97], [39], [32]],
   [[97], [39, 204, 136], [32]],
   [[97], [39], [0]],
   [[97], [39, 204, 136], [0]],
   [[97, 39, 97, 226, 129, 160]],
   [[97, 39, 204, 136, 97, 226, 129, 160]],
   [[97, 39, 97], [58]],
   [[97, 39, 204, 136, 97], [58]],
   [[97, 39, 97], [39]],
   [[97, 39, 204, 136, 97], [39]],
   [[97, 39, 97], [39, 226, 129, 160]],
   [[97, 39, 204, 136, 97], [39, 226, 129, 160]],
   [[97, 39, 97], [44]],
   [[97, 39, 204, 136, 97], [44]],
   [[97], [39], [49], [58]],
   [[97], [39, 204, 136], [49], [58]],
   [[97], [39], [49], [39]],
   [[97], [39, 204, 136], [49], [39]],
   [[97], [39], [49], [44]],
   [[97], [39, 204, 136], [49], [44]],
   [[97], [39], [49], [46, 226, 129, 160]],
   [[97], [39, 204, 136], [49], [46, 226, 129, 160]],
   [[97], [39, 226, 129, 160], [13]],
   [[97], [39, 226, 129, 160, 204, 136], [13]],
   [[97], [39, 226, 129, 160], [10]],
   [[97], [39, 226, 129, 160, 204, 136], [10]],
   [[97], [39, 226, 129, 160], [11]],
   [[97], [39, 226, 129, 160, 204, 136], [11]],
   [[97], [39, 226, 129, 160, 204, 128]],
   [[97], [39, 226, 129, 160, 204, 136, 204, 128]],
   [[97], [39, 226, 129, 160, 194, 173]],
   [[97], [39, 226, 129, 160, 204, 136, 194, 173]],
   [[97], [39, 226, 129, 160], [227, 128, 177]],
   [[97], [39, 226, 129, 160, 204, 136], [227, 128, 177]],
   [[97, 39, 226, 129, 160, 226, 147, 130]],
   [[97, 39, 226, 129, 160, 204, 136, 226, 147, 130]],
   [[97, 39, 226, 129, 160, 65]],
   [[97, 39, 226, 129, 160, 204, 136, 65]],
   [[97], [39, 226, 129, 160], [58]],
   [[97], [39, 226, 129, 160, 204, 136], [58]],
   [[97], [39, 226, 129, 160], [44]],
   [[97], [39, 226, 129, 160, 204, 136], [44]],
   [[97], [39, 226, 129, 160], [46]],
   [[97], [39, 226, 129, 160, 204, 136], [46]],
   [[97], [39, 226, 129, 160], [48]],
   [[97], [39, 226, 129, 160, 204, 136], [48]],
   [[97], [39, 226, 129, 160], [95]],
   [[97], [39, 226, 129, 160, 204, 136], [95]],
   [[97], [39, 226, 129, 160], [240, 159, 135, 166]],
   [[97], [39, 226, 129, 160, 204, 136], [240, 159, 135, 166]],
   [[97, 39, 226, 129, 160, 215, 144]],
   [[97, 39, 226, 129, 160, 204, 136, 215, 144]],
   [[97], [39, 226, 129, 160], [34]],
   [[97], [39, 226, 129, 160, 204, 136], [34]],
   [[97], [39, 226, 129, 160], [39]],
   [[97], [39, 226, 129, 160, 204, 136], [39]],
   [[97], [39, 226, 129, 160, 226, 128, 141]],
   [[97], [39, 226, 129, 160, 204, 136, 226, 128, 141]],
   [[97], [39, 226, 129, 160], [194, 169]],
   [[97], [39, 226, 129, 160, 204, 136], [194, 169]],
   [[97], [39, 226, 129, 160], [32]],
   [[97], [39, 226, 129, 160, 204, 136], [32]],
   [[97], [39, 226, 129, 160], [0]],
   [[97], [39, 226, 129, 160, 204, 136], [0]],
   [[97, 39, 226, 129, 160, 97, 226, 129, 160]],
   [[97, 39, 226, 129, 160, 204, 136, 97, 226, 129, 160]],
   [[97, 39, 226, 129, 160, 97], [58]],
   [[97, 39, 226, 129, 160, 204, 136, 97], [58]],
   [[97, 39, 226, 129, 160, 97], [39]],
   [[97, 39, 226, 129, 160, 204, 136, 97], [39]],
   [[97, 39, 226, 129, 160, 97], [39, 226, 129, 160]],
   [[97, 39, 226, 129, 160, 204, 136, 97], [39, 226, 129, 160]],
   [[97, 39, 226, 129, 160, 97], [44]],
   [[97, 39, 226, 129, 160, 204, 136, 97], [44]],
   [[97], [39, 226, 129, 160], [49], [58]],
   [[97], [39, 226, 129, 160, 204, 136], [49], [58]],
   [[97], [39, 226, 129, 160], [49], [39]],
   [[97], [39, 226, 129, 160, 204, 136], [49], [39]],
   [[97], [39, 226, 129, 160], [49], [44]],
   [[97], [39, 226, 129, 160, 204, 136], [49], [44]],
   [[97], [39, 226, 129, 160], [49], [46, 226, 129, 160]],
   [[97], [39, 226, 129, 160, 204, 136], [49], [46, 226, 129, 160]],
   [[97], [44], [13]],
   [[97], [44, 204, 136], [13]],
   [[97], [44], [10]],
   [[97], [44, 204, 136], [10]],
   [[97], [44], [11]],
   [[97], [44, 204, 136], [11]],
   [[97], [44, 204, 128]],
   [[97], [44, 204, 136, 204, 128]],
   [[97], [44, 194, 173]],
   [[97], [44, 204, 136, 194, 173]],
   [[97], [44], [227, 128, 177]],
   [[97], [44, 204, 136], [227, 128, 177]],
   [[97], [44], [226, 147, 130]],
   [[97], [44, 204, 136], [226, 147, 130]],
   [[97], [44], [65]],
   [[97], [44, 204, 136], [65]],
   [[97], [44], [58]],
   [[97], [44, 204, 136], [58]],
   [[97], [44], [44]],
   [[97], [44, 204, 136], [44]],
   [[97], [44], [46]],
   [[97], [44, 204, 136], [46]],
   [[97], [44], [48]],
   [[97], [44, 204, 136], [48]],
   [[97], [44], [95]],
   [[97], [44, 204, 136], [95]],
   [[97], [44], [240, 159, 135, 166]],
   [[97], [44, 204, 136], [240, 159, 135, 166]],
   [[97], [44], [215, 144]],
   [[97], [44, 204, 136], [215, 144]],
   [[97], [44], [34]],
   [[97], [44, 204, 136], [34]],
   [[97], [44], [39]],
   [[97], [44, 204, 136], [39]],
   [[97], [44, 226, 128, 141]],
   [[97], [44, 204, 136, 226, 128, 141]],
   [[97], [44], [194, 169]],
   [[97], [44, 204, 136], [194, 169]],
   [[97], [44], [32]],
   [[97], [44, 204, 136], [32]],
   [[97], [44], [0]],
   [[97], [44, 204, 136], [0]],
   [[97], [44], [97, 226, 129, 160]],
   [[97], [44, 204, 136], [97, 226, 129, 160]],
   [[97], [44], [97], [58]],
   [[97], [44, 204, 136], [97], [58]],
   [[97], [44], [97], [39]],
   [[97], [44, 204, 136], [97], [39]],
   [[97], [44], [97], [39, 226, 129, 160]],
   [[97], [44, 204, 136], [97], [39, 226, 129, 160]],
   [[97], [44], [97], [44]],
   [[97], [44, 204, 136], [97], [44]],
   [[97], [44], [49], [58]],
   [[97], [44, 204, 136], [49], [58]],
   [[97], [44], [49], [39]],
   [[97], [44, 204, 136], [49], [39]],
   [[97], [44], [49], [44]],
   [[97], [44, 204, 136], [49], [44]],
   [[97], [44], [49], [46, 226, 129, 160]],
   [[97], [44, 204, 136], [49], [46, 226, 129, 160]],
   [[49], [58], [13]],
   [[49], [58, 204, 136], [13]],
   [[49], [58], [10]],
   [[49], [58, 204, 136], [10]],
   [[49], [58], [11]],
   [[49], [58, 204, 136], [11]],
   [[49], [58, 204, 128]],
   [[49], [58, 204, 136, 204, 128]],
   [[49], [58, 194, 173]],
   [[49], [58, 204, 136, 194, 173]],
   [[49], [58], [227, 128, 177]],
   [[49], [58, 204, 136], [227, 128, 177]],
   [[49], [58], [226, 147, 130]],
   [[49], [58, 204, 136], [226, 147, 130]],
   [[49], [58], [65]],
   [[49], [58, 204, 136], [65]],
   [[49], [58], [58]],
   [[49], [58, 204, 136], [58]],
   [[49], [58], [44]],
   [[49], [58, 204, 136], [44]],
   [[49], [58], [46]],
   [[49], [58, 204, 136], [46]],
   [[49], [58], [48]],
   [[49], [58, 204, 136], [48]],
   [[49], [58], [95]],
   [[49], [58, 204, 136], [95]],
   [[49], [58], [240, 159, 135, 166]],
   [[49], [58, 204, 136], [240, 159, 135, 166]],
   [[49], [58], [215, 144]],
   [[49], [58, 204, 136], [215, 144]],
   [[49], [58], [34]],
   [[49], [58, 204, 136], [34]],
   [[49], [58], [39]],
   [[49], [58, 204, 136], [39]],
   [[49], [58, 226, 128, 141]],
   [[49], [58, 204, 136, 226, 128, 141]],
   [[49], [58], [194, 169]],
   [[49], [58, 204, 136], [194, 169]],
   [[49], [58], [32]],
   [[49], [58, 204, 136], [32]],
   [[49], [58], [0]],
   [[49], [58, 204, 136], [0]],
   [[49], [58], [97, 226, 129, 160]],
   [[49], [58, 204, 136], [97, 226, 129, 160]],
   [[49], [58], [97], [58]],
   [[49], [58, 204, 136], [97], [58]],
   [[49], [58], [97], [39]],
   [[49], [58, 204, 136], [97], [39]],
   [[49], [58], [97], [39, 226, 129, 160]],
   [[49], [58, 204, 136], [97], [39, 226, 129, 160]],
   [[49], [58], [97], [44]],
   [[49], [58, 204, 136], [97], [44]],
   [[49], [58], [49], [58]],
   [[49], [58, 204, 136], [49], [58]],
   [[49], [58], [49], [39]],
   [[49], [58, 204, 136], [49], [39]],
   [[49], [58], [49], [44]],
   [[49], [58, 204, 136], [49], [44]],
   [[49], [58], [49], [46, 226, 129, 160]],
   [[49], [58, 204, 136], [49], [46, 226, 129, 160]],
   [[49], [39], [13]],
   [[49], [39, 204, 136], [13]],
   [[49], [39], [10]],
   [[49], [39, 204, 136], [10]],
   [[49], [39], [11]],
   [[49], [39, 204, 136], [11]],
   [[49], [39, 204, 128]],
   [[49], [39, 204, 136, 204, 128]],
   [[49], [39, 194, 173]],
   [[49], [39, 204, 136, 194, 173]],
   [[49], [39], [227, 128, 177]],
   [[49], [39, 204, 136], [227, 128, 177]],
   [[49], [39], [226, 147, 130]],
   [[49], [39, 204, 136], [226, 147, 130]],
   [[49], [39], [65]],
   [[49], [39, 204, 136], [65]],
   [[49], [39], [58]],
   [[49], [39, 204, 136], [58]],
   [[49], [39], [44]],
   [[49], [39, 204, 136], [44]],
   [[49], [39], [46]],
   [[49], [39, 204, 136], [46]],
   [[49, 39, 48]],
   [[49, 39, 204, 136, 48]],
   [[49], [39], [95]],
   [[49], [39, 204, 136], [95]],
   [[49], [39], [240, 159, 135, 166]],
   [[49], [39, 204, 136], [240, 159, 135, 166]],
   [[49], [39], [215, 144]],
   [[49], [39, 204, 136], [215, 144]],
   [[49], [39], [34]],
   [[49], [39, 204, 136], [34]],
   [[49], [39], [39]],
   [[49], [39, 204, 136], [39]],
   [[49], [39, 226, 128, 141]],
   [[49], [39, 204, 136, 226, 128, 141]],
   [[49], [39], [194, 169]],
   [[49], [39, 204, 136], [194, 169]],
   [[49], [39], [32]],
   [[49], [39, 204, 136], [32]],
   [[49], [39], [0]],
   [[49], [39, 204, 136], [0]],
   [[49], [39], [97, 226, 129, 160]],
   [[49], [39, 204, 136], [97, 226, 129, 160]],
   [[49], [39], [97], [58]],
   [[49], [39, 204, 136], [97], [58]],
   [[49], [39], [97], [39]],
   [[49], [39, 204, 136], [97], [39]],
   [[49], [39], [97], [39, 226, 129, 160]],
   [[49], [39, 204, 136], [97], [39, 226, 129, 160]],
   [[49], [39], [97], [44]],
   [[49], [39, 204, 136], [97], [44]],
   [[49, 39, 49], [58]],
   [[49, 39, 204, 136, 49], [58]],
   [[49, 39, 49], [39]],
   [[49, 39, 204, 136, 49], [39]],
   [[49, 39, 49], [44]],
   [[49, 39, 204, 136, 49], [44]],
   [[49, 39, 49], [46, 226, 129, 160]],
   [[49, 39, 204, 136, 49], [46, 226, 129, 160]],
   [[49], [44], [13]],
   [[49], [44, 204, 136], [13]],
   [[49], [44], [10]],
   [[49], [44, 204, 136], [10]],
   [[49], [44], [11]],
   [[49], [44, 204, 136], [11]],
   [[49], [44, 204, 128]],
   [[49], [44, 204, 136, 204, 128]],
   [[49], [44, 194, 173]],
   [[49], [44, 204, 136, 194, 173]],
   [[49], [44], [227, 128, 177]],
   [[49], [44, 204, 136], [227, 128, 177]],
   [[49], [44], [226, 147, 130]],
   [[49], [44, 204, 136], [226, 147, 130]],
   [[49], [44], [65]],
   [[49], [44, 204, 136], [65]],
   [[49], [44], [58]],
   [[49], [44, 204, 136], [58]],
   [[49], [44], [44]],
   [[49], [44, 204, 136], [44]],
   [[49], [44], [46]],
   [[49], [44, 204, 136], [46]],
   [[49, 44, 48]],
   [[49, 44, 204, 136, 48]],
   [[49], [44], [95]],
   [[49], [44, 204, 136], [95]],
   [[49], [44], [240, 159, 135, 166]],
   [[49], [44, 204, 136], [240, 159, 135, 166]],
   [[49], [44], [215, 144]],
   [[49], [44, 204, 136], [215, 144]],
   [[49], [44], [34]],
   [[49], [44, 204, 136], [34]],
   [[49], [44], [39]],
   [[49], [44, 204, 136], [39]],
   [[49], [44, 226, 128, 141]],
   [[49], [44, 204, 136, 226, 128, 141]],
   [[49], [44], [194, 169]],
   [[49], [44, 204, 136], [194, 169]],
   [[49], [44], [32]],
   [[49], [44, 204, 136], [32]],
   [[49], [44], [0]],
   [[49], [44, 204, 136], [0]],
   [[49], [44], [97, 226, 129, 160]],
   [[49], [44, 204, 136], [97, 226, 129, 160]],
   [[49], [44], [97], [58]],
   [[49], [44, 204, 136], [97], [58]],
   [[49], [44], [97], [39]],
   [[49], [44, 204, 136], [97], [39]],
   [[49], [44], [97], [39, 226, 129, 160]],
   [[49], [44, 204, 136], [97], [39, 226, 129, 160]],
   [[49], [44], [97], [44]],
   [[49], [44, 204, 136], [97], [44]],
   [[49, 44, 49], [58]],
   [[49, 44, 204, 136, 49], [58]],
   [[49, 44, 49], [39]],
   [[49, 44, 204, 136, 49], [39]],
   [[49, 44, 49], [44]],
   [[49, 44, 204, 136, 49], [44]],
   [[49, 44, 49], [46, 226, 129, 160]],
   [[49, 44, 204, 136, 49], [46, 226, 129, 160]],
   [[49], [46, 226, 129, 160], [13]],
   [[49], [46, 226, 129, 160, 204, 136], [13]],
   [[49], [46, 226, 129, 160], [10]],
   [[49], [46, 226, 129, 160, 204, 136], [10]],
   [[49], [46, 226, 129, 160], [11]],
   [[49], [46, 226, 129, 160, 204, 136], [11]],
   [[49], [46, 226, 129, 160, 204, 128]],
   [[49], [46, 226, 129, 160, 204, 136, 204, 128]],
   [[49], [46, 226, 129, 160, 194, 173]],
   [[49], [46, 226, 129, 160, 204, 136, 194, 173]],
   [[49], [46, 226, 129, 160], [227, 128, 177]],
   [[49], [46, 226, 129, 160, 204, 136], [227, 128, 177]],
   [[49], [46, 226, 129, 160], [226, 147, 130]],
   [[49], [46, 226, 129, 160, 204, 136], [226, 147, 130]],
   [[49], [46, 226, 129, 160], [65]],
   [[49], [46, 226, 129, 160, 204, 136], [65]],
   [[49], [46, 226, 129, 160], [58]],
   [[49], [46, 226, 129, 160, 204, 136], [58]],
   [[49], [46, 226, 129, 160], [44]],
   [[49], [46, 226, 129, 160, 204, 136], [44]],
   [[49], [46, 226, 129, 160], [46]],
   [[49], [46, 226, 129, 160, 204, 136], [46]],
   [[49, 46, 226, 129, 160, 48]],
   [[49, 46, 226, 129, 160, 204, 136, 48]],
   [[49], [46, 226, 129, 160], [95]],
   [[49], [46, 226, 129, 160, 204, 136], [95]],
   [[49], [46, 226, 129, 160], [240, 159, 135, 166]],
   [[49], [46, 226, 129, 160, 204, 136], [240, 159, 135, 166]],
   [[49], [46, 226, 129, 160], [215, 144]],
   [[49], [46, 226, 129, 160, 204, 136], [215, 144]],
   [[49], [46, 226, 129, 160], [34]],
   [[49], [46, 226, 129, 160, 204, 136], [34]],
   [[49], [46, 226, 129, 160], [39]],
   [[49], [46, 226, 129, 160, 204, 136], [39]],
   [[49], [46, 226, 129, 160, 226, 128, 141]],
   [[49], [46, 226, 129, 160, 204, 136, 226, 128, 141]],
   [[49], [46, 226, 129, 160], [194, 169]],
   [[49], [46, 226, 129, 160, 204, 136], [194, 169]],
   [[49], [46, 226, 129, 160], [32]],
   [[49], [46, 226, 129, 160, 204, 136], [32]],
   [[49], [46, 226, 129, 160], [0]],
   [[49], [46, 226, 129, 160, 204, 136], [0]],
   [[49], [46, 226, 129, 160], [97, 226, 129, 160]],
   [[49], [46, 226, 129, 160, 204, 136], [97, 226, 129, 160]],
   [[49], [46, 226, 129, 160], [97], [58]],
   [[49], [46, 226, 129, 160, 204, 136], [97], [58]],
   [[49], [46, 226, 129, 160], [97], [39]],
   [[49], [46, 226, 129, 160, 204, 136], [97], [39]],
   [[49], [46, 226, 129, 160], [97], [39, 226, 129, 160]],
   [[49], [46, 226, 129, 160, 204, 136], [97], [39, 226, 129, 160]],
   [[49], [46, 226, 129, 160], [97], [44]],
   [[49], [46, 226, 129, 160, 204, 136], [97], [44]],
   [[49, 46, 226, 129, 160, 49], [58]],
   [[49, 46, 226, 129, 160, 204, 136, 49], [58]],
   [[49, 46, 226, 129, 160, 49], [39]],
   [[49, 46, 226, 129, 160, 204, 136, 49], [39]],
   [[49, 46, 226, 129, 160, 49], [44]],
   [[49, 46, 226, 129, 160, 204, 136, 49], [44]],
   [[49, 46, 226, 129, 160, 49], [46, 226, 129, 160]],
   [[49, 46, 226, 129, 160, 204, 136, 49], [46, 226, 129, 160]],
   [[13, 10], [97], [10], [204, 136]],
   [[97, 204, 136]],
   [[32, 226, 128, 141], [217, 134]],
   [[217, 134, 226, 128, 141], [32]],
   [[217, 177, 217, 132, 216, 177, 217, 142, 217, 145, 216, 173, 217, 144, 217, 138, 217, 133, 217, 144], [32], [219, 157, 217, 161]],
   [[220, 161, 220, 153, 220, 161, 220, 152, 220, 170, 220, 144], [32], [220, 143, 220, 157, 220, 151]],
   [[220, 172, 220, 143, 220, 171, 220, 146, 220, 152]],
   [[65, 65, 65]],
   [[65, 58, 65]],
   [[65], [58], [58], [65]],
   [[215, 144, 39]],
   [[215, 144, 34, 215, 144]],
   [[65, 48, 48, 65]],
   [[48, 44, 48]],
   [[48], [44], [44], [48]],
   [[227, 128, 177, 227, 128, 177]],
   [[65, 95, 48, 95, 227, 128, 177, 95]],
   [[65, 95, 95, 65]],
   [[240, 159, 135, 166, 240, 159, 135, 167], [240, 159, 135, 168], [98]],
   [[97], [240, 159, 135, 166, 240, 159, 135, 167], [240, 159, 135, 168], [98]],
   [[97], [240, 159, 135, 166, 240, 159, 135, 167, 226, 128, 141], [240, 159, 135, 168], [98]],
   [[97], [240, 159, 135, 166, 226, 128, 141, 240, 159, 135, 167], [240, 159, 135, 168], [98]],
   [[97], [240, 159, 135, 166, 240, 159, 135, 167], [240, 159, 135, 168, 240, 159, 135, 169], [98]],
   [[240, 159, 145, 182, 240, 159, 143, 191], [240, 159, 145, 182]],
   [[240, 159, 155, 145, 226, 128, 141, 240, 159, 155, 145]],
   [[97, 226, 128, 141, 240, 159, 155, 145]],
   [[226, 156, 129, 226, 128, 141], [226, 156, 129]],
   [[97, 226, 128, 141], [226, 156, 129]],
   [[240, 159, 145, 182, 240, 159, 143, 191, 204, 136, 226, 128, 141, 240, 159, 145, 182, 240, 159, 143, 191]],
   [[240, 159, 155, 145, 240, 159, 143, 191]],
   [[226, 128, 141, 240, 159, 155, 145, 240, 159, 143, 191]],
   [[226, 128, 141, 240, 159, 155, 145]],
   [[226, 128, 141, 240, 159, 155, 145]],
   [[240, 159, 155, 145], [240, 159, 155, 145]],
   [[97, 204, 136, 226, 128, 141, 204, 136, 98]],
   [[97], [32, 32], [98]],
   [[49], [58], [58], [49]],
   [[49, 95, 49], [58], [58], [49]],
   [[49, 95, 97], [58], [58], [49]],
   [[49], [58], [58], [97]],
   [[49, 95, 49], [58], [58], [97]],
   [[49, 95, 97], [58], [58], [97]],
   [[49], [58], [46], [49]],
   [[49, 95, 49], [58], [46], [49]],
   [[49, 95, 97], [58], [46], [49]],
   [[49], [58], [46], [97]],
   [[49, 95, 49], [58], [46], [97]],
   [[49, 95, 97], [58], [46], [97]],
   [[49], [58], [44], [49]],
   [[49, 95, 49], [58], [44], [49]],
   [[49, 95, 97], [58], [44], [49]],
   [[49], [58], [44], [97]],
   [[49, 95, 49], [58], [44], [97]],
   [[49, 95, 97], [58], [44], [97]],
   [[49], [46], [58], [49]],
   [[49, 95, 49], [46], [58], [49]],
   [[49, 95, 97], [46], [58], [49]],
   [[49], [46], [58], [97]],
   [[49, 95, 49], [46], [58], [97]],
   [[49, 95, 97], [46], [58], [97]],
   [[49], [46], [46], [49]],
   [[49, 95, 49], [46], [46], [49]],
   [[49, 95, 97], [46], [46], [49]],
   [[49], [46], [46], [97]],
   [[49, 95, 49], [46], [46], [97]],
   [[49, 95, 97], [46], [46], [97]],
   [[49], [46], [44], [49]],
   [[49, 95, 49], [46], [44], [49]],
   [[49, 95, 97], [46], [44], [49]],
   [[49], [46], [44], [97]],
   [[49, 95, 49], [46], [44], [97]],
   [[49, 95, 97], [46], [44], [97]],
   [[49], [44], [58], [49]],
   [[49, 95, 49], [44], [58], [49]],
   [[49, 95, 97], [44], [58], [49]],
   [[49], [44], [58], [97]],
   [[49, 95, 49], [44], [58], [97]],
   [[49, 95, 97], [44], [58], [97]],
   [[49], [44], [46], [49]],
   [[49, 95, 49], [44], [46], [49]],
   [[49, 95, 97], [44], [46], [49]],
   [[49], [44], [46], [97]],
   [[49, 95, 49], [44], [46], [97]],
   [[49, 95, 97], [44], [46], [97]],
   [[49], [44], [44], [49]],
   [[49, 95, 49], [44], [44], [49]],
   [[49, 95, 97], [44], [44], [49]],
   [[49], [44], [44], [97]],
   [[49, 95, 49], [44], [44], [97]],
   [[49, 95, 97], [44], [44], [97]],
   [[97], [58], [58], [49]],
   [[97, 95, 49], [58], [58], [49]],
   [[97, 95, 97], [58], [58], [49]],
   [[97], [58], [58], [97]],
   [[97, 95, 49], [58], [58], [97]],
   [[97, 95, 97], [58], [58], [97]],
   [[97], [58], [46], [49]],
   [[97, 95, 49], [58], [46], [49]],
   [[97, 95, 97], [58], [46], [49]],
   [[97], [58], [46], [97]],
   [[97, 95, 49], [58], [46], [97]],
   [[97, 95, 97], [58], [46], [97]],
   [[97], [58], [44], [49]],
   [[97, 95, 49], [58], [44], [49]],
   [[97, 95, 97], [58], [44], [49]],
   [[97], [58], [44], [97]],
   [[97, 95, 49], [58], [44], [97]],
   [[97, 95, 97], [58], [44], [97]],
   [[97], [46], [58], [49]],
   [[97, 95, 49], [46], [58], [49]],
   [[97, 95, 97], [46], [58], [49]],
   [[97], [46], [58], [97]],
   [[97, 95, 49], [46], [58], [97]],
   [[97, 95, 97], [46], [58], [97]],
   [[97], [46], [46], [49]],
   [[97, 95, 49], [46], [46], [49]],
   [[97, 95, 97], [46], [46], [49]],
   [[97], [46], [46], [97]],
   [[97, 95, 49], [46], [46], [97]],
   [[97, 95, 97], [46], [46], [97]],
   [[97], [46], [44], [49]],
   [[97, 95, 49], [46], [44], [49]],
   [[97, 95, 97], [46], [44], [49]],
   [[97], [46], [44], [97]],
   [[97, 95, 49], [46], [44], [97]],
   [[97, 95, 97], [46], [44], [97]],
   [[97], [44], [58], [49]],
   [[97, 95, 49], [44], [58], [49]],
   [[97, 95, 97], [44], [58], [49]],
   [[97], [44], [58], [97]],
   [[97, 95, 49], [44], [58], [97]],
   [[97, 95, 97], [44], [58], [97]],
   [[97], [44], [46], [49]],
   [[97, 95, 49], [44], [46], [49]],
   [[97, 95, 97], [44], [46], [49]],
   [[97], [44], [46], [97]],
   [[97, 95, 49], [44], [46], [97]],
   [[97, 95, 97], [44], [46], [97]],
   [[97], [44], [44], [49]],
   [[97, 95, 49], [44], [44], [49]],
   [[97, 95, 97], [44], [44], [49]],
   [[97], [44], [44], [97]],
   [[97, 95, 49], [44], [44], [97]],
   [[97, 95, 97], [44], [44], [97]]]

theorem wordsUnicode_pass : (wordsUnicode.all (tokensAre .words)) = true := by decide +kernel


end Uax29.Tests
