import Verif.Tests.Check
/-!
GENERATED by tools/gen_tests.py from the tests in /repo. Do not edit.
-/
set_option maxRecDepth 20000
namespace Uax29.Tests

/-- graphemes/unicode_test.go: the expected tokens. -/
def graphemesUnicode : List (List (List Nat)) :=
  [[[13], [13]],
   [[13], [204, 136], [13]],
   [[13, 10]],
   [[13], [204, 136], [10]],
   [[13], [0]],
   [[13], [204, 136], [0]],
   [[13], [224, 165, 141]],
   [[13], [204, 136, 224, 165, 141]],
   [[13], [204, 128]],
   [[13], [204, 136, 204, 128]],
   [[13], [226, 128, 140]],
   [[13], [204, 136, 226, 128, 140]],
   [[13], [226, 128, 141]],
   [[13], [204, 136, 226, 128, 141]],
   [[13], [240, 159, 135, 166]],
   [[13], [204, 136], [240, 159, 135, 166]],
   [[13], [219, 157]],
   [[13], [204, 136], [219, 157]],
   [[13], [224, 164, 131]],
   [[13], [204, 136, 224, 164, 131]],
   [[13], [225, 132, 128]],
   [[13], [204, 136], [225, 132, 128]],
   [[13], [225, 133, 160]],
   [[13], [204, 136], [225, 133, 160]],
   [[13], [225, 134, 168]],
   [[13], [204, 136], [225, 134, 168]],
   [[13], [234, 176, 128]],
   [[13], [204, 136], [234, 176, 128]],
   [[13], [234, 176, 129]],
   [[13], [204, 136], [234, 176, 129]],
   [[13], [224, 164, 149]],
   [[13], [204, 136], [224, 164, 149]],
   [[13], [194, 169]],
   [[13], [204, 136], [194, 169]],
   [[13], [32]],
   [[13], [204, 136], [32]],
   [[13], [205, 184]],
   [[13], [204, 136], [205, 184]],
   [[10], [13]],
   [[10], [204, 136], [13]],
   [[10], [10]],
   [[10], [204, 136], [10]],
   [[10], [0]],
   [[10], [204, 136], [0]],
   [[10], [224, 165, 141]],
   [[10], [204, 136, 224, 165, 141]],
   [[10], [204, 128]],
   [[10], [204, 136, 204, 128]],
   [[10], [226, 128, 140]],
   [[10], [204, 136, 226, 128, 140]],
   [[10], [226, 128, 141]],
   [[10], [204, 136, 226, 128, 141]],
   [[10], [240, 159, 135, 166]],
   [[10], [204, 136], [240, 159, 135, 166]],
   [[10], [219, 157]],
   [[10], [204, 136], [219, 157]],
   [[10], [224, 164, 131]],
   [[10], [204, 136, 224, 164, 131]],
   [[10], [225, 132, 128]],
   [[10], [204, 136], [225, 132, 128]],
   [[10], [225, 133, 160]],
   [[10], [204, 136], [225, 133, 160]],
   [[10], [225, 134, 168]],
   [[10], [204, 136], [225, 134, 168]],
   [[10], [234, 176, 128]],
   [[10], [204, 136], [234, 176, 128]],
   [[10], [234, 176, 129]],
   [[10], [204, 136], [234, 176, 129]],
   [[10], [224, 164, 149]],
   [[10], [204, 136], [224, 164, 149]],
   [[10], [194, 169]],
   [[10], [204, 136], [194, 169]],
   [[10], [32]],
   [[10], [204, 136], [32]],
   [[10], [205, 184]],
   [[10], [204, 136], [205, 184]],
   [[0], [13]],
   [[0], [204, 136], [13]],
   [[0], [10]],
   [[0], [204, 136], [10]],
   [[0], [0]],
   [[0], [204, 136], [0]],
   [[0], [224, 165, 141]],
   [[0], [204, 136, 224, 165, 141]],
   [[0], [204, 128]],
   [[0], [204, 136, 204, 128]],
   [[0], [226, 128, 140]],
   [[0], [204, 136, 226, 128, 140]],
   [[0], [226, 128, 141]],
   [[0], [204, 136, 226, 128, 141]],
   [[0], [240, 159, 135, 166]],
   [[0], [204, 136], [240, 159, 135, 166]],
   [[0], [219, 157]],
   [[0], [204, 136], [219, 157]],
   [[0], [224, 164, 131]],
   [[0], [204, 136, 224, 164, 131]],
   [[0], [225, 132, 128]],
   [[0], [204, 136], [225, 132, 128]],
   [[0], [225, 133, 160]],
   [[0], [204, 136], [225, 133, 160]],
   [[0], [225, 134, 168]],
   [[0], [204, 136], [225, 134, 168]],
   [[0], [234, 176, 128]],
   [[0], [204, 136], [234, 176, 128]],
   [[0], [234, 176, 129]],
   [[0], [204, 136], [234, 176, 129]],
   [[0], [224, 164, 149]],
   [[0], [204, 136], [224, 164, 149]],
   [[0], [194, 169]],
   [[0], [204, 136], [194, 169]],
   [[0], [32]],
   [[0], [204, 136], [32]],
   [[0], [205, 184]],
   [[0], [204, 136], [205, 184]],
   [[224, 165, 141], [13]],
   [[224, 165, 141, 204, 136], [13]],
   [[224, 165, 141], [10]],
   [[224, 165, 141, 204, 136], [10]],
   [[224, 165, 141], [0]],
   [[224, 165, 141, 204, 136], [0]],
   [[224, 165, 141, 224, 165, 141]],
   [[224, 165, 141, 204, 136, 224, 165, 141]],
   [[224, 165, 141, 204, 128]],
   [[224, 165, 141, 204, 136, 204, 128]],
   [[224, 165, 141, 226, 128, 140]],
   [[224, 165, 141, 204, 136, 226, 128, 140]],
   [[224, 165, 141, 226, 128, 141]],
   [[224, 165, 141, 204, 136, 226, 128, 141]],
   [[224, 165, 141], [240, 159, 135, 166]],
   [[224, 165, 141, 204, 136], [240, 159, 135, 166]],
   [[224, 165, 141], [219, 157]],
   [[224, 165, 141, 204, 136], [219, 157]],
   [[224, 165, 141, 224, 164, 131]],
   [[224, 165, 141, 204, 136, 224, 164, 131]],
   [[224, 165, 141], [225, 132, 128]],
   [[224, 165, 141, 204, 136], [225, 132, 128]],
   [[224, 165, 141], [225, 133, 160]],
   [[224, 165, 141, 204, 136], [225, 133, 160]],
   [[224, 165, 141], [225, 134, 168]],
   [[224, 165, 141, 204, 136], [225, 134, 168]],
   [[224, 165, 141], [234, 176, 128]],
   [[224, 165, 141, 204, 136], [234, 176, 128]],
   [[224, 165, 141], [234, 176, 129]],
   [[224, 165, 141, 204, 136], [234, 176, 129]],
   [[224, 165, 141], [224, 164, 149]],
   [[224, 165, 141, 204, 136], [224, 164, 149]],
   [[224, 165, 141], [194, 169]],
   [[224, 165, 141, 204, 136], [194, 169]],
   [[224, 165, 141], [32]],
   [[224, 165, 141, 204, 136], [32]],
   [[224, 165, 141], [205, 184]],
   [[224, 165, 141, 204, 136], [205, 184]],
   [[204, 128], [13]],
   [[204, 128, 204, 136], [13]],
   [[204, 128], [10]],
   [[204, 128, 204, 136], [10]],
   [[204, 128], [0]],
   [[204, 128, 204, 136], [0]],
   [[204, 128, 224, 165, 141]],
   [[204, 128, 204, 136, 224, 165, 141]],
   [[204, 128, 204, 128]],
   [[204, 128, 204, 136, 204, 128]],
   [[204, 128, 226, 128, 140]],
   [[204, 128, 204, 136, 226, 128, 140]],
   [[204, 128, 226, 128, 141]],
   [[204, 128, 204, 136, 226, 128, 141]],
   [[204, 128], [240, 159, 135, 166]],
   [[204, 128, 204, 136], [240, 159, 135, 166]],
   [[204, 128], [219, 157]],
   [[204, 128, 204, 136], [219, 157]],
   [[204, 128, 224, 164, 131]],
   [[204, 128, 204, 136, 224, 164, 131]],
   [[204, 128], [225, 132, 128]],
   [[204, 128, 204, 136], [225, 132, 128]],
   [[204, 128], [225, 133, 160]],
   [[204, 128, 204, 136], [225, 133, 160]],
   [[204, 128], [225, 134, 168]],
   [[204, 128, 204, 136], [225, 134, 168]],
   [[204, 128], [234, 176, 128]],
   [[204, 128, 204, 136], [234, 176, 128]],
   [[204, 128], [234, 176, 129]],
   [[204, 128, 204, 136], [234, 176, 129]],
   [[204, 128], [224, 164, 149]],
   [[204, 128, 204, 136], [224, 164, 149]],
   [[204, 128], [194, 169]],
   [[204, 128, 204, 136], [194, 169]],
   [[204, 128], [32]],
   [[204, 128, 204, 136], [32]],
   [[204, 128], [205, 184]],
   [[204, 128, 204, 136], [205, 184]],
   [[226, 128, 140], [13]],
   [[226, 128, 140, 204, 136], [13]],
   [[226, 128, 140], [10]],
   [[226, 128, 140, 204, 136], [10]],
   [[226, 128, 140], [0]],
   [[226, 128, 140, 204, 136], [0]],
   [[226, 128, 140, 224, 165, 141]],
   [[226, 128, 140, 204, 136, 224, 165, 141]],
   [[226, 128, 140, 204, 128]],
   [[226, 128, 140, 204, 136, 204, 128]],
   [[226, 128, 140, 226, 128, 140]],
   [[226, 128, 140, 204, 136, 226, 128, 140]],
   [[226, 128, 140, 226, 128, 141]],
   [[226, 128, 140, 204, 136, 226, 128, 141]],
   [[226, 128, 140], [240, 159, 135, 166]],
   [[226, 128, 140, 204, 136], [240, 159, 135, 166]],
   [[226, 128, 140], [219, 157]],
   [[226, 128, 140, 204, 136], [219, 157]],
   [[226, 128, 140, 224, 164, 131]],
   [[226, 128, 140, 204, 136, 224, 164, 131]],
   [[226, 128, 140], [225, 132, 128]],
   [[226, 128, 140, 204, 136], [225, 132, 128]],
   [[226, 128, 140], [225, 133, 160]],
   [[226, 128, 140, 204, 136], [225, 133, 160]],
   [[226, 128, 140], [225, 134, 168]],
   [[226, 128, 140, 204, 136], [225, 134, 168]],
   [[226, 128, 140], [234, 176, 128]],
   [[226, 128, 140, 204, 136], [234, 176, 128]],
   [[226, 128, 140], [234, 176, 129]],
   [[226, 128, 140, 204, 136], [234, 176, 129]],
   [[226, 128, 140], [224, 164, 149]],
   [[226, 128, 140, 204, 136], [224, 164, 149]],
   [[226, 128, 140], [194, 169]],
   [[226, 128, 140, 204, 136], [194, 169]],
   [[226, 128, 140], [32]],
   [[226, 128, 140, 204, 136], [32]],
   [[226, 128, 140], [205, 184]],
   [[226, 128, 140, 204, 136], [205, 184]],
   [[226, 128, 141], [13]],
   [[226, 128, 141, 204, 136], [13]],
   [[226, 128, 141], [10]],
   [[226, 128, 141, 204, 136], [10]],
   [[226, 128, 141], [0]],
   [[226, 128, 141, 204, 136], [0]],
   [[226, 128, 141, 224, 165, 141]],
   [[226, 128, 141, 204, 136, 224, 165, 141]],
   [[226, 128, 141, 204, 128]],
   [[226, 128, 141, 204, 136, 204, 128]],
   [[226, 128, 141, 226, 128, 140]],
   [[226, 128, 141, 204, 136, 226, 128, 140]],
   [[226, 128, 141, 226, 128, 141]],
   [[226, 128, 141, 204, 136, 226, 128, 141]],
   [[226, 128, 141], [240, 159, 135, 166]],
   [[226, 128, 141, 204, 136], [240, 159, 135, 166]],
   [[226, 128, 141], [219, 157]],
   [[226, 128, 141, 204, 136], [219, 157]],
   [[226, 128, 141, 224, 164, 131]],
   [[226, 128, 141, 204, 136, 224, 164, 131]],
   [[226, 128, 141], [225, 132, 128]],
   [[226, 128, 141, 204, 136], [225, 132, 128]],
   [[226, 128, 141], [225, 133, 160]],
   [[226, 128, 141, 204, 136], [225, 133, 160]],
   [[226, 128, 141], [225, 134, 168]],
   [[226, 128, 141, 204, 136], [225, 134, 168]],
   [[226, 128, 141], [234, 176, 128]],
   [[226, 128, 141, 204, 136], [234, 176, 128]],
   [[226, 128, 141], [234, 176, 129]],
   [[226, 128, 141, 204, 136], [234, 176, 129]],
   [[226, 128, 141], [224, 164, 149]],
   [[226, 128, 141, 204, 136], [224, 164, 149]],
   [[226, 128, 141], [194, 169]],
   [[226, 128, 141, 204, 136], [194, 169]],
   [[226, 128, 141], [32]],
   [[226, 128, 141, 204, 136], [32]],
   [[226, 128, 141], [205, 184]],
   [[226, 128, 141, 204, 136], [205, 184]],
   [[240, 159, 135, 166], [13]],
   [[240, 159, 135, 166, 204, 136], [13]],
   [[240, 159, 135, 166], [10]],
   [[240, 159, 135, 166, 204, 136], [10]],
   [[240, 159, 135, 166], [0]],
   [[240, 159, 135, 166, 204, 136], [0]],
   [[240, 159, 135, 166, 224, 165, 141]],
   [[240, 159, 135, 166, 204, 136, 224, 165, 141]],
   [[240, 159, 135, 166, 204, 128]],
   [[240, 159, 135, 166, 204, 136, 204, 128]],
   [[240, 159, 135, 166, 226, 128, 140]],
   [[240, 159, 135, 166, 204, 136, 226, 128, 140]],
   [[240, 159, 135, 166, 226, 128, 141]],
   [[240, 159, 135, 166, 204, 136, 226, 128, 141]],
   [[240, 159, 135, 166, 240, 159, 135, 166]],
   [[240, 159, 135, 166, 204, 136], [240, 159, 135, 166]],
   [[240, 159, 135, 166], [219, 157]],
   [[240, 159, 135, 166, 204, 136], [219, 157]],
   [[240, 159, 135, 166, 224, 164, 131]],
   [[240, 159, 135, 166, 204, 136, 224, 164, 131]],
   [[240, 159, 135, 166], [225, 132, 128]],
   [[240, 159, 135, 166, 204, 136], [225, 132, 128]],
   [[240, 159, 135, 166], [225, 133, 160]],
   [[240, 159, 135, 166, 204, 136], [225, 133, 160]],
   [[240, 159, 135, 166], [225, 134, 168]],
   [[240, 159, 135, 166, 204, 136], [225, 134, 168]],
   [[240, 159, 135, 166], [234, 176, 128]],
   [[240, 159, 135, 166, 204, 136], [234, 176, 128]],
   [[240, 159, 135, 166], [234, 176, 129]],
   [[240, 159, 135, 166, 204, 136], [234, 176, 129]],
   [[240, 159, 135, 166], [224, 164, 149]],
   [[240, 159, 135, 166, 204, 136], [224, 164, 149]],
   [[240, 159, 135, 166], [194, 169]],
   [[240, 159, 135, 166, 204, 136], [194, 169]],
   [[240, 159, 135, 166], [32]],
   [[240, 159, 135, 166, 204, 136], [32]],
   [[240, 159, 135, 166], [205, 184]],
   [[240, 159, 135, 166, 204, 136], [205, 184]],
   [[219, 157], [13]],
   [[219, 157, 204, 136], [13]],
   [[219, 157], [10]],
   [[219, 157, 204, 136], [10]],
   [[219, 157], [0]],
   [[219, 157, 204, 136], [0]],
   [[219, 157, 224, 165, 141]],
   [[219, 157, 204, 136, 224, 165, 141]],
   [[219, 157, 204, 128]],
   [[219, 157, 204, 136, 204, 128]],
   [[219, 157, 226, 128, 140]],
   [[219, 157, 204, 136, 226, 128, 140]],
   [[219, 157, 226, 128, 141]],
   [[219, 157, 204, 136, 226, 128, 141]],
   [[219, 157, 240, 159, 135, 166]],
   [[219, 157, 204, 136], [240, 159, 135, 166]],
   [[219, 157, 219, 157]],
   [[219, 157, 204, 136], [219, 157]],
   [[219, 157, 224, 164, 131]],
   [[219, 157, 204, 136, 224, 164, 131]],
   [[219, 157, 225, 132, 128]],
   [[219, 157, 204, 136], [225, 132, 128]],
   [[219, 157, 225, 133, 160]],
   [[219, 157, 204, 136], [225, 133, 160]],
   [[219, 157, 225, 134, 168]],
   [[219, 157, 204, 136], [225, 134, 168]],
   [[219, 157, 234, 176, 128]],
   [[219, 157, 204, 136], [234, 176, 128]],
   [[219, 157, 234, 176, 129]],
   [[219, 157, 204, 136], [234, 176, 129]],
   [[219, 157, 224, 164, 149]],
   [[219, 157, 204, 136], [224, 164, 149]],
   [[219, 157, 194, 169]],
   [[219, 157, 204, 136], [194, 169]],
   [[219, 157, 32]],
   [[219, 157, 204, 136], [32]],
   [[219, 157, 205, 184]],
   [[219, 157, 204, 136], [205, 184]],
   [[224, 164, 131], [13]],
   [[224, 164, 131, 204, 136], [13]],
   [[224, 164, 131], [10]],
   [[224, 164, 131, 204, 136], [10]],
   [[224, 164, 131], [0]],
   [[224, 164, 131, 204, 136], [0]],
   [[224, 164, 131, 224, 165, 141]],
   [[224, 164, 131, 204, 136, 224, 165, 141]],
   [[224, 164, 131, 204, 128]],
   [[224, 164, 131, 204, 136, 204, 128]],
   [[224, 164, 131, 226, 128, 140]],
   [[224, 164, 131, 204, 136, 226, 128, 140]],
   [[224, 164, 131, 226, 128, 141]],
   [[224, 164, 131, 204, 136, 226, 128, 141]],
   [[224, 164, 131], [240, 159, 135, 166]],
   [[224, 164, 131, 204, 136], [240, 159, 135, 166]],
   [[224, 164, 131], [219, 157]],
   [[224, 164, 131, 204, 136], [219, 157]],
   [[224, 164, 131, 224, 164, 131]],
   [[224, 164, 131, 204, 136, 224, 164, 131]],
   [[224, 164, 131], [225, 132, 128]],
   [[224, 164, 131, 204, 136], [225, 132, 128]],
   [[224, 164, 131], [225, 133, 160]],
   [[224, 164, 131, 204, 136], [225, 133, 160]],
   [[224, 164, 131], [225, 134, 168]],
   [[224, 164, 131, 204, 136], [225, 134, 168]],
   [[224, 164, 131], [234, 176, 128]],
   [[224, 164, 131, 204, 136], [234, 176, 128]],
   [[224, 164, 131], [234, 176, 129]],
   [[224, 164, 131, 204, 136], [234, 176, 129]],
   [[224, 164, 131], [224, 164, 149]],
   [[224, 164, 131, 204, 136], [224, 164, 149]],
   [[224, 164, 131], [194, 169]],
   [[224, 164, 131, 204, 136], [194, 169]],
   [[224, 164, 131], [32]],
   [[224, 164, 131, 204, 136], [32]],
   [[224, 164, 131], [205, 184]],
   [[224, 164, 131, 204, 136], [205, 184]],
   [[225, 132, 128], [13]],
   [[225, 132, 128, 204, 136], [13]],
   [[225, 132, 128], [10]],
   [[225, 132, 128, 204, 136], [10]],
   [[225, 132, 128], [0]],
   [[225, 132, 128, 204, 136], [0]],
   [[225, 132, 128, 224, 165, 141]],
   [[225, 132, 128, 204, 136, 224, 165, 141]],
   [[225, 132, 128, 204, 128]],
   [[225, 132, 128, 204, 136, 204, 128]],
   [[225, 132, 128, 226, 128, 140]],
   [[225, 132, 128, 204, 136, 226, 128, 140]],
   [[225, 132, 128, 226, 128, 141]],
   [[225, 132, 128, 204, 136, 226, 128, 141]],
   [[225, 132, 128], [240, 159, 135, 166]],
   [[225, 132, 128, 204, 136], [240, 159, 135, 166]],
   [[225, 132, 128], [219, 157]],
   [[225, 132, 128, 204, 136], [219, 157]],
   [[225, 132, 128, 224, 164, 131]],
   [[225, 132, 128, 204, 136, 224, 164, 131]],
   [[225, 132, 128, 225, 132, 128]],
   [[225, 132, 128, 204, 136], [225, 132, 128]],
   [[225, 132, 128, 225, 133, 160]],
   [[225, 132, 128, 204, 136], [225, 133, 160]],
   [[225, 132, 128], [225, 134, 168]],
   [[225, 132, 128, 204, 136], [225, 134, 168]],
   [[225, 132, 128, 234, 176, 128]],
   [[225, 132, 128, 204, 136], [234, 176, 128]],
   [[225, 132, 128, 234, 176, 129]],
   [[225, 132, 128, 204, 136], [234, 176, 129]],
   [[225, 132, 128], [224, 164, 149]],
   [[225, 132, 128, 204, 136], [224, 164, 149]],
   [[225, 132, 128], [194, 169]],
   [[225, 132, 128, 204, 136], [194, 169]],
   [[225, 132, 128], [32]],
   [[225, 132, 128, 204, 136], [32]],
   [[225, 132, 128], [205, 184]],
   [[225, 132, 128, 204, 136], [205, 184]],
   [[225, 133, 160], [13]],
   [[225, 133, 160, 204, 136], [13]],
   [[225, 133, 160], [10]],
   [[225, 133, 160, 204, 136], [10]],
   [[225, 133, 160], [0]],
   [[225, 133, 160, 204, 136], [0]],
   [[225, 133, 160, 224, 165, 141]],
   [[225, 133, 160, 204, 136, 224, 165, 141]],
   [[225, 133, 160, 204, 128]],
   [[225, 133, 160, 204, 136, 204, 128]],
   [[225, 133, 160, 226, 128, 140]],
   [[225, 133, 160, 204, 136, 226, 128, 140]],
   [[225, 133, 160, 226, 128, 141]],
   [[225, 133, 160, 204, 136, 226, 128, 141]],
   [[225, 133, 160], [240, 159, 135, 166]],
   [[225, 133, 160, 204, 136], [240, 159, 135, 166]],
   [[225, 133, 160], [219, 157]],
   [[225, 133, 160, 204, 136], [219, 157]],
   [[225, 133, 160, 224, 164, 131]],
   [[225, 133, 160, 204, 136, 224, 164, 131]],
   [[225, 133, 160], [225, 132, 128]],
   [[225, 133, 160, 204, 136], [225, 132, 128]],
   [[225, 133, 160, 225, 133, 160]],
   [[225, 133, 160, 204, 136], [225, 133, 160]],
   [[225, 133, 160, 225, 134, 168]],
   [[225, 133, 160, 204, 136], [225, 134, 168]],
   [[225, 133, 160], [234, 176, 128]],
   [[225, 133, 160, 204, 136], [234, 176, 128]],
   [[225, 133, 160], [234, 176, 129]],
   [[225, 133, 160, 204, 136], [234, 176, 129]],
   [[225, 133, 160], [224, 164, 149]],
   [[225, 133, 160, 204, 136], [224, 164, 149]],
   [[225, 133, 160], [194, 169]],
   [[225, 133, 160, 204, 136], [194, 169]],
   [[225, 133, 160], [32]],
   [[225, 133, 160, 204, 136], [32]],
   [[225, 133, 160], [205, 184]],
   [[225, 133, 160, 204, 136], [205, 184]],
   [[225, 134, 168], [13]],
   [[225, 134, 168, 204, 136], [13]],
   [[225, 134, 168], [10]],
   [[225, 134, 168, 204, 136], [10]],
   [[225, 134, 168], [0]],
   [[225, 134, 168, 204, 136], [0]],
   [[225, 134, 168, 224, 165, 141]],
   [[225, 134, 168, 204, 136, 224, 165, 141]],
   [[225, 134, 168, 204, 128]],
   [[225, 134, 168, 204, 136, 204, 128]],
   [[225, 134, 168, 226, 128, 140]],
   [[225, 134, 168, 204, 136, 226, 128, 140]],
   [[225, 134, 168, 226, 128, 141]],
   [[225, 134, 168, 204, 136, 226, 128, 141]],
   [[225, 134, 168], [240, 159, 135, 166]],
   [[225, 134, 168, 204, 136], [240, 159, 135, 166]],
   [[225, 134, 168], [219, 157]],
   [[225, 134, 168, 204, 136], [219, 157]],
   [[225, 134, 168, 224, 164, 131]],
   [[225, 134, 168, 204, 136, 224, 164, 131]],
   [[225, 134, 168], [225, 132, 128]],
   [[225, 134, 168, 204, 136], [225, 132, 128]],
   [[225, 134, 168], [225, 133, 160]],
   [[225, 134, 168, 204, 136], [225, 133, 160]],
   [[225, 134, 168, 225, 134, 168]],
   [[225, 134, 168, 204, 136], [225, 134, 168]],
   [[225, 134, 168], [234, 176, 128]],
   [[225, 134, 168, 204, 136], [234, 176, 128]],
   [[225, 134, 168], [234, 176, 129]],
   [[225, 134, 168, 204, 136], [234, 176, 129]],
   [[225, 134, 168], [224, 164, 149]],
   [[225, 134, 168, 204, 136], [224, 164, 149]],
   [[225, 134, 168], [194, 169]],
   [[225, 134, 168, 204, 136], [194, 169]],
   [[225, 134, 168], [32]],
   [[225, 134, 168, 204, 136], [32]],
   [[225, 134, 168], [205, 184]],
   [[225, 134, 168, 204, 136], [205, 184]],
   [[234, 176, 128], [13]],
   [[234, 176, 128, 204, 136], [13]],
   [[234, 176, 128], [10]],
   [[234, 176, 128, 204, 136], [10]],
   [[234, 176, 128], [0]],
   [[234, 176, 128, 204, 136], [0]],
   [[234, 176, 128, 224, 165, 141]],
   [[234, 176, 128, 204, 136, 224, 165, 141]],
   [[234, 176, 128, 204, 128]],
   [[234, 176, 128, 204, 136, 204, 128]],
   [[234, 176, 128, 226, 128, 140]],
   [[234, 176, 128, 204, 136, 226, 128, 140]],
   [[234, 176, 128, 226, 128, 141]],
   [[234, 176, 128, 204, 136, 226, 128, 141]],
   [[234, 176, 128], [240, 159, 135, 166]],
   [[234, 176, 128, 204, 136], [240, 159, 135, 166]],
   [[234, 176, 128], [219, 157]],
   [[234, 176, 128, 204, 136], [219, 157]],
   [[234, 176, 128, 224, 164, 131]],
   [[234, 176, 128, 204, 136, 224, 164, 131]],
   [[234, 176, 128], [225, 132, 128]],
   [[234, 176, 128, 204, 136], [225, 132, 128]],
   [[234, 176, 128, 225, 133, 160]],
   [[234, 176, 128, 204, 136], [225, 133, 160]],
   [[234, 176, 128, 225, 134, 168]],
   [[234, 176, 128, 204, 136], [225, 134, 168]],
   [[234, 176, 128], [234, 176, 128]],
   [[234, 176, 128, 204, 136], [234, 176, 128]],
   [[234, 176, 128], [234, 176, 129]],
   [[234, 176, 128, 204, 136], [234, 176, 129]],
   [[234, 176, 128], [224, 164, 149]],
   [[234, 176, 128, 204, 136], [224, 164, 149]],
   [[234, 176, 128], [194, 169]],
   [[234, 176, 128, 204, 136], [194, 169]],
   [[234, 176, 128], [32]],
   [[234, 176, 128, 204, 136], [32]],
   [[234, 176, 128], [205, 184]],
   [[234, 176, 128, 204, 136], [205, 184]],
   [[234, 176, 129], [13]],
   [[234, 176, 129, 204, 136], [13]],
   [[234, 176, 129], [10]],
   [[234, 176, 129, 204, 136], [10]],
   [[234, 176, 129], [0]],
   [[234, 176, 129, 204, 136], [0]],
   [[234, 176, 129, 224, 165, 141]],
   [[234, 176, 129, 204, 136, 224, 165, 141]],
   [[234, 176, 129, 204, 128]],
   [[234, 176, 129, 204, 136, 204, 128]],
   [[234, 176, 129, 226, 128, 140]],
   [[234, 176, 129, 204, 136, 226, 128, 140]],
   [[234, 176, 129, 226, 128, 141]],
   [[234, 176, 129, 204, 136, 226, 128, 141]],
   [[234, 176, 129], [240, 159, 135, 166]],
   [[234, 176, 129, 204, 136], [240, 159, 135, 166]],
   [[234, 176, 129], [219, 157]],
   [[234, 176, 129, 204, 136], [219, 157]],
   [[234, 176, 129, 224, 164, 131]],
   [[234, 176, 129, 204, 136, 224, 164, 131]],
   [[234, 176, 129], [225, 132, 128]],
   [[234, 176, 129, 204, 136], [225, 132, 128]],
   [[234, 176, 129], [225, 133, 160]],
   [[234, 176, 129, 204, 136], [225, 133, 160]],
   [[234, 176, 129, 225, 134, 168]],
   [[234, 176, 129, 204, 136], [225, 134, 168]],
   [[234, 176, 129], [234, 176, 128]],
   [[234, 176, 129, 204, 136], [234, 176, 128]],
   [[234, 176, 129], [234, 176, 129]],
   [[234, 176, 129, 204, 136], [234, 176, 129]],
   [[234, 176, 129], [224, 164, 149]],
   [[234, 176, 129, 204, 136], [224, 164, 149]],
   [[234, 176, 129], [194, 169]],
   [[234, 176, 129, 204, 136], [194, 169]],
   [[234, 176, 129], [32]],
   [[234, 176, 129, 204, 136], [32]],
   [[234, 176, 129], [205, 184]],
   [[234, 176, 129, 204, 136], [205, 184]],
   [[224, 164, 149], [13]],
   [[224, 164, 149, 204, 136], [13]],
   [[224, 164, 149], [10]],
   [[224, 164, 149, 204, 136], [10]],
   [[224, 164, 149], [0]],
   [[224, 164, 149, 204, 136], [0]],
   [[224, 164, 149, 224, 165, 141]],
   [[224, 164, 149, 204, 136, 224, 165, 141]],
   [[224, 164, 149, 204, 128]],
   [[224, 164, 149, 204, 136, 204, 128]],
   [[224, 164, 149, 226, 128, 140]],
   [[224, 164, 149, 204, 136, 226, 128, 140]],
   [[224, 164, 149, 226, 128, 141]],
   [[224, 164, 149, 204, 136, 226, 128, 141]],
   [[224, 164, 149], [240, 159, 135, 166]],
   [[224, 164, 149, 204, 136], [240, 159, 135, 166]],
   [[224, 164, 149], [219, 157]],
   [[224, 164, 149, 204, 136], [219, 157]],
   [[224, 164, 149, 224, 164, 131]],
   [[224, 164, 149, 204, 136, 224, 164, 131]],
   [[224, 164, 149], [225, 132, 128]],
   [[224, 164, 149, 204, 136], [225, 132, 128]],
   [[224, 164, 149], [225, 133, 160]],
   [[224, 164, 149, 204, 136], [225, 133, 160]],
   [[224, 164, 149], [225, 134, 168]],
   [[224, 164, 149, 204, 136], [225, 134, 168]],
   [[224, 164, 149], [234, 176, 128]],
   [[224, 164, 149, 204, 136], [234, 176, 128]],
   [[224, 164, 149], [234, 176, 129]],
   [[224, 164, 149, 204, 136], [234, 176, 129]],
   [[224, 164, 149], [224, 164, 149]],
   [[224, 164, 149, 204, 136], [224, 164, 149]],
   [[224, 164, 149], [194, 169]],
   [[224, 164, 149, 204, 136], [194, 169]],
   [[224, 164, 149], [32]],
   [[224, 164, 149, 204, 136], [32]],
   [[224, 164, 149], [205, 184]],
   [[224, 164, 149, 204, 136], [205, 184]],
   [[194, 169], [13]],
   [[194, 169, 204, 136], [13]],
   [[194, 169], [10]],
   [[194, 169, 204, 136], [10]],
   [[194, 169], [0]],
   [[194, 169, 204, 136], [0]],
   [[194, 169, 224, 165, 141]],
   [[194, 169, 204, 136, 224, 165, 141]],
   [[194, 169, 204, 128]],
   [[194, 169, 204, 136, 204, 128]],
   [[194, 169, 226, 128, 140]],
   [[194, 169, 204, 136, 226, 128, 140]],
   [[194, 169, 226, 128, 141]],
   [[194, 169, 204, 136, 226, 128, 141]],
   [[194, 169], [240, 159, 135, 166]],
   [[194, 169, 204, 136], [240, 159, 135, 166]],
   [[194, 169], [219, 157]],
   [[194, 169, 204, 136], [219, 157]],
   [[194, 169, 224, 164, 131]],
   [[194, 169, 204, 136, 224, 164, 131]],
   [[194, 169], [225, 132, 128]],
   [[194, 169, 204, 136], [225, 132, 128]],
   [[194, 169], [225, 133, 160]],
   [[194, 169, 204, 136], [225, 133, 160]],
   [[194, 169], [225, 134, 168]],
   [[194, 169, 204, 136], [225, 134, 168]],
   [[194, 169], [234, 176, 128]],
   [[194, 169, 204, 136], [234, 176, 128]],
   [[194, 169], [234, 176, 129]],
   [[194, 169, 204, 136], [234, 176, 129]],
   [[194, 169], [224, 164, 149]],
   [[194, 169, 204, 136], [224, 164, 149]],
   [[194, 169], [194, 169]],
   [[194, 169, 204, 136], [194, 169]],
   [[194, 169], [32]],
   [[194, 169, 204, 136], [32]],
   [[194, 169], [205, 184]],
   [[194, 169, 204, 136], [205, 184]],
   [[32], [13]],
   [[32, 204, 136], [13]],
   [[32], [10]],
   [[32, 204, 136], [10]],
   [[32], [0]],
   [[32, 204, 136], [0]],
   [[32, 224, 165, 141]],
   [[32, 204, 136, 224, 165, 141]],
   [[32, 204, 128]],
   [[32, 204, 136, 204, 128]],
   [[32, 226, 128, 140]],
   [[32, 204, 136, 226, 128, 140]],
   [[32, 226, 128, 141]],
   [[32, 204, 136, 226, 128, 141]],
   [[32], [240, 159, 135, 166]],
   [[32, 204, 136], [240, 159, 135, 166]],
   [[32], [219, 157]],
   [[32, 204, 136], [219, 157]],
   [[32, 224, 164, 131]],
   [[32, 204, 136, 224, 164, 131]],
   [[32], [225, 132, 128]],
   [[32, 204, 136], [225, 132, 128]],
   [[32], [225, 133, 160]],
   [[32, 204, 136], [225, 133, 160]],
   [[32], [225, 134, 168]],
   [[32, 204, 136], [225, 134, 168]],
   [[32], [234, 176, 128]],
   [[32, 204, 136], [234, 176, 128]],
   [[32], [234, 176, 129]],
   [[32, 204, 136], [234, 176, 129]],
   [[32], [224, 164, 149]],
   [[32, 204, 136], [224, 164, 149]],
   [[32], [194, 169]],
   [[32, 204, 136], [194, 169]],
   [[32], [32]],
   [[32, 204, 136], [32]],
   [[32], [205, 184]],
   [[32, 204, 136], [205, 184]],
   [[205, 184], [13]],
   [[205, 184, 204, 136], [13]],
   [[205, 184], [10]],
   [[205, 184, 204, 136], [10]],
   [[205, 184], [0]],
   [[205, 184, 204, 136], [0]],
   [[205, 184, 224, 165, 141]],
   [[205, 184, 204, 136, 224, 165, 141]],
   [[205, 184, 204, 128]],
   [[205, 184, 204, 136, 204, 128]],
   [[205, 184, 226, 128, 140]],
   [[205, 184, 204, 136, 226, 128, 140]],
   [[205, 184, 226, 128, 141]],
   [[205, 184, 204, 136, 226, 128, 141]],
   [[205, 184], [240, 159, 135, 166]],
   [[205, 184, 204, 136], [240, 159, 135, 166]],
   [[205, 184], [219, 157]],
   [[205, 184, 204, 136], [219, 157]],
   [[205, 184, 224, 164, 131]],
   [[205, 184, 204, 136, 224, 164, 131]],
   [[205, 184], [225, 132, 128]],
   [[205, 184, 204, 136], [225, 132, 128]],
   [[205, 184], [225, 133, 160]],
   [[205, 184, 204, 136], [225, 133, 160]],
   [[205, 184], [225, 134, 168]],
   [[205, 184, 204, 136], [225, 134, 168]],
   [[205, 184], [234, 176, 128]],
   [[205, 184, 204, 136], [234, 176, 128]],
   [[205, 184], [234, 176, 129]],
   [[205, 184, 204, 136], [234, 176, 129]],
   [[205, 184], [224, 164, 149]],
   [[205, 184, 204, 136], [224, 164, 149]],
   [[205, 184], [194, 169]],
   [[205, 184, 204, 136], [194, 169]],
   [[205, 184], [32]],
   [[205, 184, 204, 136], [32]],
   [[205, 184], [205, 184]],
   [[205, 184, 204, 136], [205, 184]],
   [[13, 10], [97], [10], [204, 136]],
   [[97, 204, 136]],
   [[32, 226, 128, 141], [217, 134]],
   [[217, 134, 226, 128, 141], [32]],
   [[225, 132, 128, 225, 132, 128]],
   [[234, 176, 128, 225, 134, 168], [225, 132, 128]],
   [[234, 176, 129, 225, 134, 168], [225, 132, 128]],
   [[240, 159, 135, 166, 240, 159, 135, 167], [240, 159, 135, 168], [98]],
   [[97], [240, 159, 135, 166, 240, 159, 135, 167], [240, 159, 135, 168], [98]],
   [[97], [240, 159, 135, 166, 240, 159, 135, 167, 226, 128, 141], [240, 159, 135, 168], [98]],
   [[97], [240, 159, 135, 166, 226, 128, 141], [240, 159, 135, 167, 240, 159, 135, 168], [98]],
   [[97], [240, 159, 135, 166, 240, 159, 135, 167], [240, 159, 135, 168, 240, 159, 135, 169], [98]],
   [[97, 226, 128, 141]],
   [[97, 204, 136], [98]],
   [[97, 224, 164, 131], [98]],
   [[97], [216, 128, 98]],
   [[240, 159, 145, 182, 240, 159, 143, 191], [240, 159, 145, 182]],
   [[97, 240, 159, 143, 191], [240, 159, 145, 182]],
   [[97, 240, 159, 143, 191], [240, 159, 145, 182, 226, 128, 141, 240, 159, 155, 145]],
   [[240, 159, 145, 182, 240, 159, 143, 191, 204, 136, 226, 128, 141, 240, 159, 145, 182, 240, 159, 143, 191]],
   [[240, 159, 155, 145, 226, 128, 141, 240, 159, 155, 145]],
   [[97, 226, 128, 141], [240, 159, 155, 145]],
   [[226, 156, 129, 226, 128, 141], [226, 156, 129]],
   [[97, 226, 128, 141], [226, 156, 129]],
   [[224, 164, 149], [224, 164, 164]],
   [[224, 164, 149, 224, 165, 141, 224, 164, 164]],
   [[224, 164, 149, 224, 165, 141, 224, 165, 141, 224, 164, 164]],
   [[224, 164, 149, 224, 165, 141, 226, 128, 141, 224, 164, 164]],
   [[224, 164, 149, 224, 164, 188, 226, 128, 141, 224, 165, 141, 224, 164, 164]],
   [[224, 164, 149, 224, 164, 188, 224, 165, 141, 226, 128, 141, 224, 164, 164]],
   [[224, 164, 149, 224, 165, 141, 224, 164, 164, 224, 165, 141, 224, 164, 175]],
   [[224, 164, 149, 224, 165, 141], [97]],
   [[97, 224, 165, 141], [224, 164, 164]],
   [[63, 224, 165, 141], [224, 164, 164]],
   [[224, 164, 149, 224, 165, 141, 224, 165, 141, 224, 164, 164]],
   [[224, 170, 184, 224, 171, 187, 224, 171, 141, 224, 170, 184, 224, 171, 187]],
   [[225, 128, 153, 225, 128, 185, 225, 128, 152], [225, 128, 172, 225, 128, 183]],
   [[225, 128, 132, 225, 128, 186, 225, 128, 185, 225, 128, 145, 225, 128, 185, 225, 128, 145]],
   [[225, 172, 146, 225, 172, 129], [225, 172, 178, 225, 173, 132, 225, 172, 175], [225, 172, 178, 225, 173, 132, 225, 172, 162, 225, 173, 132, 225, 172, 172], [225, 172, 178, 225, 173, 132, 225, 172, 162, 225, 172, 184]],
   [[225, 158, 159, 225, 159, 146, 225, 158, 143, 225, 159, 146, 225, 158, 154, 225, 158, 184]],
   [[225, 172, 166], [225, 172, 151, 225, 173, 132, 225, 172, 147]],
   [[225, 172, 167], [225, 172, 147, 225, 173, 132, 225, 172, 139], [225, 172, 139, 225, 172, 132]],
   [[225, 158, 149, 225, 159, 146, 225, 158, 175], [225, 158, 152]],
   [[225, 158, 160, 225, 159, 146, 225, 158, 171], [225, 158, 145, 225, 159, 144], [225, 158, 153]]]

theorem graphemesUnicode_pass : (graphemesUnicode.all (tokensAre .graphemes)) = true := by decide +kernel


end Uax29.Tests
