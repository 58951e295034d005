import Verif.Spec.GoRead
import Verif.Model.KernelRfl
import Verif.Table.FilterSource
/-!
GENERATED by tools/gen_code.py. Do not edit.
The functions of internal/iterators/filter/filter.go, as `Source.read` reads them.
-/
set_option maxRecDepth 100000
namespace Uax29.Filter.Code
open Source
def AlphaNumeric_s0 : Stmt :=
  (.define [some 1] (.lit (.num .untyped 0)))
def AlphaNumeric_s1 : Stmt :=
  (.define [some 2, some 3] (.decode (.drop (.var 0) (.var 1))))
def AlphaNumeric_s2 : Stmt :=
  (.ite (.or (.call 1 (.var 2)) (.call 2 (.var 2))) (.ret (.lit (.bool true))) .skip)
def AlphaNumeric_s3 : Stmt :=
  (.assign [some 1] (.bin .add (.var 1) (.var 3)))
def AlphaNumeric_s4 : Stmt :=
  (.loop 1 (.bin .lt (.var 1) (.len (.var 0))) .skip (.seq AlphaNumeric_s1 (.seq AlphaNumeric_s2 AlphaNumeric_s3)))
def AlphaNumeric_s5 : Stmt :=
  (.ret (.lit (.bool false)))
def AlphaNumeric : Func :=
  ⟨false, [none], [none], 4,
   (.seq AlphaNumeric_s0 (.seq AlphaNumeric_s4 AlphaNumeric_s5))⟩

def program : Program :=
  ⟨[chars "AlphaNumeric"],
   [some AlphaNumeric],
   [],
   []⟩
/-- internal/iterators/filter/filter.go. -/
def files : List (List Char) :=
  [Text.filter].map textOf
theorem read_eq : read files = some program := by
  kernel_rfl
end Uax29.Filter.Code
