import Verif.Spec.GoRead
import Verif.Model.KernelRfl
import Verif.Table.GenericSource
/-!
GENERATED by tools/gen_code.py. Do not edit.
The functions of internal/iterators/iterator.go, as `Source.read` reads them.
-/
set_option maxRecDepth 100000
namespace Uax29.Generic.Code
open Source
def New_s0 : Stmt :=
  (.ret (.pair (.var 0) (.pair (.var 1) (.pair (.lit (.num .int 0)) (.pair (.lit (.num .int 0)) (.lit .nil))))))
def New : Func :=
  ⟨false, [none, none], [none], 2,
   New_s0⟩

def mSetText_s0 : Stmt :=
  (.setField 0 1 (.var 1))
def mSetText_s1 : Stmt :=
  (.setField 0 2 (.lit (.num .untyped 0)))
def mSetText_s2 : Stmt :=
  (.setField 0 3 (.lit (.num .untyped 0)))
def mSetText : Func :=
  ⟨true, [none, none], [], 2,
   (.seq mSetText_s0 (.seq mSetText_s1 mSetText_s2))⟩

def mSplit_s0 : Stmt :=
  (.setField 0 0 (.var 1))
def mSplit : Func :=
  ⟨true, [none, none], [], 2,
   mSplit_s0⟩

def mNext_s0 : Stmt :=
  (.ite (.bin .eq (.field 3 (.var 0)) (.len (.field 1 (.var 0)))) (.ret (.lit (.bool false))) .skip)
def mNext_s1 : Stmt :=
  (.ite (.bin .gt (.field 3 (.var 0)) (.len (.field 1 (.var 0)))) (.panic (.lit (.str
    (chars "SplitFunc advanced beyond the end of the data")))) .skip)
def mNext_s2 : Stmt :=
  (.setField 0 2 (.field 3 (.var 0)))
def mNext_s3 : Stmt :=
  (.define [some 1] (.drop (.field 1 (.var 0)) (.field 3 (.var 0))))
def mNext_s4 : Stmt :=
  (.ite (.bin .eq (.len (.var 1)) (.lit (.num .untyped 1))) (.seq (.setField 0 3 (.bin .add (.field 3 (.var 0)) (.lit
    (.num .untyped 1)))) (.ret (.lit (.bool true)))) .skip)
def mNext_s5 : Stmt :=
  (.define [some 2, none, some 3] (.apply (.field 0 (.var 0)) (.pair (.var 1) (.lit (.bool true)))))
def mNext_s6 : Stmt :=
  (.ite (.bin .ne (.var 3) (.lit .nil)) (.panic (.var 3)) .skip)
def mNext_s7 : Stmt :=
  (.ite (.bin .le (.var 2) (.lit (.num .untyped 0))) (.panic (.lit (.str
    (chars "SplitFunc returned a zero or negative advance")))) .skip)
def mNext_s8 : Stmt :=
  (.setField 0 3 (.bin .add (.field 3 (.var 0)) (.var 2)))
def mNext_s9 : Stmt :=
  (.ite (.bin .gt (.field 3 (.var 0)) (.len (.field 1 (.var 0)))) (.panic (.lit (.str
    (chars "SplitFunc advanced beyond the end of the data")))) .skip)
def mNext_s10 : Stmt :=
  (.ret (.lit (.bool true)))
def mNext : Func :=
  ⟨true, [none], [none], 4,
   (.seq mNext_s0 (.seq mNext_s1 (.seq mNext_s2 (.seq mNext_s3 (.seq mNext_s4 (.seq mNext_s5 (.seq mNext_s6 (.seq mNext_s7
    (.seq mNext_s8 (.seq mNext_s9 mNext_s10))))))))))⟩

def mValue_s0 : Stmt :=
  (.ret (.slice (.field 1 (.var 0)) (.field 2 (.var 0)) (.field 3 (.var 0))))
def mValue : Func :=
  ⟨true, [none], [none], 1,
   mValue_s0⟩

def mStart_s0 : Stmt :=
  (.ret (.field 2 (.var 0)))
def mStart : Func :=
  ⟨true, [none], [some .int], 1,
   mStart_s0⟩

def mEnd_s0 : Stmt :=
  (.ret (.field 3 (.var 0)))
def mEnd : Func :=
  ⟨true, [none], [some .int], 1,
   mEnd_s0⟩

def mReset_s0 : Stmt :=
  (.setField 0 2 (.lit (.num .untyped 0)))
def mReset_s1 : Stmt :=
  (.setField 0 3 (.lit (.num .untyped 0)))
def mReset : Func :=
  ⟨true, [none], [], 1,
   (.seq mReset_s0 mReset_s1)⟩

def mFirst_s0 : Stmt :=
  (.ite (.bin .eq (.len (.field 1 (.var 0))) (.lit (.num .untyped 0))) (.ret (.field 1 (.var 0))) .skip)
def mFirst_s1 : Stmt :=
  (.define [some 1, none, some 2] (.apply (.field 0 (.var 0)) (.pair (.field 1 (.var 0)) (.lit (.bool true)))))
def mFirst_s2 : Stmt :=
  (.ite (.bin .ne (.var 2) (.lit .nil)) (.panic (.var 2)) .skip)
def mFirst_s3 : Stmt :=
  (.ite (.bin .le (.var 1) (.lit (.num .untyped 0))) (.panic (.lit (.str
    (chars "SplitFunc returned a zero or negative advance")))) .skip)
def mFirst_s4 : Stmt :=
  (.ite (.bin .gt (.var 1) (.len (.field 1 (.var 0)))) (.panic (.lit (.str
    (chars "SplitFunc advanced beyond the end of the data")))) .skip)
def mFirst_s5 : Stmt :=
  (.ret (.take (.field 1 (.var 0)) (.var 1)))
def mFirst : Func :=
  ⟨true, [none], [none], 3,
   (.seq mFirst_s0 (.seq mFirst_s1 (.seq mFirst_s2 (.seq mFirst_s3 (.seq mFirst_s4 mFirst_s5)))))⟩

def program : Program :=
  ⟨[chars "New", chars ".SetText", chars ".Split", chars ".Next", chars ".Value", chars ".Start", chars ".End", chars ".Reset",
    chars ".First"],
   [some New, some mSetText, some mSplit, some mNext, some mValue, some mStart, some mEnd, some mReset, some mFirst],
   [(chars "Iterator", [chars "split", chars "data", chars "start", chars "pos"])],
   []⟩
/-- internal/iterators/iterator.go. -/
def files : List (List Char) :=
  [Text.iterator].map textOf
theorem read_eq : read files = some program := by
  kernel_rfl
end Uax29.Generic.Code
