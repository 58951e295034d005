import Verif.Spec.GoRead
import Verif.Table.GraphemesText
import Verif.Table.GraphemesSource
/-!
GENERATED by tools/gen_code.py. Do not edit.
The functions of graphemes/trie.go, graphemes/splitfunc.go, graphemes/iterator.go, graphemes/ansi.go, graphemes/ansi8.go, graphemes/reader.go, as `Source.read` reads them.
-/
set_option maxRecDepth 100000
namespace Uax29.Graphemes.Code
open Source
def lookup_s0 : Stmt :=
  (.define [some 1] (.lit (.num .uint32 0)))
def lookup_s1 : Stmt :=
  (.define [some 2] (.lit (.num .int 0)))
def lookup_s2 : Stmt :=
  (.define [some 3] (.index (.var 0) (.lit (.num .untyped 0))))
def lookup_s3 : Stmt :=
  (.ite (.bin .lt (.var 3) (.lit (.num .untyped 128))) (.ret (.pair (.table 0 (.var 3)) (.lit (.num .untyped 1)))) (.ite
    (.bin .lt (.var 3) (.lit (.num .untyped 194))) (.ret (.pair (.lit (.num .untyped 0)) (.lit (.num .untyped 1)))) (.ite
    (.bin .lt (.var 3) (.lit (.num .untyped 224))) (.seq (.ite (.bin .lt (.len (.var 0)) (.lit (.num .untyped 2))) (.ret
    (.pair (.lit (.num .untyped 0)) (.lit (.num .untyped 0)))) .skip) (.seq (.define [some 4] (.table 1 (.var 3))) (.seq
    (.define [some 5] (.index (.var 0) (.lit (.num .untyped 1)))) (.seq (.ite (.or (.bin .lt (.var 5) (.lit
    (.num .untyped 128))) (.bin .le (.lit (.num .untyped 192)) (.var 5))) (.ret (.pair (.lit (.num .untyped 0)) (.lit
    (.num .untyped 1)))) .skip) (.ret (.pair (.call 1 (.pair (.conv .uint32 (.var 4)) (.var 5))) (.lit
    (.num .untyped 2)))))))) (.ite (.bin .lt (.var 3) (.lit (.num .untyped 240))) (.seq (.ite (.bin .lt (.len (.var 0)) (.lit
    (.num .untyped 3))) (.ret (.pair (.lit (.num .untyped 0)) (.lit (.num .untyped 0)))) .skip) (.seq (.define [some 6]
    (.table 1 (.var 3))) (.seq (.define [some 7] (.index (.var 0) (.lit (.num .untyped 1)))) (.seq (.ite (.or (.bin .lt
    (.var 7) (.lit (.num .untyped 128))) (.bin .le (.lit (.num .untyped 192)) (.var 7))) (.ret (.pair (.lit (.num .untyped 0))
    (.lit (.num .untyped 1)))) .skip) (.seq (.define [some 8] (.bin .add (.bin .shl (.conv .uint32 (.var 6)) (.lit
    (.num .untyped 6))) (.conv .uint32 (.var 7)))) (.seq (.assign [some 6] (.table 1 (.var 8))) (.seq (.define [some 9]
    (.index (.var 0) (.lit (.num .untyped 2)))) (.seq (.ite (.or (.bin .lt (.var 9) (.lit (.num .untyped 128))) (.bin .le
    (.lit (.num .untyped 192)) (.var 9))) (.ret (.pair (.lit (.num .untyped 0)) (.lit (.num .untyped 2)))) .skip) (.ret (.pair
    (.call 1 (.pair (.conv .uint32 (.var 6)) (.var 9))) (.lit (.num .untyped 3)))))))))))) (.ite (.bin .lt (.var 3) (.lit
    (.num .untyped 248))) (.seq (.ite (.bin .lt (.len (.var 0)) (.lit (.num .untyped 4))) (.ret (.pair (.lit
    (.num .untyped 0)) (.lit (.num .untyped 0)))) .skip) (.seq (.define [some 10] (.table 1 (.var 3))) (.seq
    (.define [some 11] (.index (.var 0) (.lit (.num .untyped 1)))) (.seq (.ite (.or (.bin .lt (.var 11) (.lit
    (.num .untyped 128))) (.bin .le (.lit (.num .untyped 192)) (.var 11))) (.ret (.pair (.lit (.num .untyped 0)) (.lit
    (.num .untyped 1)))) .skip) (.seq (.define [some 12] (.bin .add (.bin .shl (.conv .uint32 (.var 10)) (.lit
    (.num .untyped 6))) (.conv .uint32 (.var 11)))) (.seq (.assign [some 10] (.table 1 (.var 12))) (.seq (.define [some 13]
    (.index (.var 0) (.lit (.num .untyped 2)))) (.seq (.ite (.or (.bin .lt (.var 13) (.lit (.num .untyped 128))) (.bin .le
    (.lit (.num .untyped 192)) (.var 13))) (.ret (.pair (.lit (.num .untyped 0)) (.lit (.num .untyped 2)))) .skip) (.seq
    (.assign [some 12] (.bin .add (.bin .shl (.conv .uint32 (.var 10)) (.lit (.num .untyped 6))) (.conv .uint32 (.var 13))))
    (.seq (.assign [some 10] (.table 1 (.var 12))) (.seq (.define [some 14] (.index (.var 0) (.lit (.num .untyped 3)))) (.seq
    (.ite (.or (.bin .lt (.var 14) (.lit (.num .untyped 128))) (.bin .le (.lit (.num .untyped 192)) (.var 14))) (.ret (.pair
    (.lit (.num .untyped 0)) (.lit (.num .untyped 3)))) .skip) (.ret (.pair (.call 1 (.pair (.conv .uint32 (.var 10))
    (.var 14))) (.lit (.num .untyped 4)))))))))))))))) .skip)))))
def lookup_s4 : Stmt :=
  (.ret (.pair (.lit (.num .untyped 0)) (.lit (.num .untyped 1))))
def lookup : Func :=
  ⟨false, [none], [some .uint32, some .int], 15,
   (.seq lookup_s0 (.seq lookup_s1 (.seq lookup_s2 (.seq lookup_s3 lookup_s4))))⟩

def lookupValue_s0 : Stmt :=
  (.ret (.conv .uint32 (.table 0 (.bin .add (.bin .shl (.var 0) (.lit (.num .untyped 6))) (.conv .uint32 (.var 1))))))
def lookupValue : Func :=
  ⟨false, [some .uint32, some .uint8], [some .uint32], 2,
   lookupValue_s0⟩

def mis_s0 : Stmt :=
  (.ret (.bin .ne (.bin .and (.var 0) (.var 1)) (.lit (.num .untyped 0))))
def mis : Func :=
  ⟨false, [some .uint32, some .uint32], [none], 2,
   mis_s0⟩

def splitFunc_s0 : Stmt :=
  (.define [some 2] (.lit (.num .int 0)))
def splitFunc_s1 : Stmt :=
  (.define [some 3] (.lit .nil))
def splitFunc_s2 : Stmt :=
  (.define [some 4] (.lit .nil))
def splitFunc_s3 : Stmt :=
  (.define [some 5] (.lit .nil))
def splitFunc_s4 : Stmt :=
  (.ite (.bin .eq (.len (.var 0)) (.lit (.num .untyped 0))) (.ret (.pair (.lit (.num .untyped 0)) (.pair (.var 5)
    (.lit .nil)))) .skip)
def splitFunc_s5 : Stmt :=
  (.define [some 6] (.lit (.num .int 0)))
def splitFunc_s6 : Stmt :=
  (.define [some 7] (.conv .uint32 (.lit (.num .untyped 0))))
def splitFunc_s7 : Stmt :=
  (.define [some 8] (.conv .uint32 (.lit (.num .untyped 0))))
def splitFunc_s8 : Stmt :=
  (.define [some 9] (.lit (.num .int 0)))
def splitFunc_s9 : Stmt :=
  (.define [some 10] (.lit (.num .int 0)))
def splitFunc_s10 : Stmt :=
  (.define [some 11, some 12] (.call 0 (.drop (.var 0) (.var 6))))
def splitFunc_s11 : Stmt :=
  (.ite (.bin .eq (.var 12) (.lit (.num .untyped 0))) (.seq (.ite (.not (.var 1)) (.ret (.pair (.lit (.num .untyped 0)) (.pair
    (.var 5) (.lit .nil)))) .skip) (.seq (.assign [some 6] (.len (.var 0))) (.ret (.pair (.var 6) (.pair (.take (.var 0)
    (.var 6)) (.lit .nil)))))) .skip)
def splitFunc_s12 : Stmt :=
  (.assign [some 6] (.bin .add (.var 6) (.var 12)))
def splitFunc_s13 : Stmt :=
  (.define [some 13] (.bin .eq (.var 6) (.len (.var 0))))
def splitFunc_s14 : Stmt :=
  (.ite (.var 13) (.seq (.ite (.not (.var 1)) (.ret (.pair (.lit (.num .untyped 0)) (.pair (.var 5) (.lit .nil)))) .skip)
    (.brk 0)) .skip)
def splitFunc_s15 : Stmt :=
  (.define [some 14] (.var 11))
def splitFunc_s16 : Stmt :=
  (.ite (.not (.call 2 (.pair (.var 14) (.lit (.num .uint32 4))))) (.seq (.assign [some 8] (.var 7)) (.assign [some 7]
    (.var 14))) .skip)
def splitFunc_s17 : Stmt :=
  (.ite (.call 2 (.pair (.var 14) (.bin .or (.bin .or (.lit (.num .uint32 16)) (.lit (.num .uint32 64))) (.lit
    (.num .uint32 32))))) (.ite (.call 2 (.pair (.var 14) (.lit (.num .uint32 16)))) (.ite (.bin .ne (.var 10) (.lit
    (.num .int 2))) (.assign [some 10] (.lit (.num .int 1))) .skip) (.ite (.call 2 (.pair (.var 14) (.lit (.num .uint32 64))))
    (.ite (.bin .ge (.var 10) (.lit (.num .int 1))) (.assign [some 10] (.lit (.num .int 2))) .skip) .skip)) (.assign [some 10]
    (.lit (.num .int 0))))
def splitFunc_s18 : Stmt :=
  (.assign [some 11, some 12] (.call 0 (.drop (.var 0) (.var 6))))
def splitFunc_s19 : Stmt :=
  (.ite (.bin .eq (.var 12) (.lit (.num .untyped 0))) (.seq (.ite (.var 1) (.seq (.assign [some 6] (.len (.var 0)))
    (.brk 0)) .skip) (.ret (.pair (.lit (.num .untyped 0)) (.pair (.var 5) (.lit .nil))))) .skip)
def splitFunc_s20 : Stmt :=
  (.ite (.bin .eq (.bin .or (.var 11) (.var 14)) (.lit (.num .untyped 0))) (.brk 0) .skip)
def splitFunc_s21 : Stmt :=
  (.ite (.and (.call 2 (.pair (.var 11) (.lit (.num .uint32 256)))) (.call 2 (.pair (.var 14) (.lit (.num .uint32 1))))) (.seq
    (.assign [some 6] (.bin .add (.var 6) (.var 12))) (.cont 0)) .skip)
def splitFunc_s22 : Stmt :=
  (.ite (.call 2 (.pair (.bin .or (.var 11) (.var 14)) (.bin .or (.bin .or (.lit (.num .uint32 2)) (.lit (.num .uint32 1)))
    (.lit (.num .uint32 256))))) (.brk 0) .skip)
def splitFunc_s23 : Stmt :=
  (.ite (.and (.call 2 (.pair (.var 11) (.bin .or (.bin .or (.bin .or (.lit (.num .uint32 128)) (.lit (.num .uint32 32768)))
    (.lit (.num .uint32 512))) (.lit (.num .uint32 1024))))) (.call 2 (.pair (.var 14) (.lit (.num .uint32 128))))) (.seq
    (.assign [some 6] (.bin .add (.var 6) (.var 12))) (.cont 0)) .skip)
def splitFunc_s24 : Stmt :=
  (.ite (.and (.call 2 (.pair (.var 11) (.bin .or (.lit (.num .uint32 32768)) (.lit (.num .uint32 16384))))) (.call 2 (.pair
    (.var 14) (.bin .or (.lit (.num .uint32 512)) (.lit (.num .uint32 32768)))))) (.seq (.assign [some 6] (.bin .add (.var 6)
    (.var 12))) (.cont 0)) .skip)
def splitFunc_s25 : Stmt :=
  (.ite (.and (.call 2 (.pair (.var 11) (.lit (.num .uint32 16384)))) (.call 2 (.pair (.var 14) (.bin .or (.lit
    (.num .uint32 1024)) (.lit (.num .uint32 16384)))))) (.seq (.assign [some 6] (.bin .add (.var 6) (.var 12)))
    (.cont 0)) .skip)
def splitFunc_s26 : Stmt :=
  (.ite (.call 2 (.pair (.var 11) (.bin .or (.lit (.num .uint32 4)) (.lit (.num .uint32 65536))))) (.seq (.assign [some 6]
    (.bin .add (.var 6) (.var 12))) (.cont 0)) .skip)
def splitFunc_s27 : Stmt :=
  (.ite (.call 2 (.pair (.var 11) (.lit (.num .uint32 8192)))) (.seq (.assign [some 6] (.bin .add (.var 6) (.var 12)))
    (.cont 0)) .skip)
def splitFunc_s28 : Stmt :=
  (.ite (.call 2 (.pair (.var 14) (.lit (.num .uint32 2048)))) (.seq (.assign [some 6] (.bin .add (.var 6) (.var 12)))
    (.cont 0)) .skip)
def splitFunc_s29 : Stmt :=
  (.ite (.and (.bin .eq (.var 10) (.lit (.num .int 2))) (.call 2 (.pair (.var 11) (.lit (.num .uint32 16))))) (.seq
    (.assign [some 10] (.lit (.num .int 1))) (.seq (.assign [some 6] (.bin .add (.var 6) (.var 12))) (.cont 0))) .skip)
def splitFunc_s30 : Stmt :=
  (.ite (.and (.and (.call 2 (.pair (.var 11) (.lit (.num .uint32 8)))) (.call 2 (.pair (.var 14) (.lit
    (.num .uint32 65536))))) (.call 2 (.pair (.var 8) (.lit (.num .uint32 8))))) (.seq (.assign [some 6] (.bin .add (.var 6)
    (.var 12))) (.cont 0)) .skip)
def splitFunc_s31 : Stmt :=
  (.ite (.call 2 (.pair (.bin .and (.var 11) (.var 14)) (.lit (.num .uint32 4096)))) (.seq (.assign [some 9] (.bin .add
    (.var 9) (.lit (.num .untyped 1)))) (.seq (.define [some 15] (.bin .eq (.bin .rem (.var 9) (.lit (.num .untyped 2))) (.lit
    (.num .untyped 1)))) (.ite (.var 15) (.seq (.assign [some 6] (.bin .add (.var 6) (.var 12))) (.cont 0)) .skip))) .skip)
def splitFunc_s32 : Stmt :=
  (.loop 1 (.lit (.bool true)) .skip (.seq splitFunc_s13 (.seq splitFunc_s14 (.seq splitFunc_s15 (.seq splitFunc_s16
    (.seq splitFunc_s17 (.seq splitFunc_s18 (.seq splitFunc_s19 (.seq splitFunc_s20 (.seq splitFunc_s21 (.seq splitFunc_s22
    (.seq splitFunc_s23 (.seq splitFunc_s24 (.seq splitFunc_s25 (.seq splitFunc_s26 (.seq splitFunc_s27 (.seq splitFunc_s28
    (.seq splitFunc_s29 (.seq splitFunc_s30 (.seq splitFunc_s31 (.brk 0)))))))))))))))))))))
def splitFunc_s33 : Stmt :=
  (.ret (.pair (.var 6) (.pair (.take (.var 0) (.var 6)) (.lit .nil))))
def splitFunc : Func :=
  ⟨false, [none, none], [some .int, none, none], 16,
   (.seq splitFunc_s0 (.seq splitFunc_s1 (.seq splitFunc_s2 (.seq splitFunc_s3 (.seq splitFunc_s4 (.seq splitFunc_s5
    (.seq splitFunc_s6 (.seq splitFunc_s7 (.seq splitFunc_s8 (.seq splitFunc_s9 (.seq splitFunc_s10 (.seq splitFunc_s11
    (.seq splitFunc_s12 (.seq splitFunc_s32 splitFunc_s33))))))))))))))⟩

def FromString_s0 : Stmt :=
  (.ret (.pair (.lit (.fn 3)) (.pair (.var 0) (.pair (.lit (.num .int 0)) (.pair (.lit (.num .int 0)) (.pair (.lit
    (.bool false)) (.pair (.lit (.bool false)) (.lit .nil))))))))
def FromString : Func :=
  ⟨false, [none], [none], 1,
   FromString_s0⟩

def FromBytes_s0 : Stmt :=
  (.ret (.pair (.lit (.fn 3)) (.pair (.var 0) (.pair (.lit (.num .int 0)) (.pair (.lit (.num .int 0)) (.pair (.lit
    (.bool false)) (.pair (.lit (.bool false)) (.lit .nil))))))))
def FromBytes : Func :=
  ⟨false, [none], [none], 1,
   FromBytes_s0⟩

def mNext_s0 : Stmt :=
  (.ite (.bin .ge (.field 2 (.var 0)) (.len (.field 1 (.var 0)))) (.ret (.lit (.bool false))) .skip)
def mNext_s1 : Stmt :=
  (.setField 0 3 (.field 2 (.var 0)))
def mNext_s2 : Stmt :=
  (.define [some 1] (.index (.field 1 (.var 0)) (.field 2 (.var 0))))
def mNext_s3 : Stmt :=
  (.ite (.and (.field 4 (.var 0)) (.bin .eq (.var 1) (.lit (.num .untyped 27)))) (.seq (.define [some 2] (.call 13 (.drop
    (.field 1 (.var 0)) (.field 2 (.var 0))))) (.ite (.bin .gt (.var 2) (.lit (.num .untyped 0))) (.seq (.setField 0 2
    (.bin .add (.field 2 (.var 0)) (.var 2))) (.ret (.lit (.bool true)))) .skip)) .skip)
def mNext_s4 : Stmt :=
  (.ite (.and (.and (.field 5 (.var 0)) (.bin .ge (.var 1) (.lit (.num .untyped 128)))) (.bin .le (.var 1) (.lit
    (.num .untyped 159)))) (.seq (.define [some 3] (.call 17 (.drop (.field 1 (.var 0)) (.field 2 (.var 0))))) (.ite (.bin .gt
    (.var 3) (.lit (.num .untyped 0))) (.seq (.setField 0 2 (.bin .add (.field 2 (.var 0)) (.var 3))) (.ret (.lit
    (.bool true)))) .skip)) .skip)
def mNext_s5 : Stmt :=
  (.ite (.and (.bin .lt (.var 1) (.lit (.num .untyped 128))) (.bin .ne (.var 1) (.lit (.num .untyped 13)))) (.ite (.or
    (.bin .ge (.bin .add (.field 2 (.var 0)) (.lit (.num .untyped 1))) (.len (.field 1 (.var 0)))) (.bin .lt (.index (.field 1
    (.var 0)) (.bin .add (.field 2 (.var 0)) (.lit (.num .untyped 1)))) (.lit (.num .untyped 128)))) (.seq (.setField 0 2
    (.bin .add (.field 2 (.var 0)) (.lit (.num .untyped 1)))) (.ret (.lit (.bool true)))) .skip) .skip)
def mNext_s6 : Stmt :=
  (.define [some 4] (.drop (.field 1 (.var 0)) (.field 2 (.var 0))))
def mNext_s7 : Stmt :=
  (.define [some 5, none, some 6] (.apply (.field 0 (.var 0)) (.pair (.var 4) (.lit (.bool true)))))
def mNext_s8 : Stmt :=
  (.ite (.bin .ne (.var 6) (.lit .nil)) (.panic (.var 6)) .skip)
def mNext_s9 : Stmt :=
  (.ite (.bin .le (.var 5) (.lit (.num .untyped 0))) (.panic (.lit (.str
    (chars "splitFunc returned a zero or negative advance")))) .skip)
def mNext_s10 : Stmt :=
  (.setField 0 2 (.bin .add (.field 2 (.var 0)) (.var 5)))
def mNext_s11 : Stmt :=
  (.ite (.bin .gt (.field 2 (.var 0)) (.len (.field 1 (.var 0)))) (.panic (.lit (.str
    (chars "splitFunc advanced beyond end of data")))) .skip)
def mNext_s12 : Stmt :=
  (.ret (.lit (.bool true)))
def mNext : Func :=
  ⟨true, [none], [none], 7,
   (.seq mNext_s0 (.seq mNext_s1 (.seq mNext_s2 (.seq mNext_s3 (.seq mNext_s4 (.seq mNext_s5 (.seq mNext_s6 (.seq mNext_s7
    (.seq mNext_s8 (.seq mNext_s9 (.seq mNext_s10 (.seq mNext_s11 mNext_s12))))))))))))⟩

def mValue_s0 : Stmt :=
  (.ret (.slice (.field 1 (.var 0)) (.field 3 (.var 0)) (.field 2 (.var 0))))
def mValue : Func :=
  ⟨true, [none], [none], 1,
   mValue_s0⟩

def mStart_s0 : Stmt :=
  (.ret (.field 3 (.var 0)))
def mStart : Func :=
  ⟨true, [none], [some .int], 1,
   mStart_s0⟩

def mEnd_s0 : Stmt :=
  (.ret (.field 2 (.var 0)))
def mEnd : Func :=
  ⟨true, [none], [some .int], 1,
   mEnd_s0⟩

def mReset_s0 : Stmt :=
  (.setField 0 3 (.lit (.num .untyped 0)))
def mReset_s1 : Stmt :=
  (.setField 0 2 (.lit (.num .untyped 0)))
def mReset : Func :=
  ⟨true, [none], [], 1,
   (.seq mReset_s0 mReset_s1)⟩

def mSetText_s0 : Stmt :=
  (.setField 0 1 (.var 1))
def mSetText_s1 : Stmt :=
  (.setField 0 3 (.lit (.num .untyped 0)))
def mSetText_s2 : Stmt :=
  (.setField 0 2 (.lit (.num .untyped 0)))
def mSetText : Func :=
  ⟨true, [none, none], [], 2,
   (.seq mSetText_s0 (.seq mSetText_s1 mSetText_s2))⟩

def mFirst_s0 : Stmt :=
  (.ite (.bin .eq (.len (.field 1 (.var 0))) (.lit (.num .untyped 0))) (.ret (.field 1 (.var 0))) .skip)
def mFirst_s1 : Stmt :=
  (.define [some 1] (.var 0))
def mFirst_s2 : Stmt :=
  (.setField 1 2 (.lit (.num .untyped 0)))
def mFirst_s3 : Stmt :=
  (.setField 1 3 (.lit (.num .untyped 0)))
def mFirst_s4 : Stmt :=
  (.invoke 1 6 (.lit .nil))
def mFirst_s5 : Stmt :=
  (.ret (.call 7 (.var 1)))
def mFirst : Func :=
  ⟨true, [none], [none], 2,
   (.seq mFirst_s0 (.seq mFirst_s1 (.seq mFirst_s2 (.seq mFirst_s3 (.seq mFirst_s4 mFirst_s5)))))⟩

def ansiEscapeLength_s0 : Stmt :=
  (.define [some 1] (.len (.var 0)))
def ansiEscapeLength_s1 : Stmt :=
  (.ite (.or (.bin .lt (.var 1) (.lit (.num .untyped 2))) (.bin .ne (.index (.var 0) (.lit (.num .untyped 0))) (.lit
    (.num .untyped 27)))) (.ret (.lit (.num .untyped 0))) .skip)
def ansiEscapeLength_s2 : Stmt :=
  (.define [some 2] (.index (.var 0) (.lit (.num .untyped 1))))
def ansiEscapeLength_s3 : Stmt :=
  (.define [some 3] (.var 2))
def ansiEscapeLength_s4 : Stmt :=
  (.ite (.bin .eq (.var 3) (.lit (.num .untyped 91))) (.seq (.define [some 4] (.call 14 (.drop (.var 0) (.lit
    (.num .untyped 2))))) (.seq (.ite (.bin .eq (.var 4) (.lit (.num .untyped 0))) (.ret (.lit (.num .untyped 0))) .skip)
    (.ret (.bin .add (.lit (.num .untyped 2)) (.var 4))))) (.ite (.bin .eq (.var 3) (.lit (.num .untyped 93))) (.seq
    (.define [some 5] (.call 15 (.drop (.var 0) (.lit (.num .untyped 2))))) (.seq (.ite (.bin .lt (.var 5) (.lit
    (.num .untyped 0))) (.ret (.lit (.num .untyped 0))) .skip) (.ret (.bin .add (.lit (.num .untyped 2)) (.var 5))))) (.ite
    (.or (.bin .eq (.var 3) (.lit (.num .untyped 80))) (.or (.bin .eq (.var 3) (.lit (.num .untyped 88))) (.or (.bin .eq
    (.var 3) (.lit (.num .untyped 94))) (.bin .eq (.var 3) (.lit (.num .untyped 95)))))) (.seq (.define [some 6] (.call 16
    (.drop (.var 0) (.lit (.num .untyped 2))))) (.seq (.ite (.bin .lt (.var 6) (.lit (.num .untyped 0))) (.ret (.lit
    (.num .untyped 0))) .skip) (.ret (.bin .add (.lit (.num .untyped 2)) (.var 6))))) .skip)))
def ansiEscapeLength_s5 : Stmt :=
  (.seq ansiEscapeLength_s3 ansiEscapeLength_s4)
def ansiEscapeLength_s6 : Stmt :=
  (.ite (.and (.bin .ge (.var 2) (.lit (.num .untyped 64))) (.bin .le (.var 2) (.lit (.num .untyped 126)))) (.ret (.lit
    (.num .untyped 2))) .skip)
def ansiEscapeLength_s7 : Stmt :=
  (.ite (.and (.bin .ge (.var 2) (.lit (.num .untyped 48))) (.bin .le (.var 2) (.lit (.num .untyped 63)))) (.ret (.lit
    (.num .untyped 2))) .skip)
def ansiEscapeLength_s8 : Stmt :=
  (.assign [some 7] (.bin .add (.var 7) (.lit (.num .untyped 1))))
def ansiEscapeLength_s9 : Stmt :=
  (.loop 1 (.and (.and (.bin .lt (.var 7) (.var 1)) (.bin .ge (.index (.var 0) (.var 7)) (.lit (.num .untyped 32)))) (.bin .le
    (.index (.var 0) (.var 7)) (.lit (.num .untyped 47)))) .skip ansiEscapeLength_s8)
def ansiEscapeLength_s10 : Stmt :=
  (.ite (.and (.bin .ge (.var 2) (.lit (.num .untyped 32))) (.bin .le (.var 2) (.lit (.num .untyped 47)))) (.seq
    (.define [some 7] (.lit (.num .untyped 2))) (.seq ansiEscapeLength_s9 (.seq (.ite (.and (.and (.bin .lt (.var 7) (.var 1))
    (.bin .ge (.index (.var 0) (.var 7)) (.lit (.num .untyped 48)))) (.bin .le (.index (.var 0) (.var 7)) (.lit
    (.num .untyped 126)))) (.ret (.bin .add (.var 7) (.lit (.num .untyped 1)))) .skip) (.ret (.lit (.num .untyped 0)))))) .skip)
def ansiEscapeLength_s11 : Stmt :=
  (.ret (.lit (.num .untyped 0)))
def ansiEscapeLength : Func :=
  ⟨false, [none], [some .int], 8,
   (.seq ansiEscapeLength_s0 (.seq ansiEscapeLength_s1 (.seq ansiEscapeLength_s2 (.seq ansiEscapeLength_s5
    (.seq ansiEscapeLength_s6 (.seq ansiEscapeLength_s7 (.seq ansiEscapeLength_s10 ansiEscapeLength_s11)))))))⟩

def csiBodyLength_s0 : Stmt :=
  (.define [some 1] (.lit (.bool false)))
def csiBodyLength_s1 : Stmt :=
  (.define [some 2] (.lit (.num .untyped 0)))
def csiBodyLength_s2 : Stmt :=
  (.define [some 3] (.index (.var 0) (.var 2)))
def csiBodyLength_s3 : Stmt :=
  (.ite (.and (.bin .ge (.var 3) (.lit (.num .untyped 48))) (.bin .le (.var 3) (.lit (.num .untyped 63)))) (.seq (.ite
    (.var 1) (.ret (.lit (.num .untyped 0))) .skip) (.cont 0)) .skip)
def csiBodyLength_s4 : Stmt :=
  (.ite (.and (.bin .ge (.var 3) (.lit (.num .untyped 32))) (.bin .le (.var 3) (.lit (.num .untyped 47)))) (.seq
    (.assign [some 1] (.lit (.bool true))) (.cont 0)) .skip)
def csiBodyLength_s5 : Stmt :=
  (.ite (.and (.bin .ge (.var 3) (.lit (.num .untyped 64))) (.bin .le (.var 3) (.lit (.num .untyped 126)))) (.ret (.bin .add
    (.var 2) (.lit (.num .untyped 1)))) .skip)
def csiBodyLength_s6 : Stmt :=
  (.ret (.lit (.num .untyped 0)))
def csiBodyLength_s7 : Stmt :=
  (.loop 1 (.bin .lt (.var 2) (.len (.var 0))) (.assign [some 2] (.bin .add (.var 2) (.lit (.num .untyped 1))))
    (.seq csiBodyLength_s2 (.seq csiBodyLength_s3 (.seq csiBodyLength_s4 (.seq csiBodyLength_s5 csiBodyLength_s6)))))
def csiBodyLength_s8 : Stmt :=
  (.seq csiBodyLength_s1 csiBodyLength_s7)
def csiBodyLength_s9 : Stmt :=
  (.ret (.lit (.num .untyped 0)))
def csiBodyLength : Func :=
  ⟨false, [none], [some .int], 4,
   (.seq csiBodyLength_s0 (.seq csiBodyLength_s8 csiBodyLength_s9))⟩

def oscLength_s0 : Stmt :=
  (.define [some 1] (.lit (.num .untyped 0)))
def oscLength_s1 : Stmt :=
  (.define [some 2] (.index (.var 0) (.var 1)))
def oscLength_s2 : Stmt :=
  (.ite (.bin .eq (.var 2) (.lit (.num .untyped 7))) (.ret (.bin .add (.var 1) (.lit (.num .untyped 1)))) .skip)
def oscLength_s3 : Stmt :=
  (.ite (.or (.bin .eq (.var 2) (.lit (.num .untyped 24))) (.bin .eq (.var 2) (.lit (.num .untyped 26)))) (.ret (.var 1)) .skip)
def oscLength_s4 : Stmt :=
  (.ite (.and (.and (.bin .eq (.var 2) (.lit (.num .untyped 27))) (.bin .lt (.bin .add (.var 1) (.lit (.num .untyped 1)))
    (.len (.var 0)))) (.bin .eq (.index (.var 0) (.bin .add (.var 1) (.lit (.num .untyped 1)))) (.lit (.num .untyped 92))))
    (.ret (.bin .add (.var 1) (.lit (.num .untyped 2)))) .skip)
def oscLength_s5 : Stmt :=
  (.loop 1 (.bin .lt (.var 1) (.len (.var 0))) (.assign [some 1] (.bin .add (.var 1) (.lit (.num .untyped 1))))
    (.seq oscLength_s1 (.seq oscLength_s2 (.seq oscLength_s3 oscLength_s4))))
def oscLength_s6 : Stmt :=
  (.seq oscLength_s0 oscLength_s5)
def oscLength_s7 : Stmt :=
  (.ret (.bin .sub (.lit (.num .untyped 0)) (.lit (.num .untyped 1))))
def oscLength : Func :=
  ⟨false, [none], [some .int], 3,
   (.seq oscLength_s6 oscLength_s7)⟩

def stSequenceLength_s0 : Stmt :=
  (.define [some 1] (.lit (.num .untyped 0)))
def stSequenceLength_s1 : Stmt :=
  (.ite (.or (.bin .eq (.index (.var 0) (.var 1)) (.lit (.num .untyped 24))) (.bin .eq (.index (.var 0) (.var 1)) (.lit
    (.num .untyped 26)))) (.ret (.var 1)) .skip)
def stSequenceLength_s2 : Stmt :=
  (.ite (.and (.and (.bin .eq (.index (.var 0) (.var 1)) (.lit (.num .untyped 27))) (.bin .lt (.bin .add (.var 1) (.lit
    (.num .untyped 1))) (.len (.var 0)))) (.bin .eq (.index (.var 0) (.bin .add (.var 1) (.lit (.num .untyped 1)))) (.lit
    (.num .untyped 92)))) (.ret (.bin .add (.var 1) (.lit (.num .untyped 2)))) .skip)
def stSequenceLength_s3 : Stmt :=
  (.loop 1 (.bin .lt (.var 1) (.len (.var 0))) (.assign [some 1] (.bin .add (.var 1) (.lit (.num .untyped 1))))
    (.seq stSequenceLength_s1 stSequenceLength_s2))
def stSequenceLength_s4 : Stmt :=
  (.seq stSequenceLength_s0 stSequenceLength_s3)
def stSequenceLength_s5 : Stmt :=
  (.ret (.bin .sub (.lit (.num .untyped 0)) (.lit (.num .untyped 1))))
def stSequenceLength : Func :=
  ⟨false, [none], [some .int], 2,
   (.seq stSequenceLength_s4 stSequenceLength_s5)⟩

def ansiEscapeLength8Bit_s0 : Stmt :=
  (.ite (.bin .eq (.len (.var 0)) (.lit (.num .untyped 0))) (.ret (.lit (.num .untyped 0))) .skip)
def ansiEscapeLength8Bit_s1 : Stmt :=
  (.define [some 1] (.index (.var 0) (.lit (.num .untyped 0))))
def ansiEscapeLength8Bit_s2 : Stmt :=
  (.ite (.bin .eq (.var 1) (.lit (.num .untyped 155))) (.seq (.define [some 2] (.call 14 (.drop (.var 0) (.lit
    (.num .untyped 1))))) (.seq (.ite (.bin .eq (.var 2) (.lit (.num .untyped 0))) (.ret (.lit (.num .untyped 0))) .skip)
    (.ret (.bin .add (.lit (.num .untyped 1)) (.var 2))))) (.ite (.bin .eq (.var 1) (.lit (.num .untyped 157))) (.seq
    (.define [some 3] (.call 18 (.drop (.var 0) (.lit (.num .untyped 1))))) (.seq (.ite (.bin .lt (.var 3) (.lit
    (.num .untyped 0))) (.ret (.lit (.num .untyped 0))) .skip) (.ret (.bin .add (.lit (.num .untyped 1)) (.var 3))))) (.ite
    (.or (.bin .eq (.var 1) (.lit (.num .untyped 144))) (.or (.bin .eq (.var 1) (.lit (.num .untyped 152))) (.or (.bin .eq
    (.var 1) (.lit (.num .untyped 158))) (.bin .eq (.var 1) (.lit (.num .untyped 159)))))) (.seq (.define [some 4] (.call 19
    (.drop (.var 0) (.lit (.num .untyped 1))))) (.seq (.ite (.bin .lt (.var 4) (.lit (.num .untyped 0))) (.ret (.lit
    (.num .untyped 0))) .skip) (.ret (.bin .add (.lit (.num .untyped 1)) (.var 4))))) (.ite (.and (.bin .ge (.index (.var 0)
    (.lit (.num .untyped 0))) (.lit (.num .untyped 128))) (.bin .le (.index (.var 0) (.lit (.num .untyped 0))) (.lit
    (.num .untyped 159)))) (.ret (.lit (.num .untyped 1))) .skip))))
def ansiEscapeLength8Bit_s3 : Stmt :=
  (.seq ansiEscapeLength8Bit_s1 ansiEscapeLength8Bit_s2)
def ansiEscapeLength8Bit_s4 : Stmt :=
  (.ret (.lit (.num .untyped 0)))
def ansiEscapeLength8Bit : Func :=
  ⟨false, [none], [some .int], 5,
   (.seq ansiEscapeLength8Bit_s0 (.seq ansiEscapeLength8Bit_s3 ansiEscapeLength8Bit_s4))⟩

def oscLengthC1_s0 : Stmt :=
  (.define [some 1] (.lit (.num .untyped 0)))
def oscLengthC1_s1 : Stmt :=
  (.define [some 2] (.index (.var 0) (.var 1)))
def oscLengthC1_s2 : Stmt :=
  (.ite (.or (.bin .eq (.var 2) (.lit (.num .untyped 7))) (.bin .eq (.var 2) (.lit (.num .untyped 156)))) (.ret (.bin .add
    (.var 1) (.lit (.num .untyped 1)))) .skip)
def oscLengthC1_s3 : Stmt :=
  (.ite (.or (.bin .eq (.var 2) (.lit (.num .untyped 24))) (.bin .eq (.var 2) (.lit (.num .untyped 26)))) (.ret (.var 1)) .skip)
def oscLengthC1_s4 : Stmt :=
  (.loop 1 (.bin .lt (.var 1) (.len (.var 0))) (.assign [some 1] (.bin .add (.var 1) (.lit (.num .untyped 1))))
    (.seq oscLengthC1_s1 (.seq oscLengthC1_s2 oscLengthC1_s3)))
def oscLengthC1_s5 : Stmt :=
  (.seq oscLengthC1_s0 oscLengthC1_s4)
def oscLengthC1_s6 : Stmt :=
  (.ret (.bin .sub (.lit (.num .untyped 0)) (.lit (.num .untyped 1))))
def oscLengthC1 : Func :=
  ⟨false, [none], [some .int], 3,
   (.seq oscLengthC1_s5 oscLengthC1_s6)⟩

def stSequenceLengthC1_s0 : Stmt :=
  (.define [some 1] (.lit (.num .untyped 0)))
def stSequenceLengthC1_s1 : Stmt :=
  (.define [some 2] (.index (.var 0) (.var 1)))
def stSequenceLengthC1_s2 : Stmt :=
  (.ite (.or (.bin .eq (.var 2) (.lit (.num .untyped 24))) (.bin .eq (.var 2) (.lit (.num .untyped 26)))) (.ret (.var 1)) .skip)
def stSequenceLengthC1_s3 : Stmt :=
  (.ite (.bin .eq (.var 2) (.lit (.num .untyped 156))) (.ret (.bin .add (.var 1) (.lit (.num .untyped 1)))) .skip)
def stSequenceLengthC1_s4 : Stmt :=
  (.loop 1 (.bin .lt (.var 1) (.len (.var 0))) (.assign [some 1] (.bin .add (.var 1) (.lit (.num .untyped 1))))
    (.seq stSequenceLengthC1_s1 (.seq stSequenceLengthC1_s2 stSequenceLengthC1_s3)))
def stSequenceLengthC1_s5 : Stmt :=
  (.seq stSequenceLengthC1_s0 stSequenceLengthC1_s4)
def stSequenceLengthC1_s6 : Stmt :=
  (.ret (.bin .sub (.lit (.num .untyped 0)) (.lit (.num .untyped 1))))
def stSequenceLengthC1 : Func :=
  ⟨false, [none], [some .int], 3,
   (.seq stSequenceLengthC1_s5 stSequenceLengthC1_s6)⟩

def FromReader_s0 : Stmt :=
  (.define [some 1] (.pair (.var 0) (.pair (.lit .nil) (.lit .nil))))
def FromReader_s1 : Stmt :=
  (.setField 1 1 (.lit (.fn 3)))
def FromReader_s2 : Stmt :=
  (.ret (.pair (.var 1) (.lit .nil)))
def FromReader : Func :=
  ⟨false, [none], [none], 2,
   (.seq FromReader_s0 (.seq FromReader_s1 FromReader_s2))⟩

def program : Program :=
  ⟨[chars "lookup", chars "lookupValue", chars ".is", chars "splitFunc", chars "FromString", chars "FromBytes", chars ".Next",
    chars ".Value", chars ".Start", chars ".End", chars ".Reset", chars ".SetText", chars ".First", chars "ansiEscapeLength",
    chars "csiBodyLength", chars "oscLength", chars "stSequenceLength", chars "ansiEscapeLength8Bit", chars "oscLengthC1",
    chars "stSequenceLengthC1", chars "FromReader"],
   [some lookup, some lookupValue, some mis, some splitFunc, some FromString, some FromBytes, some mNext, some mValue,
    some mStart, some mEnd, some mReset, some mSetText, some mFirst, some ansiEscapeLength, some csiBodyLength, some oscLength,
    some stSequenceLength, some ansiEscapeLength8Bit, some oscLengthC1, some stSequenceLengthC1, some FromReader],
   [(chars "Scanner", [chars "Scanner"]),
    (chars "Iterator", [chars "split", chars "data", chars "pos", chars "start", chars "AnsiEscapeSequences",
    chars "AnsiEscapeSequences8Bit"])],
   [(chars "splitFuncString", 3), (chars "splitFuncBytes", 3), (chars "SplitFunc", 3)]⟩
/-- graphemes/trie.go without the entries of its tables, then graphemes/splitfunc.go, graphemes/iterator.go, graphemes/ansi.go, graphemes/ansi8.go, graphemes/reader.go. -/
def files : List (List Char) :=
  [Text.headChars ++ (Text.midChars ++ Text.tailChars), Text.splitfunc, Text.iterator, Text.ansi, Text.ansi8, Text.reader].map textOf
theorem read_eq : read files = some program := by
  kernel_rfl
end Uax29.Graphemes.Code
