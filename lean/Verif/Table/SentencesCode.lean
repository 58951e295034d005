import Verif.Spec.GoRead
import Verif.Table.SentencesText
import Verif.Table.SentencesSource
/-!
GENERATED by tools/gen_code.py. Do not edit.
The functions of sentences/trie.go, sentences/splitfunc.go, sentences/seek.go, sentences/iterator.go, sentences/reader.go, as `Source.read` reads them.
-/
set_option maxRecDepth 100000
namespace Uax29.Sentences.Code
open Source
def lookup_s0 : Stmt :=
  (.define [some 1] (.lit (.num .uint16 0)))
def lookup_s1 : Stmt :=
  (.define [some 2] (.lit (.num .int 0)))
def lookup_s2 : Stmt :=
  (.define [some 3] (.index (.var 0) (.lit (.num .untyped 0))))
def lookup_s3 : Stmt :=
  (.ite (.bin .lt (.var 3) (.lit (.num .untyped 128))) (.ret (.pair (.table 0 (.var 3)) (.lit (.num .untyped 1)))) (.ite
    (.bin .lt (.var 3) (.lit (.num .untyped 194))) (.ret (.pair (.lit (.num .untyped 0)) (.lit (.num .untyped 1)))) (.ite
    (.bin .lt (.var 3) (.lit (.num .untyped 224))) (.seq (.ite (.bin .lt (.len (.var 0)) (.lit (.num .untyped 2))) (.ret
    (.pair (.lit (.num .untyped 0)) (.lit (.num .untyped 0)))) .skip) (.seq (.define [some 4] (.table 1 (.var 3))) (.seq
    (.define [some 5] (.index (.var 0) (.lit (.num .untyped 1)))) (.seq (.ite (.or (.bin .lt (.var 5) (.lit
    (.num .untyped 128))) (.bin .le (.lit (.num .untyped 192)) (.var 5))) (.ret (.pair (.lit (.num .untyped 0)) (.lit
    (.num .untyped 1)))) .skip) (.ret (.pair (.call 1 (.pair (.conv .uint32 (.var 4)) (.var 5))) (.lit
    (.num .untyped 2)))))))) (.ite (.bin .lt (.var 3) (.lit (.num .untyped 240))) (.seq (.ite (.bin .lt (.len (.var 0)) (.lit
    (.num .untyped 3))) (.ret (.pair (.lit (.num .untyped 0)) (.lit (.num .untyped 0)))) .skip) (.seq (.define [some 6]
    (.table 1 (.var 3))) (.seq (.define [some 7] (.index (.var 0) (.lit (.num .untyped 1)))) (.seq (.ite (.or (.bin .lt
    (.var 7) (.lit (.num .untyped 128))) (.bin .le (.lit (.num .untyped 192)) (.var 7))) (.ret (.pair (.lit (.num .untyped 0))
    (.lit (.num .untyped 1)))) .skip) (.seq (.define [some 8] (.bin .add (.bin .shl (.conv .uint32 (.var 6)) (.lit
    (.num .untyped 6))) (.conv .uint32 (.var 7)))) (.seq (.assign [some 6] (.table 1 (.var 8))) (.seq (.define [some 9]
    (.index (.var 0) (.lit (.num .untyped 2)))) (.seq (.ite (.or (.bin .lt (.var 9) (.lit (.num .untyped 128))) (.bin .le
    (.lit (.num .untyped 192)) (.var 9))) (.ret (.pair (.lit (.num .untyped 0)) (.lit (.num .untyped 2)))) .skip) (.ret (.pair
    (.call 1 (.pair (.conv .uint32 (.var 6)) (.var 9))) (.lit (.num .untyped 3)))))))))))) (.ite (.bin .lt (.var 3) (.lit
    (.num .untyped 248))) (.seq (.ite (.bin .lt (.len (.var 0)) (.lit (.num .untyped 4))) (.ret (.pair (.lit
    (.num .untyped 0)) (.lit (.num .untyped 0)))) .skip) (.seq (.define [some 10] (.table 1 (.var 3))) (.seq
    (.define [some 11] (.index (.var 0) (.lit (.num .untyped 1)))) (.seq (.ite (.or (.bin .lt (.var 11) (.lit
    (.num .untyped 128))) (.bin .le (.lit (.num .untyped 192)) (.var 11))) (.ret (.pair (.lit (.num .untyped 0)) (.lit
    (.num .untyped 1)))) .skip) (.seq (.define [some 12] (.bin .add (.bin .shl (.conv .uint32 (.var 10)) (.lit
    (.num .untyped 6))) (.conv .uint32 (.var 11)))) (.seq (.assign [some 10] (.table 1 (.var 12))) (.seq (.define [some 13]
    (.index (.var 0) (.lit (.num .untyped 2)))) (.seq (.ite (.or (.bin .lt (.var 13) (.lit (.num .untyped 128))) (.bin .le
    (.lit (.num .untyped 192)) (.var 13))) (.ret (.pair (.lit (.num .untyped 0)) (.lit (.num .untyped 2)))) .skip) (.seq
    (.assign [some 12] (.bin .add (.bin .shl (.conv .uint32 (.var 10)) (.lit (.num .untyped 6))) (.conv .uint32 (.var 13))))
    (.seq (.assign [some 10] (.table 1 (.var 12))) (.seq (.define [some 14] (.index (.var 0) (.lit (.num .untyped 3)))) (.seq
    (.ite (.or (.bin .lt (.var 14) (.lit (.num .untyped 128))) (.bin .le (.lit (.num .untyped 192)) (.var 14))) (.ret (.pair
    (.lit (.num .untyped 0)) (.lit (.num .untyped 3)))) .skip) (.ret (.pair (.call 1 (.pair (.conv .uint32 (.var 10))
    (.var 14))) (.lit (.num .untyped 4)))))))))))))))) .skip)))))
def lookup_s4 : Stmt :=
  (.ret (.pair (.lit (.num .untyped 0)) (.lit (.num .untyped 1))))
def lookup : Func :=
  ⟨false, [none], [some .uint16, some .int], 15,
   (.seq lookup_s0 (.seq lookup_s1 (.seq lookup_s2 (.seq lookup_s3 lookup_s4))))⟩

def lookupValue_s0 : Stmt :=
  (.ret (.conv .uint16 (.table 0 (.bin .add (.bin .shl (.var 0) (.lit (.num .untyped 6))) (.conv .uint32 (.var 1))))))
def lookupValue : Func :=
  ⟨false, [some .uint32, some .uint8], [some .uint16], 2,
   lookupValue_s0⟩

def mis_s0 : Stmt :=
  (.ret (.bin .ne (.bin .and (.var 0) (.var 1)) (.lit (.num .untyped 0))))
def mis : Func :=
  ⟨false, [some .uint16, some .uint16], [none], 2,
   mis_s0⟩

def splitFunc_s0 : Stmt :=
  (.define [some 2] (.lit (.num .int 0)))
def splitFunc_s1 : Stmt :=
  (.define [some 3] (.lit .nil))
def splitFunc_s2 : Stmt :=
  (.define [some 4] (.lit .nil))
def splitFunc_s3 : Stmt :=
  (.define [some 5] (.lit .nil))
def splitFunc_s4 : Stmt :=
  (.ite (.bin .eq (.len (.var 0)) (.lit (.num .untyped 0))) (.ret (.pair (.lit (.num .untyped 0)) (.pair (.var 5)
    (.lit .nil)))) .skip)
def splitFunc_s5 : Stmt :=
  (.define [some 6] (.lit (.num .int 0)))
def splitFunc_s6 : Stmt :=
  (.define [some 7] (.lit (.num .uint16 0)))
def splitFunc_s7 : Stmt :=
  (.define [some 8] (.lit (.num .uint16 0)))
def splitFunc_s8 : Stmt :=
  (.define [some 9] (.lit (.num .uint16 0)))
def splitFunc_s9 : Stmt :=
  (.define [some 10] (.lit (.num .uint16 0)))
def splitFunc_s10 : Stmt :=
  (.define [some 11] (.lit (.num .uint16 0)))
def splitFunc_s11 : Stmt :=
  (.define [some 12] (.lit (.num .uint16 0)))
def splitFunc_s12 : Stmt :=
  (.define [some 13, some 14] (.call 0 (.drop (.var 0) (.var 6))))
def splitFunc_s13 : Stmt :=
  (.ite (.bin .eq (.var 14) (.lit (.num .untyped 0))) (.seq (.ite (.not (.var 1)) (.ret (.pair (.lit (.num .untyped 0)) (.pair
    (.var 5) (.lit .nil)))) .skip) (.seq (.assign [some 6] (.len (.var 0))) (.ret (.pair (.var 6) (.pair (.take (.var 0)
    (.var 6)) (.lit .nil)))))) .skip)
def splitFunc_s14 : Stmt :=
  (.assign [some 6] (.bin .add (.var 6) (.var 14)))
def splitFunc_s15 : Stmt :=
  (.define [some 15] (.bin .eq (.var 6) (.len (.var 0))))
def splitFunc_s16 : Stmt :=
  (.ite (.var 15) (.seq (.ite (.not (.var 1)) (.ret (.pair (.lit (.num .untyped 0)) (.pair (.var 5) (.lit .nil)))) .skip)
    (.brk 0)) .skip)
def splitFunc_s17 : Stmt :=
  (.define [some 16] (.var 13))
def splitFunc_s18 : Stmt :=
  (.ite (.not (.call 2 (.pair (.var 16) (.lit (.num .uint16 24))))) (.seq (.assign [some 8] (.var 7)) (.assign [some 7]
    (.var 16))) .skip)
def splitFunc_s19 : Stmt :=
  (.ite (.not (.call 2 (.pair (.var 7) (.lit (.num .uint16 4096))))) (.assign [some 9] (.var 7)) .skip)
def splitFunc_s20 : Stmt :=
  (.ite (.not (.call 2 (.pair (.var 7) (.lit (.num .uint16 4))))) (.assign [some 10] (.var 7)) .skip)
def splitFunc_s21 : Stmt :=
  (.ite (.not (.call 2 (.pair (.var 9) (.lit (.num .uint16 4))))) (.assign [some 11] (.var 9)) .skip)
def splitFunc_s22 : Stmt :=
  (.ite (.not (.call 2 (.pair (.var 11) (.lit (.num .uint16 2082))))) (.assign [some 12] (.var 11)) .skip)
def splitFunc_s23 : Stmt :=
  (.assign [some 13, some 14] (.call 0 (.drop (.var 0) (.var 6))))
def splitFunc_s24 : Stmt :=
  (.ite (.bin .eq (.var 14) (.lit (.num .untyped 0))) (.seq (.ite (.var 1) (.seq (.assign [some 6] (.len (.var 0)))
    (.brk 0)) .skip) (.ret (.pair (.lit (.num .untyped 0)) (.pair (.var 5) (.lit .nil))))) .skip)
def splitFunc_s25 : Stmt :=
  (.ite (.bin .eq (.bin .or (.var 13) (.var 16)) (.lit (.num .untyped 0))) (.seq (.assign [some 6] (.bin .add (.var 6)
    (.var 14))) (.cont 0)) .skip)
def splitFunc_s26 : Stmt :=
  (.ite (.and (.call 2 (.pair (.var 13) (.lit (.num .uint16 32)))) (.call 2 (.pair (.var 16) (.lit (.num .uint16 2))))) (.seq
    (.assign [some 6] (.bin .add (.var 6) (.var 14))) (.cont 0)) .skip)
def splitFunc_s27 : Stmt :=
  (.ite (.call 2 (.pair (.var 16) (.lit (.num .uint16 2082)))) (.brk 0) .skip)
def splitFunc_s28 : Stmt :=
  (.ite (.call 2 (.pair (.var 13) (.bin .or (.lit (.num .uint16 8)) (.lit (.num .uint16 16))))) (.seq (.assign [some 6]
    (.bin .add (.var 6) (.var 14))) (.cont 0)) .skip)
def splitFunc_s29 : Stmt :=
  (.ite (.and (.call 2 (.pair (.var 13) (.lit (.num .uint16 128)))) (.call 2 (.pair (.var 7) (.lit (.num .uint16 1))))) (.seq
    (.assign [some 6] (.bin .add (.var 6) (.var 14))) (.cont 0)) .skip)
def splitFunc_s30 : Stmt :=
  (.ite (.and (.and (.call 2 (.pair (.var 13) (.lit (.num .uint16 8192)))) (.call 2 (.pair (.var 7) (.lit (.num .uint16 1)))))
    (.call 2 (.pair (.var 8) (.bin .or (.lit (.num .uint16 8192)) (.lit (.num .uint16 64)))))) (.seq (.assign [some 6]
    (.bin .add (.var 6) (.var 14))) (.cont 0)) .skip)
def splitFunc_s31 : Stmt :=
  (.define [some 18, some 19] (.call 0 (.drop (.var 0) (.var 17))))
def splitFunc_s32 : Stmt :=
  (.ite (.bin .eq (.var 19) (.lit (.num .untyped 0))) (.seq (.ite (.var 1) (.seq (.assign [some 6] (.len (.var 0)))
    (.brk 1)) .skip) (.ret (.pair (.lit (.num .untyped 0)) (.pair (.var 5) (.lit .nil))))) .skip)
def splitFunc_s33 : Stmt :=
  (.ite (.call 2 (.pair (.var 18) (.bin .or (.bin .or (.bin .or (.bin .or (.lit (.num .uint16 256)) (.lit
    (.num .uint16 8192))) (.lit (.num .uint16 64))) (.lit (.num .uint16 2082))) (.lit (.num .uint16 1025))))) (.brk 0) .skip)
def splitFunc_s34 : Stmt :=
  (.assign [some 17] (.bin .add (.var 17) (.var 19)))
def splitFunc_s35 : Stmt :=
  (.loop 2 (.bin .lt (.var 17) (.len (.var 0))) .skip (.seq splitFunc_s31 (.seq splitFunc_s32
    (.seq splitFunc_s33 splitFunc_s34))))
def splitFunc_s36 : Stmt :=
  (.ite (.call 2 (.pair (.var 11) (.lit (.num .uint16 1)))) (.seq (.define [some 17] (.var 6)) (.seq splitFunc_s35 (.seq
    (.define [some 20, some 21] (.call 4 (.pair (.lit (.num .uint16 64)) (.pair (.drop (.var 0) (.var 17)) (.var 1))))) (.seq
    (.ite (.var 21) (.ret (.pair (.lit (.num .untyped 0)) (.pair (.var 5) (.lit .nil)))) .skip) (.ite (.bin .ne (.var 20)
    (.lit (.num .untyped (-1)))) (.seq (.assign [some 6] (.bin .add (.var 17) (.var 20))) (.cont 0)) .skip))))) .skip)
def splitFunc_s37 : Stmt :=
  (.ite (.and (.call 2 (.pair (.var 13) (.bin .or (.lit (.num .uint16 512)) (.lit (.num .uint16 1025))))) (.call 2 (.pair
    (.var 11) (.lit (.num .uint16 1025))))) (.seq (.assign [some 6] (.bin .add (.var 6) (.var 14))) (.cont 0)) .skip)
def splitFunc_s38 : Stmt :=
  (.ite (.and (.call 2 (.pair (.var 13) (.bin .or (.bin .or (.lit (.num .uint16 4)) (.lit (.num .uint16 4096))) (.lit
    (.num .uint16 2082))))) (.call 2 (.pair (.var 10) (.lit (.num .uint16 1025))))) (.seq (.assign [some 6] (.bin .add
    (.var 6) (.var 14))) (.cont 0)) .skip)
def splitFunc_s39 : Stmt :=
  (.ite (.and (.call 2 (.pair (.var 13) (.bin .or (.lit (.num .uint16 4096)) (.lit (.num .uint16 2082))))) (.call 2 (.pair
    (.var 11) (.lit (.num .uint16 1025))))) (.seq (.assign [some 6] (.bin .add (.var 6) (.var 14))) (.cont 0)) .skip)
def splitFunc_s40 : Stmt :=
  (.ite (.or (.or (.or (.call 2 (.pair (.var 7) (.lit (.num .uint16 1025)))) (.and (.call 2 (.pair (.var 7) (.lit
    (.num .uint16 4)))) (.call 2 (.pair (.var 10) (.lit (.num .uint16 1025)))))) (.and (.call 2 (.pair (.var 7) (.lit
    (.num .uint16 4096)))) (.call 2 (.pair (.var 11) (.lit (.num .uint16 1025)))))) (.and (.call 2 (.pair (.var 7) (.lit
    (.num .uint16 2082)))) (.call 2 (.pair (.var 12) (.lit (.num .uint16 1025)))))) (.brk 0) .skip)
def splitFunc_s41 : Stmt :=
  (.assign [some 6] (.bin .add (.var 6) (.var 14)))
def splitFunc_s42 : Stmt :=
  (.loop 1 (.lit (.bool true)) .skip (.seq splitFunc_s15 (.seq splitFunc_s16 (.seq splitFunc_s17 (.seq splitFunc_s18
    (.seq splitFunc_s19 (.seq splitFunc_s20 (.seq splitFunc_s21 (.seq splitFunc_s22 (.seq splitFunc_s23 (.seq splitFunc_s24
    (.seq splitFunc_s25 (.seq splitFunc_s26 (.seq splitFunc_s27 (.seq splitFunc_s28 (.seq splitFunc_s29 (.seq splitFunc_s30
    (.seq splitFunc_s36 (.seq splitFunc_s37 (.seq splitFunc_s38 (.seq splitFunc_s39
    (.seq splitFunc_s40 splitFunc_s41))))))))))))))))))))))
def splitFunc_s43 : Stmt :=
  (.ret (.pair (.var 6) (.pair (.take (.var 0) (.var 6)) (.lit .nil))))
def splitFunc : Func :=
  ⟨false, [none, none], [some .int, none, none], 22,
   (.seq splitFunc_s0 (.seq splitFunc_s1 (.seq splitFunc_s2 (.seq splitFunc_s3 (.seq splitFunc_s4 (.seq splitFunc_s5
    (.seq splitFunc_s6 (.seq splitFunc_s7 (.seq splitFunc_s8 (.seq splitFunc_s9 (.seq splitFunc_s10 (.seq splitFunc_s11
    (.seq splitFunc_s12 (.seq splitFunc_s13 (.seq splitFunc_s14 (.seq splitFunc_s42 splitFunc_s43))))))))))))))))⟩

def subsequent_s0 : Stmt :=
  (.define [some 3] (.lit (.num .int 0)))
def subsequent_s1 : Stmt :=
  (.define [some 4] (.lit (.bool false)))
def subsequent_s2 : Stmt :=
  (.define [some 5] (.lit (.num .untyped 0)))
def subsequent_s3 : Stmt :=
  (.define [some 6, some 7] (.call 0 (.drop (.var 1) (.var 5))))
def subsequent_s4 : Stmt :=
  (.ite (.bin .eq (.var 7) (.lit (.num .untyped 0))) (.seq (.ite (.var 2) (.ret (.pair (.lit (.num .untyped (-1))) (.lit
    (.bool false)))) .skip) (.ret (.pair (.lit (.num .untyped (-1))) (.lit (.bool true))))) .skip)
def subsequent_s5 : Stmt :=
  (.ite (.call 2 (.pair (.var 6) (.lit (.num .uint16 24)))) (.seq (.assign [some 5] (.bin .add (.var 5) (.var 7)))
    (.cont 0)) .skip)
def subsequent_s6 : Stmt :=
  (.ite (.call 2 (.pair (.var 6) (.var 0))) (.ret (.pair (.var 5) (.lit (.bool false)))) .skip)
def subsequent_s7 : Stmt :=
  (.ret (.pair (.lit (.num .untyped (-1))) (.lit (.bool false))))
def subsequent_s8 : Stmt :=
  (.loop 1 (.bin .lt (.var 5) (.len (.var 1))) .skip (.seq subsequent_s3 (.seq subsequent_s4 (.seq subsequent_s5
    (.seq subsequent_s6 subsequent_s7)))))
def subsequent_s9 : Stmt :=
  (.ite (.var 2) (.ret (.pair (.lit (.num .untyped (-1))) (.lit (.bool false)))) .skip)
def subsequent_s10 : Stmt :=
  (.ret (.pair (.lit (.num .untyped (-1))) (.lit (.bool true))))
def subsequent : Func :=
  ⟨false, [some .uint16, none, none], [some .int, none], 8,
   (.seq subsequent_s0 (.seq subsequent_s1 (.seq subsequent_s2 (.seq subsequent_s8 (.seq subsequent_s9 subsequent_s10)))))⟩

def FromString_s0 : Stmt :=
  (.ret (.pair (.lit (.fn 3)) (.pair (.var 0) (.pair (.lit (.num .int 0)) (.pair (.lit (.num .int 0)) (.lit .nil))))))
def FromString : Func :=
  ⟨false, [none], [none], 1,
   FromString_s0⟩

def FromBytes_s0 : Stmt :=
  (.ret (.pair (.lit (.fn 3)) (.pair (.var 0) (.pair (.lit (.num .int 0)) (.pair (.lit (.num .int 0)) (.lit .nil))))))
def FromBytes : Func :=
  ⟨false, [none], [none], 1,
   FromBytes_s0⟩

def isASCIIAlphanumericOrSpace_s0 : Stmt :=
  (.ret (.or (.or (.or (.and (.bin .ge (.var 0) (.lit (.num .untyped 97))) (.bin .le (.var 0) (.lit (.num .untyped 122))))
    (.and (.bin .ge (.var 0) (.lit (.num .untyped 65))) (.bin .le (.var 0) (.lit (.num .untyped 90))))) (.and (.bin .ge
    (.var 0) (.lit (.num .untyped 48))) (.bin .le (.var 0) (.lit (.num .untyped 57))))) (.bin .eq (.var 0) (.lit
    (.num .untyped 32)))))
def isASCIIAlphanumericOrSpace : Func :=
  ⟨false, [some .uint8], [none], 1,
   isASCIIAlphanumericOrSpace_s0⟩

def mNext_s0 : Stmt :=
  (.ite (.bin .ge (.field 2 (.var 0)) (.len (.field 1 (.var 0)))) (.ret (.lit (.bool false))) .skip)
def mNext_s1 : Stmt :=
  (.setField 0 3 (.field 2 (.var 0)))
def mNext_s2 : Stmt :=
  (.setField 0 2 (.bin .add (.field 2 (.var 0)) (.lit (.num .untyped 1))))
def mNext_s3 : Stmt :=
  (.loop 1 (.and (.bin .lt (.field 2 (.var 0)) (.len (.field 1 (.var 0)))) (.call 7 (.index (.field 1 (.var 0)) (.field 2
    (.var 0))))) .skip mNext_s2)
def mNext_s4 : Stmt :=
  (.ite (.bin .ge (.field 2 (.var 0)) (.len (.field 1 (.var 0)))) (.ret (.lit (.bool true))) .skip)
def mNext_s5 : Stmt :=
  (.ite (.bin .gt (.field 2 (.var 0)) (.field 3 (.var 0))) (.setField 0 2 (.bin .sub (.field 2 (.var 0)) (.lit
    (.num .untyped 1)))) .skip)
def mNext_s6 : Stmt :=
  (.define [some 1] (.drop (.field 1 (.var 0)) (.field 2 (.var 0))))
def mNext_s7 : Stmt :=
  (.define [some 2, none, some 3] (.apply (.field 0 (.var 0)) (.pair (.var 1) (.lit (.bool true)))))
def mNext_s8 : Stmt :=
  (.ite (.bin .ne (.var 3) (.lit .nil)) (.panic (.var 3)) .skip)
def mNext_s9 : Stmt :=
  (.ite (.bin .le (.var 2) (.lit (.num .untyped 0))) (.panic (.lit (.str
    (chars "splitFunc returned a zero or negative advance")))) .skip)
def mNext_s10 : Stmt :=
  (.setField 0 2 (.bin .add (.field 2 (.var 0)) (.var 2)))
def mNext_s11 : Stmt :=
  (.ite (.bin .gt (.field 2 (.var 0)) (.len (.field 1 (.var 0)))) (.panic (.lit (.str
    (chars "splitFunc advanced beyond end of data")))) .skip)
def mNext_s12 : Stmt :=
  (.ret (.lit (.bool true)))
def mNext : Func :=
  ⟨true, [none], [none], 4,
   (.seq mNext_s0 (.seq mNext_s1 (.seq mNext_s3 (.seq mNext_s4 (.seq mNext_s5 (.seq mNext_s6 (.seq mNext_s7 (.seq mNext_s8
    (.seq mNext_s9 (.seq mNext_s10 (.seq mNext_s11 mNext_s12)))))))))))⟩

def mValue_s0 : Stmt :=
  (.ret (.slice (.field 1 (.var 0)) (.field 3 (.var 0)) (.field 2 (.var 0))))
def mValue : Func :=
  ⟨true, [none], [none], 1,
   mValue_s0⟩

def mStart_s0 : Stmt :=
  (.ret (.field 3 (.var 0)))
def mStart : Func :=
  ⟨true, [none], [some .int], 1,
   mStart_s0⟩

def mEnd_s0 : Stmt :=
  (.ret (.field 2 (.var 0)))
def mEnd : Func :=
  ⟨true, [none], [some .int], 1,
   mEnd_s0⟩

def mReset_s0 : Stmt :=
  (.setField 0 3 (.lit (.num .untyped 0)))
def mReset_s1 : Stmt :=
  (.setField 0 2 (.lit (.num .untyped 0)))
def mReset : Func :=
  ⟨true, [none], [], 1,
   (.seq mReset_s0 mReset_s1)⟩

def mSetText_s0 : Stmt :=
  (.setField 0 1 (.var 1))
def mSetText_s1 : Stmt :=
  (.setField 0 3 (.lit (.num .untyped 0)))
def mSetText_s2 : Stmt :=
  (.setField 0 2 (.lit (.num .untyped 0)))
def mSetText : Func :=
  ⟨true, [none, none], [], 2,
   (.seq mSetText_s0 (.seq mSetText_s1 mSetText_s2))⟩

def mFirst_s0 : Stmt :=
  (.ite (.bin .eq (.len (.field 1 (.var 0))) (.lit (.num .untyped 0))) (.ret (.field 1 (.var 0))) .skip)
def mFirst_s1 : Stmt :=
  (.define [some 1] (.var 0))
def mFirst_s2 : Stmt :=
  (.setField 1 2 (.lit (.num .untyped 0)))
def mFirst_s3 : Stmt :=
  (.setField 1 3 (.lit (.num .untyped 0)))
def mFirst_s4 : Stmt :=
  (.invoke 1 8 (.lit .nil))
def mFirst_s5 : Stmt :=
  (.ret (.call 9 (.var 1)))
def mFirst : Func :=
  ⟨true, [none], [none], 2,
   (.seq mFirst_s0 (.seq mFirst_s1 (.seq mFirst_s2 (.seq mFirst_s3 (.seq mFirst_s4 mFirst_s5)))))⟩

def FromReader_s0 : Stmt :=
  (.define [some 1] (.pair (.var 0) (.pair (.lit .nil) (.lit .nil))))
def FromReader_s1 : Stmt :=
  (.setField 1 1 (.lit (.fn 3)))
def FromReader_s2 : Stmt :=
  (.ret (.pair (.var 1) (.lit .nil)))
def FromReader : Func :=
  ⟨false, [none], [none], 2,
   (.seq FromReader_s0 (.seq FromReader_s1 FromReader_s2))⟩

def program : Program :=
  ⟨[chars "lookup", chars "lookupValue", chars ".is", chars "splitFunc", chars "subsequent", chars "FromString",
    chars "FromBytes", chars "isASCIIAlphanumericOrSpace", chars ".Next", chars ".Value", chars ".Start", chars ".End",
    chars ".Reset", chars ".SetText", chars ".First", chars "FromReader"],
   [some lookup, some lookupValue, some mis, some splitFunc, some subsequent, some FromString, some FromBytes,
    some isASCIIAlphanumericOrSpace, some mNext, some mValue, some mStart, some mEnd, some mReset, some mSetText, some mFirst,
    some FromReader],
   [(chars "Scanner", [chars "Scanner"]), (chars "Iterator", [chars "split", chars "data", chars "pos", chars "start"])],
   [(chars "splitFuncString", 3), (chars "splitFuncBytes", 3), (chars "SplitFunc", 3)]⟩
/-- sentences/trie.go without the entries of its tables, then sentences/splitfunc.go, sentences/seek.go, sentences/iterator.go, sentences/reader.go. -/
def files : List (List Char) :=
  [Text.headChars ++ (Text.midChars ++ Text.tailChars), Text.splitfunc, Text.seek, Text.iterator, Text.reader].map textOf
theorem read_eq : read files = some program := by
  kernel_rfl
end Uax29.Sentences.Code
