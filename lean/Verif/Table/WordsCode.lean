import Verif.Spec.GoRead
import Verif.Table.WordsText
import Verif.Table.WordsSource
/-!
GENERATED by tools/gen_code.py. Do not edit.
The functions of words/trie.go, words/joiners.go, words/splitfunc.go, words/seek.go, words/iterator.go, words/bleve_compat.go, words/reader.go, as `Source.read` reads them.
-/
set_option maxRecDepth 100000
namespace Uax29.Words.Code
open Source
def lookup_s0 : Stmt :=
  (.define [some 1] (.lit (.num .uint32 0)))
def lookup_s1 : Stmt :=
  (.define [some 2] (.lit (.num .int 0)))
def lookup_s2 : Stmt :=
  (.define [some 3] (.index (.var 0) (.lit (.num .untyped 0))))
def lookup_s3 : Stmt :=
  (.ite (.bin .lt (.var 3) (.lit (.num .untyped 128))) (.ret (.pair (.table 0 (.var 3)) (.lit (.num .untyped 1)))) (.ite
    (.bin .lt (.var 3) (.lit (.num .untyped 194))) (.ret (.pair (.lit (.num .untyped 0)) (.lit (.num .untyped 1)))) (.ite
    (.bin .lt (.var 3) (.lit (.num .untyped 224))) (.seq (.ite (.bin .lt (.len (.var 0)) (.lit (.num .untyped 2))) (.ret
    (.pair (.lit (.num .untyped 0)) (.lit (.num .untyped 0)))) .skip) (.seq (.define [some 4] (.table 1 (.var 3))) (.seq
    (.define [some 5] (.index (.var 0) (.lit (.num .untyped 1)))) (.seq (.ite (.or (.bin .lt (.var 5) (.lit
    (.num .untyped 128))) (.bin .le (.lit (.num .untyped 192)) (.var 5))) (.ret (.pair (.lit (.num .untyped 0)) (.lit
    (.num .untyped 1)))) .skip) (.ret (.pair (.call 1 (.pair (.conv .uint32 (.var 4)) (.var 5))) (.lit
    (.num .untyped 2)))))))) (.ite (.bin .lt (.var 3) (.lit (.num .untyped 240))) (.seq (.ite (.bin .lt (.len (.var 0)) (.lit
    (.num .untyped 3))) (.ret (.pair (.lit (.num .untyped 0)) (.lit (.num .untyped 0)))) .skip) (.seq (.define [some 6]
    (.table 1 (.var 3))) (.seq (.define [some 7] (.index (.var 0) (.lit (.num .untyped 1)))) (.seq (.ite (.or (.bin .lt
    (.var 7) (.lit (.num .untyped 128))) (.bin .le (.lit (.num .untyped 192)) (.var 7))) (.ret (.pair (.lit (.num .untyped 0))
    (.lit (.num .untyped 1)))) .skip) (.seq (.define [some 8] (.bin .add (.bin .shl (.conv .uint32 (.var 6)) (.lit
    (.num .untyped 6))) (.conv .uint32 (.var 7)))) (.seq (.assign [some 6] (.table 1 (.var 8))) (.seq (.define [some 9]
    (.index (.var 0) (.lit (.num .untyped 2)))) (.seq (.ite (.or (.bin .lt (.var 9) (.lit (.num .untyped 128))) (.bin .le
    (.lit (.num .untyped 192)) (.var 9))) (.ret (.pair (.lit (.num .untyped 0)) (.lit (.num .untyped 2)))) .skip) (.ret (.pair
    (.call 1 (.pair (.conv .uint32 (.var 6)) (.var 9))) (.lit (.num .untyped 3)))))))))))) (.ite (.bin .lt (.var 3) (.lit
    (.num .untyped 248))) (.seq (.ite (.bin .lt (.len (.var 0)) (.lit (.num .untyped 4))) (.ret (.pair (.lit
    (.num .untyped 0)) (.lit (.num .untyped 0)))) .skip) (.seq (.define [some 10] (.table 1 (.var 3))) (.seq
    (.define [some 11] (.index (.var 0) (.lit (.num .untyped 1)))) (.seq (.ite (.or (.bin .lt (.var 11) (.lit
    (.num .untyped 128))) (.bin .le (.lit (.num .untyped 192)) (.var 11))) (.ret (.pair (.lit (.num .untyped 0)) (.lit
    (.num .untyped 1)))) .skip) (.seq (.define [some 12] (.bin .add (.bin .shl (.conv .uint32 (.var 10)) (.lit
    (.num .untyped 6))) (.conv .uint32 (.var 11)))) (.seq (.assign [some 10] (.table 1 (.var 12))) (.seq (.define [some 13]
    (.index (.var 0) (.lit (.num .untyped 2)))) (.seq (.ite (.or (.bin .lt (.var 13) (.lit (.num .untyped 128))) (.bin .le
    (.lit (.num .untyped 192)) (.var 13))) (.ret (.pair (.lit (.num .untyped 0)) (.lit (.num .untyped 2)))) .skip) (.seq
    (.assign [some 12] (.bin .add (.bin .shl (.conv .uint32 (.var 10)) (.lit (.num .untyped 6))) (.conv .uint32 (.var 13))))
    (.seq (.assign [some 10] (.table 1 (.var 12))) (.seq (.define [some 14] (.index (.var 0) (.lit (.num .untyped 3)))) (.seq
    (.ite (.or (.bin .lt (.var 14) (.lit (.num .untyped 128))) (.bin .le (.lit (.num .untyped 192)) (.var 14))) (.ret (.pair
    (.lit (.num .untyped 0)) (.lit (.num .untyped 3)))) .skip) (.ret (.pair (.call 1 (.pair (.conv .uint32 (.var 10))
    (.var 14))) (.lit (.num .untyped 4)))))))))))))))) .skip)))))
def lookup_s4 : Stmt :=
  (.ret (.pair (.lit (.num .untyped 0)) (.lit (.num .untyped 1))))
def lookup : Func :=
  ⟨false, [none], [some .uint32, some .int], 15,
   (.seq lookup_s0 (.seq lookup_s1 (.seq lookup_s2 (.seq lookup_s3 lookup_s4))))⟩

def lookupValue_s0 : Stmt :=
  (.ret (.conv .uint32 (.table 0 (.bin .add (.bin .shl (.var 0) (.lit (.num .untyped 6))) (.conv .uint32 (.var 1))))))
def lookupValue : Func :=
  ⟨false, [some .uint32, some .uint8], [some .uint32], 2,
   lookupValue_s0⟩

def mJoiners_s0 : Stmt :=
  (.invoke 0 18 (.method 7 (.var 1)))
def mJoiners : Func :=
  ⟨true, [none, none], [], 2,
   mJoiners_s0⟩

def runesContain_s0 : Stmt :=
  (.define [some 2] (.var 0))
def runesContain_s1 : Stmt :=
  (.define [some 3] (.lit (.num .untyped 0)))
def runesContain_s2 : Stmt :=
  (.define [some 4] (.index (.var 2) (.var 3)))
def runesContain_s3 : Stmt :=
  (.ite (.bin .eq (.var 4) (.var 1)) (.ret (.lit (.bool true))) .skip)
def runesContain_s4 : Stmt :=
  (.loop 1 (.bin .lt (.var 3) (.len (.var 2))) (.assign [some 3] (.bin .add (.var 3) (.lit (.num .untyped 1))))
    (.seq runesContain_s2 runesContain_s3))
def runesContain_s5 : Stmt :=
  (.seq runesContain_s0 (.seq runesContain_s1 runesContain_s4))
def runesContain_s6 : Stmt :=
  (.ret (.lit (.bool false)))
def runesContain : Func :=
  ⟨false, [none, some .int32], [none], 5,
   (.seq runesContain_s5 runesContain_s6)⟩

def mis_s0 : Stmt :=
  (.ret (.bin .ne (.bin .and (.var 0) (.var 1)) (.lit (.num .untyped 0))))
def mis : Func :=
  ⟨false, [some .uint32, some .uint32], [none], 2,
   mis_s0⟩

def decodeRune_s0 : Stmt :=
  (.define [some 1] (.var 0))
def decodeRune_s1 : Stmt :=
  (.byType (.ret (.decode (.var 1))) (.ret (.decode (.var 1))) (.ret (.decode (.text (.var 0)))))
def decodeRune : Func :=
  ⟨false, [none], [some .int32, some .int], 2,
   (.seq decodeRune_s0 decodeRune_s1)⟩

def splitFunc_s0 : Stmt :=
  (.define [some 2] (.lit (.num .int 0)))
def splitFunc_s1 : Stmt :=
  (.define [some 3] (.lit .nil))
def splitFunc_s2 : Stmt :=
  (.define [some 4] (.lit .nil))
def splitFunc_s3 : Stmt :=
  (.define [some 5] (.lit (.pair .nil (.pair .nil .nil))))
def splitFunc_s4 : Stmt :=
  (.ret (.call 7 (.pair (.var 5) (.pair (.var 0) (.var 1)))))
def splitFunc : Func :=
  ⟨false, [none, none], [some .int, none, none], 6,
   (.seq splitFunc_s0 (.seq splitFunc_s1 (.seq splitFunc_s2 (.seq splitFunc_s3 splitFunc_s4))))⟩

def msplitFunc_s0 : Stmt :=
  (.define [some 3] (.lit (.num .int 0)))
def msplitFunc_s1 : Stmt :=
  (.define [some 4] (.lit .nil))
def msplitFunc_s2 : Stmt :=
  (.define [some 5] (.lit .nil))
def msplitFunc_s3 : Stmt :=
  (.define [some 6] (.lit .nil))
def msplitFunc_s4 : Stmt :=
  (.ite (.bin .eq (.len (.var 1)) (.lit (.num .untyped 0))) (.ret (.pair (.lit (.num .untyped 0)) (.pair (.var 6)
    (.lit .nil)))) .skip)
def msplitFunc_s5 : Stmt :=
  (.define [some 7] (.lit (.num .int 0)))
def msplitFunc_s6 : Stmt :=
  (.define [some 8] (.lit (.num .uint32 0)))
def msplitFunc_s7 : Stmt :=
  (.define [some 9] (.lit (.num .uint32 0)))
def msplitFunc_s8 : Stmt :=
  (.define [some 10] (.lit (.num .int 0)))
def msplitFunc_s9 : Stmt :=
  (.define [some 11, some 12] (.call 0 (.drop (.var 1) (.var 7))))
def msplitFunc_s10 : Stmt :=
  (.ite (.bin .eq (.var 12) (.lit (.num .untyped 0))) (.seq (.ite (.not (.var 2)) (.ret (.pair (.lit (.num .untyped 0)) (.pair
    (.var 6) (.lit .nil)))) .skip) (.seq (.assign [some 7] (.len (.var 1))) (.ret (.pair (.var 7) (.pair (.take (.var 1)
    (.var 7)) (.lit .nil)))))) .skip)
def msplitFunc_s11 : Stmt :=
  (.ite (.and (.bin .ne (.var 0) (.lit .nil)) (.bin .ne (.field 1 (.var 0)) (.lit .nil))) (.seq (.define [some 13, none]
    (.call 5 (.drop (.var 1) (.var 7)))) (.ite (.call 3 (.pair (.field 1 (.var 0)) (.var 13))) (.assign [some 11] (.bin .or
    (.var 11) (.lit (.num .uint32 257)))) .skip)) .skip)
def msplitFunc_s12 : Stmt :=
  (.assign [some 7] (.bin .add (.var 7) (.var 12)))
def msplitFunc_s13 : Stmt :=
  (.define [some 14] (.bin .eq (.var 7) (.len (.var 1))))
def msplitFunc_s14 : Stmt :=
  (.ite (.var 14) (.seq (.ite (.not (.var 2)) (.ret (.pair (.lit (.num .untyped 0)) (.pair (.var 6) (.lit .nil)))) .skip)
    (.brk 0)) .skip)
def msplitFunc_s15 : Stmt :=
  (.define [some 15] (.var 11))
def msplitFunc_s16 : Stmt :=
  (.ite (.not (.call 4 (.pair (.var 15) (.lit (.num .uint32 524432))))) (.seq (.assign [some 9] (.var 8)) (.assign [some 8]
    (.var 15))) .skip)
def msplitFunc_s17 : Stmt :=
  (.assign [some 11, some 12] (.call 0 (.drop (.var 1) (.var 7))))
def msplitFunc_s18 : Stmt :=
  (.ite (.bin .eq (.var 12) (.lit (.num .untyped 0))) (.seq (.ite (.var 2) (.seq (.assign [some 7] (.len (.var 1)))
    (.brk 0)) .skip) (.ret (.pair (.lit (.num .untyped 0)) (.pair (.var 6) (.lit .nil))))) .skip)
def msplitFunc_s19 : Stmt :=
  (.ite (.and (.bin .ne (.var 0) (.lit .nil)) (.bin .ne (.field 0 (.var 0)) (.lit .nil))) (.seq (.define [some 16, none]
    (.call 5 (.drop (.var 1) (.var 7)))) (.ite (.call 3 (.pair (.field 0 (.var 0)) (.var 16))) (.assign [some 11] (.bin .or
    (.var 11) (.lit (.num .uint32 8192)))) .skip)) .skip)
def msplitFunc_s20 : Stmt :=
  (.ite (.and (.call 4 (.pair (.var 11) (.bin .or (.lit (.num .uint32 32768)) (.lit (.num .uint32 257))))) (.call 4 (.pair
    (.var 8) (.bin .or (.lit (.num .uint32 32768)) (.lit (.num .uint32 257)))))) (.seq (.assign [some 7] (.bin .add (.var 7)
    (.var 12))) (.cont 0)) .skip)
def msplitFunc_s21 : Stmt :=
  (.ite (.call 4 (.pair (.bin .and (.var 11) (.var 15)) (.lit (.num .uint32 262144)))) (.seq (.assign [some 7] (.bin .add
    (.var 7) (.var 12))) (.cont 0)) .skip)
def msplitFunc_s22 : Stmt :=
  (.ite (.and (.call 4 (.pair (.var 11) (.lit (.num .uint32 1024)))) (.call 4 (.pair (.var 15) (.lit (.num .uint32 4)))))
    (.seq (.assign [some 7] (.bin .add (.var 7) (.var 12))) (.cont 0)) .skip)
def msplitFunc_s23 : Stmt :=
  (.ite (.call 4 (.pair (.bin .or (.var 15) (.var 11)) (.bin .or (.bin .or (.lit (.num .uint32 16384)) (.lit
    (.num .uint32 4))) (.lit (.num .uint32 1024))))) (.brk 0) .skip)
def msplitFunc_s24 : Stmt :=
  (.ite (.and (.call 4 (.pair (.var 11) (.lit (.num .uint32 64)))) (.call 4 (.pair (.var 15) (.lit (.num .uint32 524288)))))
    (.seq (.assign [some 7] (.bin .add (.var 7) (.var 12))) (.cont 0)) .skip)
def msplitFunc_s25 : Stmt :=
  (.ite (.call 4 (.pair (.var 11) (.bin .or (.bin .or (.lit (.num .uint32 16)) (.lit (.num .uint32 128))) (.lit
    (.num .uint32 524288))))) (.seq (.assign [some 7] (.bin .add (.var 7) (.var 12))) (.cont 0)) .skip)
def msplitFunc_s26 : Stmt :=
  (.ite (.and (.call 4 (.pair (.var 11) (.bin .or (.lit (.num .uint32 2048)) (.lit (.num .uint32 139264))))) (.call 4 (.pair
    (.var 8) (.lit (.num .uint32 257))))) (.seq (.define [some 17, some 18] (.call 8 (.pair (.lit (.num .uint32 257)) (.pair
    (.drop (.var 1) (.bin .add (.var 7) (.var 12))) (.var 2))))) (.seq (.ite (.var 18) (.ret (.pair (.lit (.num .untyped 0))
    (.pair (.var 6) (.lit .nil)))) .skip) (.seq (.define [some 19] (.bin .ne (.var 17) (.lit (.num .untyped (-1))))) (.ite
    (.var 19) (.seq (.assign [some 7] (.bin .add (.var 7) (.bin .add (.var 12) (.var 17)))) (.cont 0)) .skip)))) .skip)
def msplitFunc_s27 : Stmt :=
  (.ite (.and (.and (.call 4 (.pair (.var 11) (.lit (.num .uint32 257)))) (.call 4 (.pair (.var 8) (.bin .or (.lit
    (.num .uint32 2048)) (.lit (.num .uint32 139264)))))) (.call 4 (.pair (.var 9) (.lit (.num .uint32 257))))) (.seq
    (.assign [some 7] (.bin .add (.var 7) (.var 12))) (.cont 0)) .skip)
def msplitFunc_s28 : Stmt :=
  (.ite (.and (.call 4 (.pair (.var 11) (.lit (.num .uint32 131072)))) (.call 4 (.pair (.var 8) (.lit (.num .uint32 256)))))
    (.seq (.assign [some 7] (.bin .add (.var 7) (.var 12))) (.cont 0)) .skip)
def msplitFunc_s29 : Stmt :=
  (.ite (.and (.call 4 (.pair (.var 11) (.lit (.num .uint32 8)))) (.call 4 (.pair (.var 8) (.lit (.num .uint32 256))))) (.seq
    (.define [some 20, some 21] (.call 8 (.pair (.lit (.num .uint32 256)) (.pair (.drop (.var 1) (.bin .add (.var 7)
    (.var 12))) (.var 2))))) (.seq (.ite (.var 21) (.ret (.pair (.lit (.num .untyped 0)) (.pair (.var 6) (.lit .nil)))) .skip)
    (.seq (.define [some 22] (.bin .ne (.var 20) (.lit (.num .untyped (-1))))) (.ite (.var 22) (.seq (.assign [some 7]
    (.bin .add (.var 7) (.bin .add (.var 12) (.var 20)))) (.cont 0)) .skip)))) .skip)
def msplitFunc_s30 : Stmt :=
  (.ite (.and (.and (.call 4 (.pair (.var 11) (.lit (.num .uint32 256)))) (.call 4 (.pair (.var 8) (.lit (.num .uint32 8)))))
    (.call 4 (.pair (.var 9) (.lit (.num .uint32 256))))) (.seq (.assign [some 7] (.bin .add (.var 7) (.var 12)))
    (.cont 0)) .skip)
def msplitFunc_s31 : Stmt :=
  (.ite (.and (.and (.call 4 (.pair (.var 11) (.lit (.num .uint32 32768)))) (.call 4 (.pair (.var 8) (.bin .or (.lit
    (.num .uint32 4096)) (.lit (.num .uint32 139264)))))) (.call 4 (.pair (.var 9) (.lit (.num .uint32 32768))))) (.seq
    (.assign [some 7] (.bin .add (.var 7) (.var 12))) (.cont 0)) .skip)
def msplitFunc_s32 : Stmt :=
  (.ite (.and (.call 4 (.pair (.var 11) (.bin .or (.lit (.num .uint32 4096)) (.lit (.num .uint32 139264))))) (.call 4 (.pair
    (.var 8) (.lit (.num .uint32 32768))))) (.seq (.define [some 23, some 24] (.call 8 (.pair (.lit (.num .uint32 32768))
    (.pair (.drop (.var 1) (.bin .add (.var 7) (.var 12))) (.var 2))))) (.seq (.ite (.var 24) (.ret (.pair (.lit
    (.num .untyped 0)) (.pair (.var 6) (.lit .nil)))) .skip) (.ite (.bin .ne (.var 23) (.lit (.num .untyped (-1)))) (.seq
    (.assign [some 7] (.bin .add (.var 7) (.bin .add (.var 12) (.var 23)))) (.cont 0)) .skip))) .skip)
def msplitFunc_s33 : Stmt :=
  (.ite (.and (.call 4 (.pair (.var 11) (.lit (.num .uint32 512)))) (.call 4 (.pair (.var 8) (.lit (.num .uint32 512)))))
    (.seq (.assign [some 7] (.bin .add (.var 7) (.var 12))) (.cont 0)) .skip)
def msplitFunc_s34 : Stmt :=
  (.ite (.and (.call 4 (.pair (.var 11) (.lit (.num .uint32 32)))) (.call 4 (.pair (.var 8) (.bin .or (.bin .or (.bin .or
    (.lit (.num .uint32 257)) (.lit (.num .uint32 32768))) (.lit (.num .uint32 512))) (.lit (.num .uint32 32)))))) (.seq
    (.assign [some 7] (.bin .add (.var 7) (.var 12))) (.cont 0)) .skip)
def msplitFunc_s35 : Stmt :=
  (.ite (.and (.call 4 (.pair (.var 11) (.bin .or (.bin .or (.lit (.num .uint32 257)) (.lit (.num .uint32 32768))) (.lit
    (.num .uint32 512))))) (.call 4 (.pair (.var 8) (.lit (.num .uint32 32))))) (.seq (.assign [some 7] (.bin .add (.var 7)
    (.var 12))) (.cont 0)) .skip)
def msplitFunc_s36 : Stmt :=
  (.ite (.and (.call 4 (.pair (.var 11) (.lit (.num .uint32 65536)))) (.call 4 (.pair (.var 8) (.lit (.num .uint32 65536)))))
    (.seq (.assign [some 10] (.bin .add (.var 10) (.lit (.num .untyped 1)))) (.seq (.define [some 25] (.bin .eq (.bin .rem
    (.var 10) (.lit (.num .untyped 2))) (.lit (.num .untyped 1)))) (.ite (.var 25) (.seq (.assign [some 7] (.bin .add (.var 7)
    (.var 12))) (.cont 0)) .skip))) .skip)
def msplitFunc_s37 : Stmt :=
  (.loop 1 (.lit (.bool true)) .skip (.seq msplitFunc_s13 (.seq msplitFunc_s14 (.seq msplitFunc_s15 (.seq msplitFunc_s16
    (.seq msplitFunc_s17 (.seq msplitFunc_s18 (.seq msplitFunc_s19 (.seq msplitFunc_s20 (.seq msplitFunc_s21
    (.seq msplitFunc_s22 (.seq msplitFunc_s23 (.seq msplitFunc_s24 (.seq msplitFunc_s25 (.seq msplitFunc_s26
    (.seq msplitFunc_s27 (.seq msplitFunc_s28 (.seq msplitFunc_s29 (.seq msplitFunc_s30 (.seq msplitFunc_s31
    (.seq msplitFunc_s32 (.seq msplitFunc_s33 (.seq msplitFunc_s34 (.seq msplitFunc_s35 (.seq msplitFunc_s36
    (.brk 0))))))))))))))))))))))))))
def msplitFunc_s38 : Stmt :=
  (.ret (.pair (.var 7) (.pair (.take (.var 1) (.var 7)) (.lit .nil))))
def msplitFunc : Func :=
  ⟨true, [none, none, none], [some .int, none, none], 26,
   (.seq msplitFunc_s0 (.seq msplitFunc_s1 (.seq msplitFunc_s2 (.seq msplitFunc_s3 (.seq msplitFunc_s4 (.seq msplitFunc_s5
    (.seq msplitFunc_s6 (.seq msplitFunc_s7 (.seq msplitFunc_s8 (.seq msplitFunc_s9 (.seq msplitFunc_s10 (.seq msplitFunc_s11
    (.seq msplitFunc_s12 (.seq msplitFunc_s37 msplitFunc_s38))))))))))))))⟩

def subsequent_s0 : Stmt :=
  (.define [some 3] (.lit (.num .int 0)))
def subsequent_s1 : Stmt :=
  (.define [some 4] (.lit (.bool false)))
def subsequent_s2 : Stmt :=
  (.define [some 5] (.lit (.num .untyped 0)))
def subsequent_s3 : Stmt :=
  (.define [some 6, some 7] (.call 0 (.drop (.var 1) (.var 5))))
def subsequent_s4 : Stmt :=
  (.ite (.bin .eq (.var 7) (.lit (.num .untyped 0))) (.seq (.ite (.var 2) (.ret (.pair (.lit (.num .untyped (-1))) (.lit
    (.bool false)))) .skip) (.ret (.pair (.lit (.num .untyped (-1))) (.lit (.bool true))))) .skip)
def subsequent_s5 : Stmt :=
  (.ite (.call 4 (.pair (.var 6) (.lit (.num .uint32 524432)))) (.seq (.assign [some 5] (.bin .add (.var 5) (.var 7)))
    (.cont 0)) .skip)
def subsequent_s6 : Stmt :=
  (.ite (.call 4 (.pair (.var 6) (.var 0))) (.ret (.pair (.var 5) (.lit (.bool false)))) .skip)
def subsequent_s7 : Stmt :=
  (.ret (.pair (.lit (.num .untyped (-1))) (.lit (.bool false))))
def subsequent_s8 : Stmt :=
  (.loop 1 (.bin .lt (.var 5) (.len (.var 1))) .skip (.seq subsequent_s3 (.seq subsequent_s4 (.seq subsequent_s5
    (.seq subsequent_s6 subsequent_s7)))))
def subsequent_s9 : Stmt :=
  (.ite (.var 2) (.ret (.pair (.lit (.num .untyped (-1))) (.lit (.bool false)))) .skip)
def subsequent_s10 : Stmt :=
  (.ret (.pair (.lit (.num .untyped (-1))) (.lit (.bool true))))
def subsequent : Func :=
  ⟨false, [some .uint32, none, none], [some .int, none], 8,
   (.seq subsequent_s0 (.seq subsequent_s1 (.seq subsequent_s2 (.seq subsequent_s8 (.seq subsequent_s9 subsequent_s10)))))⟩

def FromString_s0 : Stmt :=
  (.ret (.pair (.lit (.fn 6)) (.pair (.var 0) (.pair (.lit (.num .int 0)) (.pair (.lit (.num .int 0)) (.lit .nil))))))
def FromString : Func :=
  ⟨false, [none], [none], 1,
   FromString_s0⟩

def FromBytes_s0 : Stmt :=
  (.ret (.pair (.lit (.fn 6)) (.pair (.var 0) (.pair (.lit (.num .int 0)) (.pair (.lit (.num .int 0)) (.lit .nil))))))
def FromBytes : Func :=
  ⟨false, [none], [none], 1,
   FromBytes_s0⟩

def isASCIIAlphanumeric_s0 : Stmt :=
  (.ret (.or (.or (.and (.bin .ge (.var 0) (.lit (.num .untyped 97))) (.bin .le (.var 0) (.lit (.num .untyped 122)))) (.and
    (.bin .ge (.var 0) (.lit (.num .untyped 65))) (.bin .le (.var 0) (.lit (.num .untyped 90))))) (.and (.bin .ge (.var 0)
    (.lit (.num .untyped 48))) (.bin .le (.var 0) (.lit (.num .untyped 57))))))
def isASCIIAlphanumeric : Func :=
  ⟨false, [some .uint8], [none], 1,
   isASCIIAlphanumeric_s0⟩

def mNext_s0 : Stmt :=
  (.ite (.bin .ge (.field 2 (.var 0)) (.len (.field 1 (.var 0)))) (.ret (.lit (.bool false))) .skip)
def mNext_s1 : Stmt :=
  (.setField 0 3 (.field 2 (.var 0)))
def mNext_s2 : Stmt :=
  (.define [some 1] (.index (.field 1 (.var 0)) (.field 2 (.var 0))))
def mNext_s3 : Stmt :=
  (.assign [some 2] (.bin .add (.var 2) (.lit (.num .untyped 1))))
def mNext_s4 : Stmt :=
  (.loop 1 (.and (.bin .lt (.var 2) (.len (.field 1 (.var 0)))) (.call 11 (.index (.field 1 (.var 0))
    (.var 2)))) .skip mNext_s3)
def mNext_s5 : Stmt :=
  (.ite (.call 11 (.var 1)) (.seq (.define [some 2] (.bin .add (.field 2 (.var 0)) (.lit (.num .untyped 1)))) (.seq mNext_s4
    (.ite (.or (.bin .ge (.var 2) (.len (.field 1 (.var 0)))) (.bin .eq (.index (.field 1 (.var 0)) (.var 2)) (.lit
    (.num .untyped 32)))) (.seq (.setField 0 2 (.var 2)) (.ret (.lit (.bool true)))) .skip))) .skip)
def mNext_s6 : Stmt :=
  (.define [some 3] (.drop (.field 1 (.var 0)) (.field 2 (.var 0))))
def mNext_s7 : Stmt :=
  (.define [some 4, none, some 5] (.apply (.field 0 (.var 0)) (.pair (.var 3) (.lit (.bool true)))))
def mNext_s8 : Stmt :=
  (.ite (.bin .ne (.var 5) (.lit .nil)) (.panic (.var 5)) .skip)
def mNext_s9 : Stmt :=
  (.ite (.bin .le (.var 4) (.lit (.num .untyped 0))) (.panic (.lit (.str
    (chars "splitFunc returned a zero or negative advance")))) .skip)
def mNext_s10 : Stmt :=
  (.setField 0 2 (.bin .add (.field 2 (.var 0)) (.var 4)))
def mNext_s11 : Stmt :=
  (.ite (.bin .gt (.field 2 (.var 0)) (.len (.field 1 (.var 0)))) (.panic (.lit (.str
    (chars "splitFunc advanced beyond end of data")))) .skip)
def mNext_s12 : Stmt :=
  (.ret (.lit (.bool true)))
def mNext : Func :=
  ⟨true, [none], [none], 6,
   (.seq mNext_s0 (.seq mNext_s1 (.seq mNext_s2 (.seq mNext_s5 (.seq mNext_s6 (.seq mNext_s7 (.seq mNext_s8 (.seq mNext_s9
    (.seq mNext_s10 (.seq mNext_s11 mNext_s12))))))))))⟩

def mValue_s0 : Stmt :=
  (.ret (.slice (.field 1 (.var 0)) (.field 3 (.var 0)) (.field 2 (.var 0))))
def mValue : Func :=
  ⟨true, [none], [none], 1,
   mValue_s0⟩

def mStart_s0 : Stmt :=
  (.ret (.field 3 (.var 0)))
def mStart : Func :=
  ⟨true, [none], [some .int], 1,
   mStart_s0⟩

def mEnd_s0 : Stmt :=
  (.ret (.field 2 (.var 0)))
def mEnd : Func :=
  ⟨true, [none], [some .int], 1,
   mEnd_s0⟩

def mReset_s0 : Stmt :=
  (.setField 0 3 (.lit (.num .untyped 0)))
def mReset_s1 : Stmt :=
  (.setField 0 2 (.lit (.num .untyped 0)))
def mReset : Func :=
  ⟨true, [none], [], 1,
   (.seq mReset_s0 mReset_s1)⟩

def mSetText_s0 : Stmt :=
  (.setField 0 1 (.var 1))
def mSetText_s1 : Stmt :=
  (.setField 0 3 (.lit (.num .untyped 0)))
def mSetText_s2 : Stmt :=
  (.setField 0 2 (.lit (.num .untyped 0)))
def mSetText : Func :=
  ⟨true, [none, none], [], 2,
   (.seq mSetText_s0 (.seq mSetText_s1 mSetText_s2))⟩

def mSplit_s0 : Stmt :=
  (.setField 0 0 (.var 1))
def mSplit : Func :=
  ⟨true, [none, none], [], 2,
   mSplit_s0⟩

def mFirst_s0 : Stmt :=
  (.ite (.bin .eq (.len (.field 1 (.var 0))) (.lit (.num .untyped 0))) (.ret (.field 1 (.var 0))) .skip)
def mFirst_s1 : Stmt :=
  (.define [some 1] (.var 0))
def mFirst_s2 : Stmt :=
  (.setField 1 2 (.lit (.num .untyped 0)))
def mFirst_s3 : Stmt :=
  (.setField 1 3 (.lit (.num .untyped 0)))
def mFirst_s4 : Stmt :=
  (.invoke 1 12 (.lit .nil))
def mFirst_s5 : Stmt :=
  (.ret (.call 13 (.var 1)))
def mFirst : Func :=
  ⟨true, [none], [none], 2,
   (.seq mFirst_s0 (.seq mFirst_s1 (.seq mFirst_s2 (.seq mFirst_s3 (.seq mFirst_s4 mFirst_s5)))))⟩

def BleveNumeric_s0 : Stmt :=
  (.define [some 1] (.lit (.num .int 0)))
def BleveNumeric_s1 : Stmt :=
  (.define [some 2] (.lit (.num .int 0)))
def BleveNumeric_s2 : Stmt :=
  (.seq BleveNumeric_s0 BleveNumeric_s1)
def BleveNumeric_s3 : Stmt :=
  (.define [some 3] (.lit (.num .uint32 0)))
def BleveNumeric_s4 : Stmt :=
  (.define [some 4] (.lit (.num .uint32 0)))
def BleveNumeric_s5 : Stmt :=
  (.define [some 5] (.lit (.num .uint32 0)))
def BleveNumeric_s6 : Stmt :=
  (.define [some 6] (.var 3))
def BleveNumeric_s7 : Stmt :=
  (.ite (.not (.call 4 (.pair (.var 6) (.lit (.num .uint32 524432))))) (.seq (.assign [some 5] (.var 4)) (.assign [some 4]
    (.var 6))) .skip)
def BleveNumeric_s8 : Stmt :=
  (.assign [some 3, some 2] (.call 0 (.drop (.var 0) (.var 1))))
def BleveNumeric_s9 : Stmt :=
  (.ite (.bin .eq (.var 1) (.lit (.num .untyped 0))) (.seq (.ite (.call 4 (.pair (.var 3) (.bin .or (.lit
    (.num .uint32 32768)) (.lit (.num .uint32 32))))) (.seq (.assign [some 1] (.bin .add (.var 1) (.var 2))) (.cont 0)) .skip)
    (.ret (.lit (.bool false)))) .skip)
def BleveNumeric_s10 : Stmt :=
  (.ite (.and (.call 4 (.pair (.var 6) (.lit (.num .uint32 32768)))) (.call 4 (.pair (.var 3) (.lit (.num .uint32 32768)))))
    (.seq (.assign [some 1] (.bin .add (.var 1) (.var 2))) (.cont 0)) .skip)
def BleveNumeric_s11 : Stmt :=
  (.ite (.and (.and (.call 4 (.pair (.var 3) (.lit (.num .uint32 32768)))) (.call 4 (.pair (.var 4) (.bin .or (.lit
    (.num .uint32 4096)) (.lit (.num .uint32 139264)))))) (.call 4 (.pair (.var 5) (.lit (.num .uint32 32768))))) (.seq
    (.assign [some 1] (.bin .add (.var 1) (.var 2))) (.cont 0)) .skip)
def BleveNumeric_s12 : Stmt :=
  (.ite (.and (.call 4 (.pair (.var 3) (.bin .or (.lit (.num .uint32 4096)) (.lit (.num .uint32 139264))))) (.call 4 (.pair
    (.var 4) (.lit (.num .uint32 32768))))) (.seq (.define [some 7, none] (.call 8 (.pair (.lit (.num .uint32 32768)) (.pair
    (.drop (.var 0) (.bin .add (.var 1) (.var 2))) (.lit (.bool true)))))) (.ite (.bin .ne (.var 7) (.lit (.num .untyped
    (-1)))) (.seq (.assign [some 1] (.bin .add (.var 1) (.bin .add (.var 2) (.var 7)))) (.cont 0)) .skip)) .skip)
def BleveNumeric_s13 : Stmt :=
  (.ite (.and (.call 4 (.pair (.var 3) (.lit (.num .uint32 32)))) (.call 4 (.pair (.var 4) (.bin .or (.lit
    (.num .uint32 32768)) (.lit (.num .uint32 32)))))) (.seq (.assign [some 1] (.bin .add (.var 1) (.var 2))) (.cont 0)) .skip)
def BleveNumeric_s14 : Stmt :=
  (.ite (.and (.call 4 (.pair (.var 3) (.lit (.num .uint32 32768)))) (.call 4 (.pair (.var 4) (.lit (.num .uint32 32)))))
    (.seq (.assign [some 1] (.bin .add (.var 1) (.var 2))) (.cont 0)) .skip)
def BleveNumeric_s15 : Stmt :=
  (.ret (.lit (.bool false)))
def BleveNumeric_s16 : Stmt :=
  (.loop 1 (.bin .lt (.var 1) (.len (.var 0))) .skip (.seq BleveNumeric_s6 (.seq BleveNumeric_s7 (.seq BleveNumeric_s8
    (.seq BleveNumeric_s9 (.seq BleveNumeric_s10 (.seq BleveNumeric_s11 (.seq BleveNumeric_s12 (.seq BleveNumeric_s13
    (.seq BleveNumeric_s14 BleveNumeric_s15))))))))))
def BleveNumeric_s17 : Stmt :=
  (.ret (.lit (.bool true)))
def BleveNumeric : Func :=
  ⟨false, [none], [none], 8,
   (.seq BleveNumeric_s2 (.seq BleveNumeric_s3 (.seq BleveNumeric_s4 (.seq BleveNumeric_s5
    (.seq BleveNumeric_s16 BleveNumeric_s17)))))⟩

def BleveIdeographic_s0 : Stmt :=
  (.define [some 1] (.lit (.num .int 0)))
def BleveIdeographic_s1 : Stmt :=
  (.define [some 2, some 3] (.call 0 (.drop (.var 0) (.var 1))))
def BleveIdeographic_s2 : Stmt :=
  (.ite (.bin .eq (.var 1) (.lit (.num .untyped 0))) (.seq (.ite (.call 4 (.pair (.var 2) (.lit (.num .uint32 2)))) (.seq
    (.assign [some 1] (.bin .add (.var 1) (.var 3))) (.cont 0)) .skip) (.ret (.lit (.bool false)))) .skip)
def BleveIdeographic_s3 : Stmt :=
  (.ite (.call 4 (.pair (.var 2) (.bin .or (.bin .or (.lit (.num .uint32 2)) (.lit (.num .uint32 32))) (.lit
    (.num .uint32 524432))))) (.seq (.assign [some 1] (.bin .add (.var 1) (.var 3))) (.cont 0)) .skip)
def BleveIdeographic_s4 : Stmt :=
  (.ret (.lit (.bool false)))
def BleveIdeographic_s5 : Stmt :=
  (.loop 1 (.bin .lt (.var 1) (.len (.var 0))) .skip (.seq BleveIdeographic_s1 (.seq BleveIdeographic_s2
    (.seq BleveIdeographic_s3 BleveIdeographic_s4))))
def BleveIdeographic_s6 : Stmt :=
  (.ret (.lit (.bool true)))
def BleveIdeographic : Func :=
  ⟨false, [none], [none], 4,
   (.seq BleveIdeographic_s0 (.seq BleveIdeographic_s5 BleveIdeographic_s6))⟩

def FromReader_s0 : Stmt :=
  (.define [some 1] (.pair (.var 0) (.pair (.lit .nil) (.lit .nil))))
def FromReader_s1 : Stmt :=
  (.setField 1 1 (.lit (.fn 6)))
def FromReader_s2 : Stmt :=
  (.ret (.pair (.var 1) (.lit .nil)))
def FromReader : Func :=
  ⟨false, [none], [none], 2,
   (.seq FromReader_s0 (.seq FromReader_s1 FromReader_s2))⟩

def mScanner_Joiners_s0 : Stmt :=
  (.define [some 2] (.field 0 (.var 0)))
def mScanner_Joiners_s1 : Stmt :=
  (.setField 2 1 (.method 7 (.var 1)))
def mScanner_Joiners_s2 : Stmt :=
  (.setField 0 0 (.var 2))
def mScanner_Joiners : Func :=
  ⟨true, [none, none], [], 3,
   (.seq mScanner_Joiners_s0 (.seq mScanner_Joiners_s1 mScanner_Joiners_s2))⟩

def program : Program :=
  ⟨[chars "lookup", chars "lookupValue", chars ".Joiners", chars "runesContain", chars ".is", chars "decodeRune",
    chars "splitFunc", chars ".splitFunc", chars "subsequent", chars "FromString", chars "FromBytes",
    chars "isASCIIAlphanumeric", chars ".Next", chars ".Value", chars ".Start", chars ".End", chars ".Reset", chars ".SetText",
    chars ".Split", chars ".First", chars "BleveNumeric", chars "BleveIdeographic", chars "FromReader",
    chars ".Scanner.Joiners"],
   [some lookup, some lookupValue, some mJoiners, some runesContain, some mis, some decodeRune, some splitFunc,
    some msplitFunc, some subsequent, some FromString, some FromBytes, some isASCIIAlphanumeric, some mNext, some mValue,
    some mStart, some mEnd, some mReset, some mSetText, some mSplit, some mFirst, some BleveNumeric, some BleveIdeographic,
    some FromReader, some mScanner_Joiners],
   [(chars "Scanner", [chars "Scanner"]), (chars "Iterator", [chars "split", chars "data", chars "pos", chars "start"]),
    (chars "Joiners", [chars "Middle", chars "Leading"])],
   [(chars "splitFuncString", 6), (chars "splitFuncBytes", 6), (chars "SplitFunc", 6)]⟩
/-- words/trie.go without the entries of its tables, then words/joiners.go, words/splitfunc.go, words/seek.go, words/iterator.go, words/bleve_compat.go, words/reader.go. -/
def files : List (List Char) :=
  [Text.headChars ++ (Text.midChars ++ Text.tailChars), Text.joiners, Text.splitfunc, Text.seek, Text.iterator, Text.bleve_compat, Text.reader].map textOf
theorem read_eq : read files = some program := by
  kernel_rfl
end Uax29.Words.Code
