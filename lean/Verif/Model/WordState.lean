/-! # The local variables of the split functions of words and phrases -/
namespace Uax29

/-- The variables of `splitFunc` that live across loop passes — words/splitfunc.go:47-56 and
phrases/splitfunc.go:28-37, which declare the same ones. -/
structure WordState where
  pos : Nat
  current : Nat
  lastExIgnore : Nat
  lastLastExIgnore : Nat
  regionalIndicatorCount : Nat
  deriving DecidableEq, Repr

end Uax29
