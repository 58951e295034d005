import Verif.Spec.Text
/-! # Specification: a text that is tokenized by several workers -/
namespace Uax29.Spec

/-- A worker gets one part of the text and the first `k` tokens of the next part, and tokenizes them together. -/
def worker (T : Bytes → List Bytes) (k : Nat) (part : Bytes) : List Bytes → List Bytes
  | [] => T part
  | next :: _ => T (part ++ ((T next).take k).flatten)

/-- What the workers yield after the first: each leaves out its first `k` tokens, as the worker before has these bytes. -/
def followers (T : Bytes → List Bytes) (k : Nat) : List Bytes → List Bytes
  | [] => []
  | part :: parts => (worker T k part parts).drop k ++ followers T k parts

/-- What the workers yield for the parts of a text, one after the other. -/
def inParallel (T : Bytes → List Bytes) (k : Nat) : List Bytes → List Bytes
  | [] => []
  | part :: parts => worker T k part parts ++ followers T k parts

end Uax29.Spec
