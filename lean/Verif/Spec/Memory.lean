import Verif.Model.Memory
import Verif.Spec.Iteration
/-! # Specification of programs with an iterator over a slice -/
namespace Uax29.Spec

/-- The slice an iterator works on after a program: the argument of the last `SetText`, or the first one. -/
def sliceAfter {p : Pkg} (s : Slice) : List (SliceOp p) → Slice
  | [] => s
  | .setText s' :: ops => sliceAfter s' ops
  | _ :: ops => sliceAfter s ops

/-- The configuration after a program: the last one set, or `c`. -/
def sliceConfigAfter {p : Pkg} (c : Option (Config p)) : List (SliceOp p) → Option (Config p)
  | [] => c
  | .config c' :: ops => sliceConfigAfter (some c') ops
  | _ :: ops => sliceConfigAfter c ops

/-- Memory after a program: the last store counts, calls change nothing. -/
def memoryAfter {p : Pkg} (m : Memory) : List (SliceOp p) → Memory
  | [] => m
  | .store arr i b :: ops => memoryAfter (fun a k => if a = arr ∧ k = i then b else m a k) ops
  | _ :: ops => memoryAfter m ops

/-- No slice is longer than its capacity: so it is in Go. -/
def Fits {p : Pkg} (ops : List (SliceOp p)) : Prop := ∀ s, .setText s ∈ ops → s.len ≤ s.cap

/-- Bytes `a` to `b` of the slice, as a view of the same array: the capacity reaches to the end of the slice's. -/
def part (s : Slice) (a b : Nat) : Slice := ⟨s.arr, s.off + a, b - a, s.cap - a⟩

/-- The byte `i` of array `arr` is in the slice, at position `n` or later. -/
def Ahead (s : Slice) (n arr i : Nat) : Prop := arr = s.arr ∧ s.off + n ≤ i ∧ i < s.off + s.len

/-- Calls that go on in the text; `First`, `Reset` and `SetText` look at other parts of it. -/
def Forward {p : Pkg} : SliceOp p → Prop
  | .next | .value | .start | .end | .config _ | .store .. => True
  | .first | .reset | .setText _ => False

/-- A program without its stores. -/
def withoutStores {p : Pkg} : List (SliceOp p) → List (SliceOp p)
  | [] => []
  | .store .. :: ops => withoutStores ops
  | op :: ops => op :: withoutStores ops

/-- The stores of `ops` hit no byte of the text at or after the `End` of the token at that moment. -/
def StoresBehind {p : Pkg} (m : Memory) (it : SliceIter p) : List (SliceOp p) → Prop
  | [] => True
  | op :: ops =>
    (match op with
      | .store arr i _ => ¬ Ahead it.data it.pos arr i
      | _ => True) ∧ StoresBehind (op.run m it).1 (op.run m it).2.1 ops

/-- `t` with its front replaced by `x`, or by as much of `x` as there is room for. -/
def overlay (t x : Bytes) : Bytes := x.take t.length ++ t.drop x.length

/-- What is seen of a call on a list of bytes, if the slice that is seen is read in memory `m`. -/
def SliceObs.read (m : Memory) : SliceObs → Obs
  | .unit => .unit
  | .bool b => .bool b
  | .nat n => .nat n
  | .slice s => .bytes ((List.range s.len).map fun i => m s.arr (s.off + i))
  | .fault f => .fault f

/-- The call on a list of bytes that belongs to a call on a slice, with the bytes of memory `m`. -/
def SliceOp.toOp {p : Pkg} (m : Memory) : SliceOp p → Option (Op p)
  | .next => some .next
  | .value => some .value
  | .start => some .start
  | .end => some .end
  | .first => some .first
  | .reset => some .reset
  | .setText s => some (.setText ((List.range s.len).map fun i => m s.arr (s.off + i)))
  | .config c => some (.config c)
  | .store .. => none

end Uax29.Spec
