import Verif.Model.History
/-!
# Iterators over byte slices in memory

The other files take a text to be a list of bytes. An iterator from `FromBytes` holds a slice: a view of an
array that the caller can change between the calls. Here are the arrays, slices with their capacity, and the
iterators over them. Calls read the arrays and never assign to an element, so that only the caller changes
memory.
-/
namespace Uax29

/-- The arrays behind slices: the byte at an index of an array. Arrays have numbers in place of addresses. -/
abbrev Memory := Nat → Nat → UInt8

/-- A store `a[i] = b`. -/
def Memory.store (m : Memory) (arr i : Nat) (b : UInt8) : Memory :=
  fun a k => if a = arr ∧ k = i then b else m a k

/-- A Go value of type `[]byte`: the array, where the slice begins in it, its length and its capacity. -/
structure Slice where
  arr : Nat
  off : Nat
  len : Nat
  cap : Nat
  deriving DecidableEq, Repr

/-- The bytes of a slice. -/
def Slice.bytes (m : Memory) (s : Slice) : Bytes := (List.range s.len).map fun i => m s.arr (s.off + i)

/-- The slice expression `s[i:j]`. For a slice the bound is the capacity, not the length (Go spec, "Slice
expressions"). -/
def Slice.sub (s : Slice) (i j : Nat) : Res Slice :=
  if i ≤ j ∧ j ≤ s.cap then .ok ⟨s.arr, s.off + i, j - i, s.cap - i⟩ else .error .bounds

/-- `copy(s, src)`: as many bytes as there are in both. -/
def Slice.copy (m : Memory) (s : Slice) (src : Bytes) : Memory := fun a k =>
  if a = s.arr ∧ s.off ≤ k ∧ k < s.off + s.len then (src[k - s.off]?).getD (m a k) else m a k

/-- `append(s, src...)`: in place if the capacity allows it, otherwise in the array `new`, which the rest of the
program does not have. -/
def Slice.append (m : Memory) (s : Slice) (src : Bytes) (new : Nat) : Memory × Slice :=
  if s.len + src.length ≤ s.cap then
    let r : Slice := ⟨s.arr, s.off, s.len + src.length, s.cap⟩
    (Slice.copy m ⟨s.arr, s.off + s.len, src.length, src.length⟩ src, r)
  else
    let r : Slice := ⟨new, 0, s.len + src.length, s.len + src.length⟩
    (Slice.copy m r (s.bytes m ++ src), r)

/-- An iterator of package `p` over a slice — graphemes/iterator.go:25-41, words/iterator.go:5-10,
phrases/iterator.go:22-27, sentences/iterator.go:22-27, with `T` = `[]byte`. `opts` is used by graphemes
only. -/
structure SliceIter (p : Pkg) where
  split : SplitFn
  data : Slice
  pos : Nat
  start : Nat
  opts : Graphemes.Options

namespace SliceIter

/-- The iterator with the bytes that are in memory now. -/
def view {p : Pkg} (m : Memory) (it : SliceIter p) : Iterator p :=
  ⟨⟨it.split, it.data.bytes m, it.pos, it.start⟩, it.opts⟩

/-- The fields after a call that the view has made; none of the calls here changes `data`. -/
def after {p : Pkg} (it : SliceIter p) (v : Iterator p) : SliceIter p :=
  ⟨v.iter.split, it.data, v.iter.pos, v.iter.start, v.opts⟩

/-- `FromBytes` — graphemes/iterator.go:16-21, words/iterator.go:28-33, phrases/iterator.go:14-19,
sentences/iterator.go:14-19. The slice is stored, the bytes are not copied. -/
def fromBytes (p : Pkg) (s : Slice) : SliceIter p :=
  ⟨(Iterator.fromBytes p []).iter.split, s, 0, 0, (Iterator.fromBytes p []).opts⟩

/-- `Next` — graphemes/iterator.go:60-102, words/iterator.go:42-79, phrases/iterator.go:41-77,
sentences/iterator.go:41-77. -/
def next {p : Pkg} (m : Memory) (it : SliceIter p) : SliceIter p × NextOut :=
  (it.after (it.view m).next.1, (it.view m).next.2)

/-- `Value`: `iter.data[iter.start:iter.pos]` — graphemes/iterator.go:105-107, words/iterator.go:82-84,
phrases/iterator.go:80-82, sentences/iterator.go:80-82. -/
def value {p : Pkg} (it : SliceIter p) : Res Slice := it.data.sub it.start it.pos

/-- `First` — graphemes/iterator.go:133-144, words/iterator.go:115-126, phrases/iterator.go:108-119,
sentences/iterator.go:108-119. -/
def first {p : Pkg} (m : Memory) (it : SliceIter p) : Res Slice :=
  if it.data.len = 0 then .ok it.data
  else
    match next m ({ it with pos := 0, start := 0 } : SliceIter p) with
    | (_, .fault f) => .error f
    | (cp, .ret _) => cp.value

/-- `Split` of package words — words/iterator.go:110-112. -/
def setSplit (it : SliceIter .words) (split : SplitFn) : SliceIter .words := { it with split }

end SliceIter

/-- What a program can do with an iterator over a slice: the calls, and stores into arrays. -/
inductive SliceOp (p : Pkg) where
  | next
  | value
  | start
  | «end»
  | first
  | reset
  | setText (s : Slice)
  | config (c : Config p)
  | store (arr i : Nat) (b : UInt8)

/-- What the caller sees of a call; nothing of a store. -/
inductive SliceObs where
  | unit
  | bool (b : Bool)
  | nat (n : Nat)
  | slice (s : Slice)
  | fault (f : Fault)
  deriving DecidableEq, Repr

/-- The slice or the fault of a call. -/
def SliceObs.ofRes : Res Slice → SliceObs
  | .ok s => .slice s
  | .error f => .fault f

/-- One step of a program: memory, the iterator after it and what the caller sees. -/
def SliceOp.run {p : Pkg} (m : Memory) (it : SliceIter p) : SliceOp p → Memory × SliceIter p × Option SliceObs
  | .next => (m, (it.next m).1, some (match (it.next m).2 with | .ret b => .bool b | .fault f => .fault f))
  | .value => (m, it, some (.ofRes it.value))
  | .start => (m, it, some (.nat it.start))
  | .end => (m, it, some (.nat it.pos))
  | .first => (m, it, some (.ofRes (it.first m)))
  | .reset => (m, { it with start := 0, pos := 0 }, some .unit)
  | .setText s => (m, { it with data := s, start := 0, pos := 0 }, some .unit)
  | .config c => (m, it.after ((it.view m).config c), some .unit)
  | .store arr i b => (m.store arr i b, it, none)

/-- A program: memory and the iterator after it. -/
def runSliceState {p : Pkg} (m : Memory) (it : SliceIter p) : List (SliceOp p) → Memory × SliceIter p
  | [] => (m, it)
  | op :: ops => runSliceState (op.run m it).1 (op.run m it).2.1 ops

/-- A program with an iterator of package words that also calls `Split`: each part begins with such a call. -/
def runSplitState (m : Memory) (it : SliceIter .words) : List (SplitFn × List (SliceOp .words)) → Memory × SliceIter .words
  | [] => (m, it)
  | (f, ops) :: parts =>
    runSplitState (runSliceState m (it.setSplit f) ops).1 (runSliceState m (it.setSplit f) ops).2 parts

/-- A program: what the caller sees, call by call. -/
def runSliceObs {p : Pkg} (m : Memory) (it : SliceIter p) : List (SliceOp p) → List SliceObs
  | [] => []
  | op :: ops => (op.run m it).2.2.toList ++ runSliceObs (op.run m it).1 (op.run m it).2.1 ops

/-- The loop `for it.Next() { v := it.Value(); copy(v, f(v)) }` of a user who changes the tokens in place: memory
after it. -/
def mapLoop {p : Pkg} (f : Bytes → Bytes) : Nat → Memory → SliceIter p → Res Memory
  | 0, _, _ => .error .diverge
  | fuel + 1, m, it =>
    match it.next m with
    | (_, .fault g) => .error g
    | (_, .ret false) => .ok m
    | (it', .ret true) =>
      match it'.value with
      | .error g => .error g
      | .ok v => mapLoop f fuel (v.copy m (f (v.bytes m))) it'

/-- The loop on a fresh iterator over `s` with configuration `c`. -/
def mapTokens (p : Pkg) (c : Config p) (f : Bytes → Bytes) (m : Memory) (s : Slice) : Res Memory :=
  let it := SliceIter.fromBytes p s
  mapLoop f (s.len + 1) m (it.after ((it.view m).config c))

end Uax29
