/-!
# The small part of Go the model needs

Go `int`s that are lengths or positions are `Nat` here: overflow of 64-bit `int` needs 2^63 bytes of
input, or a split function of the user (`Model/IntIter.lean`).  `string` and `[]byte` are both `List UInt8`: the
functions of the library are generic over the two and only index, slice and measure them.
A run-time panic or a loop that does not end are explicit results (`Fault`).
-/
namespace Uax29

/-- A Go `string` or `[]byte` value, seen as its bytes (type parameter `T ~string | ~[]byte`,
e.g. graphemes/splitfunc.go:29). Aliasing is not part of this type; see `Model/Memory.lean`. -/
abbrev Bytes := List UInt8

/-- How a Go call can fail to return: a run-time panic, or a loop that has not ended within the
fuel the model gives it. -/
inductive Fault where
  | panic (msg : String)
  | diverge
  deriving DecidableEq, Repr

/-- The panic Go raises for an index or slice expression out of range. -/
def Fault.bounds : Fault := .panic "runtime error: index or slice bounds out of range"

/-- A call that returns a value or fails with a `Fault`. -/
abbrev Res (α : Type) := Except Fault α

/-- Results can be compared (used by the examples beside the theorems). -/
instance {α : Type} [DecidableEq α] : DecidableEq (Res α)
  | .ok a, .ok b => if h : a = b then isTrue (h ▸ rfl) else isFalse fun e => h (Except.ok.inj e)
  | .error f, .error g =>
    if h : f = g then isTrue (h ▸ rfl) else isFalse fun e => h (Except.error.inj e)
  | .ok _, .error _ => isFalse fun e => nomatch e
  | .error _, .ok _ => isFalse fun e => nomatch e

/-- The slice expression `data[i:]` (Go spec, "Slice expressions"): panics when `i > len(data)`. -/
def sliceFrom (data : Bytes) (i : Nat) : Res Bytes :=
  if i ≤ data.length then .ok (data.drop i) else .error .bounds

/-- The slice expression `data[:i]`: panics when `i > len(data)`. -/
def sliceTo (data : Bytes) (i : Nat) : Res Bytes :=
  if i ≤ data.length then .ok (data.take i) else .error .bounds

/-- The slice expression `data[i:j]`: panics unless `i ≤ j ≤ len(data)`. -/
def sliceFromTo (data : Bytes) (i j : Nat) : Res Bytes :=
  if i ≤ j ∧ j ≤ data.length then .ok ((data.drop i).take (j - i)) else .error .bounds

/-- The index expression `data[i]`: panics when `i ≥ len(data)`. -/
def index (data : Bytes) (i : Nat) : Res UInt8 :=
  match data[i]? with
  | some b => .ok b
  | none => .error .bounds

/-- What a `bufio.SplitFunc` returns: `advance`, `token` (`none` is Go's `nil`) and `err`. -/
structure SplitRes where
  advance : Int
  token : Option Bytes
  err : Option String
  deriving DecidableEq, Repr

/-- The type of split functions: `func(T, bool) (int, T, error)`
(graphemes/iterator.go:26, internal/iterators/iterator.go:3, `bufio.SplitFunc`). -/
abbrev SplitFn := Bytes → Bool → Res SplitRes

/-- `return 0, empty, nil`, with `empty` the zero value of `T` (splitfunc.go: "request more"). -/
def SplitRes.requestMore : SplitRes := ⟨0, none, none⟩

/-- How one pass through the body of the `for` loop of a `splitFunc` ends: with the next pass,
with `break` (carrying `pos`), by returning `0, empty, nil`, or with a fault. -/
inductive Step (σ : Type) where
  | cont (s : σ)
  | brk (pos : Nat)
  | more
  | fault (f : Fault)
  deriving Repr

/-- How the `for` loop of a `splitFunc` ends. -/
inductive LoopOut where
  | brk (pos : Nat)
  | more
  | fault (f : Fault)
  deriving DecidableEq, Repr

/-- A Go `for { body }` loop. `fuel` bounds the number of passes, and running out of it is
`Fault.diverge`; the theorems show it never happens with the fuel `loopFuel`. -/
def runLoop {σ : Type} (body : σ → Step σ) : Nat → σ → LoopOut
  | 0, _ => .fault .diverge
  | fuel + 1, s =>
    match body s with
    | .cont s' => runLoop body fuel s'
    | .brk pos => .brk pos
    | .more => .more
    | .fault f => .fault f

/-- The number of passes given to a loop over `data`. -/
def loopFuel (data : Bytes) : Nat := 2 * data.length + 2

/-- The end of every `splitFunc`: `return pos, data[:pos], nil` after the loop's `break`
(graphemes/splitfunc.go:204, words/splitfunc.go:268, phrases/splitfunc.go:240,
sentences/splitfunc.go:213), or `return 0, empty, nil` from within it. -/
def finish (data : Bytes) : LoopOut → Res SplitRes
  | .fault f => .error f
  | .more => .ok .requestMore
  | .brk pos =>
    match sliceTo data pos with
    | .error f => .error f
    | .ok token => .ok ⟨pos, some token, none⟩

/-- `func (lookup property) is(properties property) bool` — graphemes/splitfunc.go:8-10 and its
copies in words, phrases and sentences. A `property` (uint32 or uint16) is a `Nat`: the code only
forms `&` and `|` of properties, which do not leave the range. -/
def is (lookup properties : Nat) : Bool := (lookup &&& properties) != 0

end Uax29
