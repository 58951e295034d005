import Verif.Model.Iterators
/-!
# Iterators under arbitrary sequences of calls

The four iterator types behind one interface, and the calls a program can make on them.
-/
namespace Uax29

/-- The four packages with an iterator type. -/
inductive Pkg where
  | graphemes | words | phrases | sentences
  deriving DecidableEq, Repr

/-- What can be configured on an iterator: the two option fields of a graphemes iterator
(graphemes/iterator.go:30-41), the joiners of a words iterator (words/joiners.go:5-7; the argument
may be nil), nothing for phrases and sentences. -/
def Config : Pkg → Type
  | .graphemes => Graphemes.Options
  | .words => Option Words.Joiners
  | .phrases => Unit
  | .sentences => Unit

/-- An iterator of package `p`. `opts` is used by graphemes only. -/
structure Iterator (p : Pkg) where
  iter : Iter
  opts : Graphemes.Options

namespace Iterator

/-- `FromString`, `FromBytes` of the four packages. -/
def fromBytes (p : Pkg) (data : Bytes) : Iterator p :=
  match p with
  | .graphemes => ⟨Graphemes.fromBytes data, {}⟩
  | .words => ⟨Words.fromBytes data, {}⟩
  | .phrases => ⟨Phrases.fromBytes data, {}⟩
  | .sentences => ⟨Sentences.fromBytes data, {}⟩

/-- Setting the options (graphemes) or the joiners (words). -/
def config {p : Pkg} (it : Iterator p) (c : Config p) : Iterator p :=
  match p, c with
  | .graphemes, c => { it with opts := c }
  | .words, c => { it with iter := Words.setJoiners it.iter c }
  | .phrases, _ => it
  | .sentences, _ => it

/-- `Next` of the package, as a function of the common fields. -/
def nextIter (p : Pkg) (opts : Graphemes.Options) : Iter → Iter × NextOut :=
  match p with
  | .graphemes => Graphemes.next opts
  | .words => Words.next
  | .phrases => Phrases.next
  | .sentences => Sentences.next

/-- `Next`. -/
def next {p : Pkg} (it : Iterator p) : Iterator p × NextOut :=
  (⟨(nextIter p it.opts it.iter).1, it.opts⟩, (nextIter p it.opts it.iter).2)

/-- `First`. -/
def first {p : Pkg} (it : Iterator p) : Res Bytes := it.iter.firstWith (nextIter p it.opts)

/-- All values of the iterator from where it stands: `for it.Next() { use(it.Value()) }`. -/
def tokens {p : Pkg} (it : Iterator p) : Res (List Bytes) := tokensWith (nextIter p it.opts) it.iter

end Iterator

/-- The tokens of `data` in package `p` with configuration `c`. -/
def tokens (p : Pkg) (c : Config p) (data : Bytes) : Res (List Bytes) :=
  ((Iterator.fromBytes p data).config c).tokens

/-- The tokens of `data` in package `p` with the default configuration. -/
def defaultTokens (p : Pkg) (data : Bytes) : Res (List Bytes) := (Iterator.fromBytes p data).tokens

/-- A call on an iterator of package `p`. -/
inductive Op (p : Pkg) where
  | next
  | value
  | start
  | «end»
  | first
  | reset
  | setText (t : Bytes)
  | config (c : Config p)

/-- What the caller sees of a call. -/
inductive Obs where
  | unit
  | bool (b : Bool)
  | nat (n : Nat)
  | bytes (b : Bytes)
  | fault (f : Fault)
  deriving DecidableEq, Repr

/-- The bytes or the fault of a call. -/
def Obs.ofRes : Res Bytes → Obs
  | .ok b => .bytes b
  | .error f => .fault f

/-- One call: the iterator after it and what the caller sees. -/
def Op.run {p : Pkg} (it : Iterator p) : Op p → Iterator p × Obs
  | .next => (it.next.1, match it.next.2 with | .ret b => .bool b | .fault f => .fault f)
  | .value => (it, .ofRes it.iter.value)
  | .start => (it, .nat it.iter.start')
  | .end => (it, .nat it.iter.end')
  | .first => (it, .ofRes it.first)
  | .reset => ({ it with iter := it.iter.reset }, .unit)
  | .setText t => ({ it with iter := it.iter.setText t }, .unit)
  | .config c => (it.config c, .unit)

/-- A sequence of calls: the iterator after it. -/
def runState {p : Pkg} (it : Iterator p) : List (Op p) → Iterator p
  | [] => it
  | op :: ops => runState (op.run it).1 ops

/-- A sequence of calls: what the caller sees, call by call. -/
def runObs {p : Pkg} (it : Iterator p) : List (Op p) → List Obs
  | [] => []
  | op :: ops => (op.run it).2 :: runObs (op.run it).1 ops

/-- The loop `for it.Next() { use(it.Start(), it.End(), it.Value()) }` of a user. -/
def collectPos (next : Iter → Iter × NextOut) : Nat → Iter → Res (List (Nat × Nat × Bytes))
  | 0, _ => .error .diverge
  | fuel + 1, it =>
    match next it with
    | (_, .fault f) => .error f
    | (_, .ret false) => .ok []
    | (it', .ret true) =>
      match it'.value with
      | .error f => .error f
      | .ok v =>
        match collectPos next fuel it' with
        | .error f => .error f
        | .ok vs => .ok ((it'.start', it'.end', v) :: vs)

/-- Start, End and Value of all tokens of `data` in package `p` with configuration `c`. -/
def positions (p : Pkg) (c : Config p) (data : Bytes) : Res (List (Nat × Nat × Bytes)) :=
  let it := (Iterator.fromBytes p data).config c
  collectPos (Iterator.nextIter p it.opts) (data.length + 1) it.iter

/-- Several iterators, each of its own package, in one program; a call is made on one of them. -/
def runMany {ι : Type} [DecidableEq ι] {pkg : ι → Pkg} (its : (i : ι) → Iterator (pkg i)) :
    List ((i : ι) × Op (pkg i)) → List ((_ : ι) × Obs)
  | [] => []
  | ⟨i, op⟩ :: rest =>
    ⟨i, (op.run (its i)).2⟩ ::
      runMany (fun k => if h : k = i then h ▸ (op.run (its i)).1 else its k) rest

end Uax29
