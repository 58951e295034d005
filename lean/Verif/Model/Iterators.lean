import Verif.Model.Ansi
import Verif.Model.Graphemes
import Verif.Model.Words
import Verif.Model.Phrases
import Verif.Model.Sentences
/-!
# The iterators

graphemes/iterator.go, words/iterator.go, phrases/iterator.go, sentences/iterator.go and
internal/iterators/iterator.go. A method with a pointer receiver becomes a function that returns the
new state of the receiver, also when the method panics (a caller may recover and go on).
-/
namespace Uax29

/-- The fields `split`, `data`, `pos`, `start` all iterators have — graphemes/iterator.go:25-29,
words/iterator.go:5-10, phrases/iterator.go:22-27, sentences/iterator.go:22-27,
internal/iterators/iterator.go:7-12. -/
structure Iter where
  split : SplitFn
  data : Bytes
  pos : Nat
  start : Nat

/-- What a call of `Next` does: return a boolean, or panic (or not return, if the split function
does not). -/
inductive NextOut where
  | ret (b : Bool)
  | fault (f : Fault)
  deriving DecidableEq, Repr

/-- `Value` — graphemes/iterator.go:105-107, words/iterator.go:82-84, phrases/iterator.go:80-82,
sentences/iterator.go:80-82, internal/iterators/iterator.go:70-72. -/
def Iter.value (it : Iter) : Res Bytes := sliceFromTo it.data it.start it.pos

/-- `Start` — graphemes/iterator.go:110-112, words/iterator.go:87-89, phrases/iterator.go:85-87,
sentences/iterator.go:85-87, internal/iterators/iterator.go:75-77. -/
def Iter.start' (it : Iter) : Nat := it.start

/-- `End` — graphemes/iterator.go:115-117, words/iterator.go:92-94, phrases/iterator.go:90-92,
sentences/iterator.go:90-92, internal/iterators/iterator.go:80-82. -/
def Iter.end' (it : Iter) : Nat := it.pos

/-- `Reset` — graphemes/iterator.go:120-123, words/iterator.go:97-100, phrases/iterator.go:95-98,
sentences/iterator.go:95-98, internal/iterators/iterator.go:85-88. -/
def Iter.reset (it : Iter) : Iter := { it with start := 0, pos := 0 }

/-- `SetText` — graphemes/iterator.go:126-130, words/iterator.go:103-107, phrases/iterator.go:101-105,
sentences/iterator.go:101-105, internal/iterators/iterator.go:23-27. -/
def Iter.setText (it : Iter) (data : Bytes) : Iter := { it with data, start := 0, pos := 0 }

/-- `Split` — words/iterator.go:110-112, internal/iterators/iterator.go:30-32. -/
def Iter.setSplit (it : Iter) (split : SplitFn) : Iter := { it with split }

/-- The common end of `Next`: call the split function on `iter.data[iter.pos:]` and check its
results — graphemes/iterator.go:89-101, words/iterator.go:66-78, phrases/iterator.go:64-76,
sentences/iterator.go:64-76. -/
def Iter.callSplit (it : Iter) : Iter × NextOut :=
  match sliceFrom it.data it.pos with
  | .error f => (it, .fault f)
  | .ok remaining =>
    match it.split remaining true with
    | .error f => (it, .fault f)
    | .ok r =>
      match r.err with
      | some e => (it, .fault (.panic e))
      | none =>
        if r.advance ≤ 0 then
          (it, .fault (.panic "splitFunc returned a zero or negative advance"))
        else
          let it := { it with pos := it.pos + r.advance.toNat }
          if it.pos > it.data.length then
            (it, .fault (.panic "splitFunc advanced beyond end of data"))
          else (it, .ret true)

/-- `First`, given the package's `Next`: a copy of the iterator is moved to the start of the data and
`Next` is called on it — graphemes/iterator.go:133-144, words/iterator.go:115-126,
phrases/iterator.go:108-119, sentences/iterator.go:108-119. -/
def Iter.firstWith (next : Iter → Iter × NextOut) (it : Iter) : Res Bytes :=
  if it.data.length = 0 then .ok it.data
  else
    match next { it with pos := 0, start := 0 } with
    | (_, .fault f) => .error f
    | (cp, .ret _) => cp.value

namespace Words

/-- `isASCIIAlphanumeric` — words/iterator.go:36-38. -/
def isASCIIAlphanumeric (b : UInt8) : Bool :=
  (0x61 ≤ b && b ≤ 0x7A) || (0x41 ≤ b && b ≤ 0x5A) || (0x30 ≤ b && b ≤ 0x39)

/-- `FromString`, `FromBytes` — words/iterator.go:19-33. -/
def fromBytes (data : Bytes) : Iter := ⟨splitFunc, data, 0, 0⟩

/-- The number of leading bytes of `data` with `p`; the loops words/iterator.go:54-56,
phrases/iterator.go:49-51 and sentences/iterator.go:49-51 move an index over them. -/
def _root_.Uax29.countWhile (p : UInt8 → Bool) : Bytes → Nat
  | [] => 0
  | b :: rest => if p b then countWhile p rest + 1 else 0

/-- `Next` — words/iterator.go:42-79. -/
def next (it : Iter) : Iter × NextOut :=
  if it.pos ≥ it.data.length then (it, .ret false)
  else
    let it := { it with start := it.pos }
    match index it.data it.pos with
    | .error f => (it, .fault f)
    | .ok b =>
      if isASCIIAlphanumeric b then
        let e := it.pos + 1 + countWhile isASCIIAlphanumeric (it.data.drop (it.pos + 1))
        if e ≥ it.data.length || it.data[e]? == some 0x20 then ({ it with pos := e }, .ret true)
        else it.callSplit
      else it.callSplit

/-- `First` — words/iterator.go:115-126. -/
def first (it : Iter) : Res Bytes := it.firstWith next

/-- `Joiners` — words/joiners.go:5-7: `iter.Split(j.splitFunc)`; `j` may be a nil pointer. -/
def setJoiners (it : Iter) (j : Option Joiners) : Iter := it.setSplit (joinersSplitFunc j)

end Words

/-- `isASCIIAlphanumericOrSpace` — phrases/iterator.go:35-37, sentences/iterator.go:35-37. -/
def isASCIIAlphanumericOrSpace (b : UInt8) : Bool :=
  (0x61 ≤ b && b ≤ 0x7A) || (0x41 ≤ b && b ≤ 0x5A) || (0x30 ≤ b && b ≤ 0x39) || b == 0x20

/-- `Next` of phrases and of sentences, which is the same text — phrases/iterator.go:41-77,
sentences/iterator.go:41-77. -/
def Iter.nextSkipping (it : Iter) : Iter × NextOut :=
  if it.pos ≥ it.data.length then (it, .ret false)
  else
    let it := { it with start := it.pos }
    let it := { it with
      pos := it.pos + countWhile isASCIIAlphanumericOrSpace (it.data.drop it.pos) }
    if it.pos ≥ it.data.length then (it, .ret true)
    else
      let it := if it.pos > it.start then { it with pos := it.pos - 1 } else it
      it.callSplit

namespace Phrases
/-- `FromString`, `FromBytes` — phrases/iterator.go:5-19. -/
def fromBytes (data : Bytes) : Iter := ⟨splitFunc, data, 0, 0⟩
/-- `Next` — phrases/iterator.go:41-77. -/
def next (it : Iter) : Iter × NextOut := it.nextSkipping
/-- `First` — phrases/iterator.go:108-119. -/
def first (it : Iter) : Res Bytes := it.firstWith next
end Phrases

namespace Sentences
/-- `FromString`, `FromBytes` — sentences/iterator.go:5-19. -/
def fromBytes (data : Bytes) : Iter := ⟨splitFunc, data, 0, 0⟩
/-- `Next` — sentences/iterator.go:41-77. -/
def next (it : Iter) : Iter × NextOut := it.nextSkipping
/-- `First` — sentences/iterator.go:108-119. -/
def first (it : Iter) : Res Bytes := it.firstWith next
end Sentences

namespace Graphemes

/-- The exported option fields of the iterator — graphemes/iterator.go:30-41. -/
structure Options where
  ansi7 : Bool := false
  ansi8 : Bool := false
  deriving DecidableEq, Repr

/-- `FromString`, `FromBytes` — graphemes/iterator.go:7-21. -/
def fromBytes (data : Bytes) : Iter := ⟨splitFunc, data, 0, 0⟩

/-- graphemes/iterator.go:80-101: the ASCII hot path, then the split function. -/
def nextPlain (it : Iter) (b : Nat) : Iter × NextOut :=
  if b < Utf8.runeSelf && b != cr then
    if it.pos + 1 ≥ it.data.length then ({ it with pos := it.pos + 1 }, .ret true)
    else
      match index it.data (it.pos + 1) with
      | .error f => (it, .fault f)
      | .ok b1 =>
        if b1.toNat < Utf8.runeSelf then ({ it with pos := it.pos + 1 }, .ret true)
        else it.callSplit
  else it.callSplit

/-- graphemes/iterator.go:73-78: the 8-bit option, then the rest. -/
def next8 (o : Options) (it : Iter) (b : Nat) : Iter × NextOut :=
  if o.ansi8 && 0x80 ≤ b && b ≤ 0x9F then
    match sliceFrom it.data it.pos with
    | .error f => (it, .fault f)
    | .ok d =>
      let a := ansiEscapeLength8Bit d
      if a > 0 then ({ it with pos := it.pos + a }, .ret true) else nextPlain it b
  else nextPlain it b

/-- `Next` — graphemes/iterator.go:60-102. The option fields of the iterator are the argument `o`. -/
def next (o : Options) (it : Iter) : Iter × NextOut :=
  if it.pos ≥ it.data.length then (it, .ret false)
  else
    let it := { it with start := it.pos }
    match index it.data it.pos with
    | .error f => (it, .fault f)
    | .ok x =>
      let b := x.toNat
      if o.ansi7 && b == esc then
        match sliceFrom it.data it.pos with
        | .error f => (it, .fault f)
        | .ok d =>
          let a := ansiEscapeLength d
          if a > 0 then ({ it with pos := it.pos + a }, .ret true) else next8 o it b
      else next8 o it b

/-- `First` — graphemes/iterator.go:133-144; the copy has the same options. -/
def first (o : Options) (it : Iter) : Res Bytes := it.firstWith (next o)

end Graphemes

namespace Generic

/-- `New` — internal/iterators/iterator.go:15-20. -/
def new (split : SplitFn) (data : Bytes) : Iter := ⟨split, data, 0, 0⟩

/-- `Next` — internal/iterators/iterator.go:36-67. -/
def next (it : Iter) : Iter × NextOut :=
  if it.pos = it.data.length then (it, .ret false)
  else if it.pos > it.data.length then
    (it, .fault (.panic "SplitFunc advanced beyond the end of the data"))
  else
    let it := { it with start := it.pos }
    match sliceFrom it.data it.pos with
    | .error f => (it, .fault f)
    | .ok d =>
      if d.length = 1 then ({ it with pos := it.pos + 1 }, .ret true)
      else
        match it.split d true with
        | .error f => (it, .fault f)
        | .ok r =>
          match r.err with
          | some e => (it, .fault (.panic e))
          | none =>
            if r.advance ≤ 0 then
              (it, .fault (.panic "SplitFunc returned a zero or negative advance"))
            else
              let it := { it with pos := it.pos + r.advance.toNat }
              if it.pos > it.data.length then
                (it, .fault (.panic "SplitFunc advanced beyond the end of the data"))
              else (it, .ret true)

/-- `First` — internal/iterators/iterator.go:90-105. -/
def first (it : Iter) : Res Bytes :=
  if it.data.length = 0 then .ok it.data
  else
    match it.split it.data true with
    | .error f => .error f
    | .ok r =>
      match r.err with
      | some e => .error (.panic e)
      | none =>
        if r.advance ≤ 0 then
          .error (.panic "SplitFunc returned a zero or negative advance")
        else if r.advance > it.data.length then
          .error (.panic "SplitFunc advanced beyond the end of the data")
        else sliceTo it.data r.advance.toNat

end Generic

/-- The loop of a user, `for it.Next() { use(it.Value()) }` (graphemes/README.md, words/README.md,
phrases/README.md, sentences/README.md): the values in order. `fuel` bounds the number of calls of
`Next`. -/
def collect (next : Iter → Iter × NextOut) : Nat → Iter → Res (List Bytes)
  | 0, _ => .error .diverge
  | fuel + 1, it =>
    match next it with
    | (_, .fault f) => .error f
    | (_, .ret false) => .ok []
    | (it', .ret true) =>
      match it'.value with
      | .error f => .error f
      | .ok v =>
        match collect next fuel it' with
        | .error f => .error f
        | .ok vs => .ok (v :: vs)

/-- All values of a fresh iterator, with enough fuel for one byte per token. -/
def tokensWith (next : Iter → Iter × NextOut) (it : Iter) : Res (List Bytes) :=
  collect next (it.data.length + 1) it

/-- All graphemes of `data` (options off). -/
def Graphemes.tokens (data : Bytes) : Res (List Bytes) := tokensWith (next {}) (fromBytes data)
/-- All words of `data`. -/
def Words.tokens (data : Bytes) : Res (List Bytes) := tokensWith next (fromBytes data)
/-- All phrases of `data`. -/
def Phrases.tokens (data : Bytes) : Res (List Bytes) := tokensWith next (fromBytes data)
/-- All sentences of `data`. -/
def Sentences.tokens (data : Bytes) : Res (List Bytes) := tokensWith next (fromBytes data)

end Uax29
