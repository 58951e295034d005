import Verif.Model.Iterators
/-!
# `Next` with 64-bit integers

The other files take positions to be natural numbers. With a split function of the user that is not the whole truth:
`iter.pos += advance` is an addition of 64-bit `int`s, and the function may return any `int`. Here are `Next` and
`Value` of the two iterators with a method `Split`, with positions that are `int`s. (On platforms where `int` has 32
bits the same happens earlier.)
-/
namespace Uax29

/-- The value of a sum of Go `int`s: the number modulo 2^64 that lies between -2^63 and 2^63 (Go spec, "Integer
overflow"). -/
def wrap64 (n : Int) : Int := (n + 2 ^ 63) % 2 ^ 64 - 2 ^ 63

/-- An iterator with `int` positions — words/iterator.go:5-10, internal/iterators/iterator.go:7-12. -/
structure IntIter where
  split : SplitFn
  data : Bytes
  pos : Int
  start : Int

/-- `data[i]` with an `int`. -/
def indexInt (data : Bytes) (i : Int) : Res UInt8 := if i < 0 then .error .bounds else index data i.toNat

/-- `data[i:]` with an `int`. -/
def sliceFromInt (data : Bytes) (i : Int) : Res Bytes := if i < 0 then .error .bounds else sliceFrom data i.toNat

/-- `data[i:j]` with `int`s. -/
def sliceFromToInt (data : Bytes) (i j : Int) : Res Bytes :=
  if i < 0 ∨ j < 0 then .error .bounds else sliceFromTo data i.toNat j.toNat

namespace IntIter

/-- `Value` — words/iterator.go:82-84, internal/iterators/iterator.go:70-72. -/
def value (it : IntIter) : Res Bytes := sliceFromToInt it.data it.start it.pos

/-- The end of `Next` — words/iterator.go:66-78. -/
def callSplit (it : IntIter) : IntIter × NextOut :=
  match sliceFromInt it.data it.pos with
  | .error f => (it, .fault f)
  | .ok remaining =>
    match it.split remaining true with
    | .error f => (it, .fault f)
    | .ok r =>
      match r.err with
      | some e => (it, .fault (.panic e))
      | none =>
        if r.advance ≤ 0 then
          (it, .fault (.panic "splitFunc returned a zero or negative advance"))
        else
          let it := { it with pos := wrap64 (it.pos + r.advance) }
          if it.pos > it.data.length then
            (it, .fault (.panic "splitFunc advanced beyond end of data"))
          else (it, .ret true)

/-- `Next` of package words — words/iterator.go:42-79. -/
def wordsNext (it : IntIter) : IntIter × NextOut :=
  if it.pos ≥ it.data.length then (it, .ret false)
  else
    let it := { it with start := it.pos }
    match indexInt it.data it.pos with
    | .error f => (it, .fault f)
    | .ok b =>
      if Words.isASCIIAlphanumeric b then
        let e := wrap64 (it.pos + 1 + countWhile Words.isASCIIAlphanumeric (it.data.drop (it.pos + 1).toNat))
        if e ≥ it.data.length || it.data[e.toNat]? == some 0x20 then ({ it with pos := e }, .ret true)
        else it.callSplit
      else it.callSplit

/-- `Next` of the internal iterator — internal/iterators/iterator.go:36-67. -/
def internalNext (it : IntIter) : IntIter × NextOut :=
  if it.pos = it.data.length then (it, .ret false)
  else if it.pos > it.data.length then
    (it, .fault (.panic "SplitFunc advanced beyond the end of the data"))
  else
    let it := { it with start := it.pos }
    match sliceFromInt it.data it.pos with
    | .error f => (it, .fault f)
    | .ok d =>
      if d.length = 1 then ({ it with pos := wrap64 (it.pos + 1) }, .ret true)
      else
        match it.split d true with
        | .error f => (it, .fault f)
        | .ok r =>
          match r.err with
          | some e => (it, .fault (.panic e))
          | none =>
            if r.advance ≤ 0 then
              (it, .fault (.panic "SplitFunc returned a zero or negative advance"))
            else
              let it := { it with pos := wrap64 (it.pos + r.advance) }
              if it.pos > it.data.length then
                (it, .fault (.panic "SplitFunc advanced beyond the end of the data"))
              else (it, .ret true)

end IntIter
end Uax29
