import Verif.Model.Trie
/-! # words/seek.go, phrases/seek.go, sentences/seek.go

The three files hold the same function over their package's `lookup` and `_Ignore`; the model takes
those two as arguments. -/
namespace Uax29

/-- `const notfound = -1` — words/seek.go:3 (and copies). -/
def notfound : Int := -1

/-- The loop of `subsequent` — words/seek.go:9-42, phrases/seek.go:9-42, sentences/seek.go:9-42.
Returns `(advance, more)`. -/
def subsequentLoop (T : Trie) (ignore properties : Nat) (data : Bytes) (atEOF : Bool) :
    Nat → Nat → Res (Int × Bool)
  | 0, _ => .error .diverge
  | fuel + 1, i =>
    if i < data.length then
      match T.lookupAt data i with
      | .error f => .error f
      | .ok (lookup, w) =>
        if w = 0 then
          if atEOF then .ok (notfound, false) else .ok (notfound, true)
        else if is lookup ignore then subsequentLoop T ignore properties data atEOF fuel (i + w)
        else if is lookup properties then .ok (i, false)
        else .ok (notfound, false)
    else if atEOF then .ok (notfound, false)
    else .ok (notfound, true)

/-- `subsequent[T](properties property, data T, atEOF bool) (advance int, more bool)` —
words/seek.go:7-43, phrases/seek.go:7-43, sentences/seek.go:7-43. -/
def subsequent (T : Trie) (ignore properties : Nat) (data : Bytes) (atEOF : Bool) :
    Res (Int × Bool) :=
  subsequentLoop T ignore properties data atEOF (data.length + 1) 0

/-- `subsequent(properties, data[i:], atEOF)`, the form in which it is called
(e.g. words/splitfunc.go:164). -/
def subsequentFrom (T : Trie) (ignore properties : Nat) (data : Bytes) (i : Nat) (atEOF : Bool) :
    Res (Int × Bool) :=
  match sliceFrom data i with
  | .error f => .error f
  | .ok d => subsequent T ignore properties d atEOF

end Uax29
