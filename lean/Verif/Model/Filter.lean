import Verif.Model.Utf8
/-! # internal/iterators/filter/filter.go -/
namespace Uax29.Filter

/-- The loop of `AlphaNumeric` — internal/iterators/filter/filter.go:13-22. `isLetter` and `isNumber`
are `unicode.IsLetter` and `unicode.IsNumber` of Go's standard library, which are parameters here. -/
def alphaLoop (isLetter isNumber : Nat → Bool) (token : Bytes) : Nat → Nat → Res Bool
  | 0, _ => .error .diverge
  | fuel + 1, pos =>
    if pos < token.length then
      match sliceFrom token pos with
      | .error f => .error f
      | .ok s =>
        match Utf8.decodeRune s with
        | (r, w) =>
          if isLetter r || isNumber r then .ok true
          else alphaLoop isLetter isNumber token fuel (pos + w)
    else .ok false

/-- `AlphaNumeric` — internal/iterators/filter/filter.go:12-25. -/
def alphaNumeric (isLetter isNumber : Nat → Bool) (token : Bytes) : Res Bool :=
  alphaLoop isLetter isNumber token (token.length + 1) 0

end Uax29.Filter
