import Verif.Model.Words
/-! # words/bleve_compat.go -/
namespace Uax29.Words

/-- The variables of `BleveNumeric` — words/bleve_compat.go:7-10. -/
structure NumState where
  pos : Nat
  current : Nat
  lastExIgnore : Nat
  lastLastExIgnore : Nat
  deriving DecidableEq, Repr

/-- words/bleve_compat.go:54-67: WB13a, WB13b, else false. `next` is the state if the rune is
accepted. -/
def numRest (next : NumState) : Option NumState :=
  if is next.current _ExtendNumLet && is next.lastExIgnore (_Numeric ||| _ExtendNumLet) then some next
  else if is next.current _Numeric && is next.lastExIgnore _ExtendNumLet then some next
  else none

/-- One pass of the loop of `BleveNumeric` — words/bleve_compat.go:12-68. `none` is `return false`. -/
def numStep (token : Bytes) (s : NumState) : Res (Option NumState) :=
  let last := s.current
  let lastLastExIgnore := if !is last _Ignore then s.lastExIgnore else s.lastLastExIgnore
  let lastExIgnore := if !is last _Ignore then last else s.lastExIgnore
  match trie.lookupAt token s.pos with
  | .error f => .error f
  | .ok (current, w) =>
    let next : NumState := ⟨s.pos + w, current, lastExIgnore, lastLastExIgnore⟩
    if s.pos = 0 then
      .ok (if is current (_Numeric ||| _ExtendNumLet) then some next else none)
    else if is last _Numeric && is current _Numeric then .ok (some next)
    else if is current _Numeric && is lastExIgnore (_MidNum ||| _MidNumLetQ)
        && is lastLastExIgnore _Numeric then .ok (some next)
    else if is current (_MidNum ||| _MidNumLetQ) && is lastExIgnore _Numeric then
      match subsequentFrom trie _Ignore _Numeric token (s.pos + w) true with
      | .error f => .error f
      | .ok (advance, _) =>
        if advance ≠ notfound then .ok (some { next with pos := next.pos + advance.toNat })
        else .ok (numRest next)
    else .ok (numRest next)

/-- The loop of `BleveNumeric`. -/
def numLoop (token : Bytes) : Nat → NumState → Res Bool
  | 0, _ => .error .diverge
  | fuel + 1, s =>
    if s.pos < token.length then
      match numStep token s with
      | .error f => .error f
      | .ok none => .ok false
      | .ok (some s) => numLoop token fuel s
    else .ok true

/-- `BleveNumeric` — words/bleve_compat.go:6-71. -/
def bleveNumeric (token : Bytes) : Res Bool := numLoop token (token.length + 1) ⟨0, 0, 0, 0⟩

/-- The loop of `BleveIdeographic` — words/bleve_compat.go:80-101. -/
def ideoLoop (token : Bytes) : Nat → Nat → Res Bool
  | 0, _ => .error .diverge
  | fuel + 1, pos =>
    if pos < token.length then
      match trie.lookupAt token pos with
      | .error f => .error f
      | .ok (current, w) =>
        if pos = 0 then
          if is current _BleveIdeographic then ideoLoop token fuel (pos + w) else .ok false
        else if is current (_BleveIdeographic ||| _ExtendNumLet ||| _Ignore) then
          ideoLoop token fuel (pos + w)
        else .ok false
    else .ok true

/-- `BleveIdeographic` — words/bleve_compat.go:77-104. -/
def bleveIdeographic (token : Bytes) : Res Bool := ideoLoop token (token.length + 1) 0

end Uax29.Words
