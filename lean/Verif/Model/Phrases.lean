import Verif.Model.Seek
import Verif.Model.WordState
import Verif.Table.PhrasesValues
import Verif.Table.PhrasesIndex
/-! # phrases/splitfunc.go -/
namespace Uax29.Phrases

/-- phrases/trie.go:110-3379 and 3383-3529: the tables of the phrases trie. -/
def trie : Trie := ⟨Table.Values.blocks, Table.Index.blocks⟩

/-! phrases/trie.go:8-28: `const ( _ALetter property = 1 << iota ... )`. -/
/-- phrases/trie.go:9 -/
def _ALetter : Nat := 1 <<< 0
/-- phrases/trie.go:10 -/
def _CR : Nat := 1 <<< 1
/-- phrases/trie.go:11 -/
def _DoubleQuote : Nat := 1 <<< 2
/-- phrases/trie.go:12 -/
def _Extend : Nat := 1 <<< 3
/-- phrases/trie.go:13 -/
def _ExtendNumLet : Nat := 1 <<< 4
/-- phrases/trie.go:14 -/
def _ExtendedPictographic : Nat := 1 <<< 5
/-- phrases/trie.go:15 -/
def _Format : Nat := 1 <<< 6
/-- phrases/trie.go:16 -/
def _HebrewLetter : Nat := 1 <<< 7
/-- phrases/trie.go:17 -/
def _Katakana : Nat := 1 <<< 8
/-- phrases/trie.go:18 -/
def _LF : Nat := 1 <<< 9
/-- phrases/trie.go:19 -/
def _MidLetter : Nat := 1 <<< 10
/-- phrases/trie.go:20 -/
def _MidNum : Nat := 1 <<< 11
/-- phrases/trie.go:21 -/
def _MidNumLet : Nat := 1 <<< 12
/-- phrases/trie.go:22 -/
def _Newline : Nat := 1 <<< 13
/-- phrases/trie.go:23 -/
def _Numeric : Nat := 1 <<< 14
/-- phrases/trie.go:24 -/
def _RegionalIndicator : Nat := 1 <<< 15
/-- phrases/trie.go:25 -/
def _SingleQuote : Nat := 1 <<< 16
/-- phrases/trie.go:26 -/
def _WSegSpace : Nat := 1 <<< 17
/-- phrases/trie.go:27 -/
def _ZWJ : Nat := 1 <<< 18
/-- phrases/splitfunc.go:13 -/
def _AHLetter : Nat := _ALetter ||| _HebrewLetter ||| _ExtendedPictographic
/-- phrases/splitfunc.go:14 -/
def _MidNumLetQ : Nat := _MidNumLet ||| _SingleQuote
/-- phrases/splitfunc.go:15 -/
def _Ignore : Nat := _Extend ||| _Format ||| _ZWJ

/-- The variables of `splitFunc` that live across loop passes — phrases/splitfunc.go:28-37. -/
abbrev State := WordState

/-- phrases/splitfunc.go:205-237, the rules from WB13 on. -/
def stepRest3 (s next : State) : Step State :=
  let current := next.current
  let lastExIgnore := next.lastExIgnore
  -- WB13
  if is current _Katakana && is lastExIgnore _Katakana then .cont next
  -- WB13a
  else if is current _ExtendNumLet
      && is lastExIgnore (_AHLetter ||| _Numeric ||| _Katakana ||| _ExtendNumLet) then .cont next
  -- WB13b
  else if is current (_AHLetter ||| _Numeric ||| _Katakana) && is lastExIgnore _ExtendNumLet then
    .cont next
  -- WB15, WB16
  else if is current _RegionalIndicator && is lastExIgnore _RegionalIndicator then
    let regionalIndicatorCount := s.regionalIndicatorCount + 1
    if regionalIndicatorCount % 2 = 1 then .cont { next with regionalIndicatorCount }
    else .brk s.pos
  -- WB999
  else .brk s.pos

/-- A look-ahead rule (WB6, WB7b, WB12) — phrases/splitfunc.go:128-140, 155-167, 191-203; as in
`Words.lookAhead`. -/
def lookAhead (properties : Nat) (data : Bytes) (atEOF : Bool) (next : State)
    (otherwise : Step State) : Step State :=
  match subsequentFrom trie _Ignore properties data next.pos atEOF with
  | .error f => .fault f
  | .ok (advance, more) =>
    if more then .more
    else if advance ≠ notfound then .cont { next with pos := next.pos + advance.toNat }
    else otherwise

/-- phrases/splitfunc.go:169-203: the rules WB7c, WB8-WB10 (with `_WSegSpace`), WB11 and WB12, then
the rest. -/
def stepRest2 (data : Bytes) (atEOF : Bool) (s next : State) : Step State :=
  let current := next.current
  let lastExIgnore := next.lastExIgnore
  let lastLastExIgnore := next.lastLastExIgnore
  -- WB7c
  if is current _HebrewLetter && is lastExIgnore _DoubleQuote && is lastLastExIgnore _HebrewLetter
  then .cont next
  -- WB8, WB9, WB10, with _WSegSpace added
  else if is current (_Numeric ||| _AHLetter ||| _WSegSpace)
      && is lastExIgnore (_Numeric ||| _AHLetter ||| _WSegSpace) then .cont next
  -- WB11
  else if is current _Numeric && is lastExIgnore (_MidNum ||| _MidNumLetQ)
      && is lastLastExIgnore _Numeric then .cont next
  -- WB12
  else if is current (_MidNum ||| _MidNumLetQ) && is lastExIgnore _Numeric then
    lookAhead _Numeric data atEOF next (stepRest3 s next)
  else stepRest3 s next

/-- phrases/splitfunc.go:142-167: the rules WB7, WB7a and WB7b, then the rest. -/
def stepRest1 (data : Bytes) (atEOF : Bool) (s next : State) : Step State :=
  let current := next.current
  let lastExIgnore := next.lastExIgnore
  let lastLastExIgnore := next.lastLastExIgnore
  -- WB7
  if is current _AHLetter && is lastExIgnore (_MidLetter ||| _MidNumLetQ)
      && is lastLastExIgnore _AHLetter then .cont next
  -- WB7a
  else if is current _SingleQuote && is lastExIgnore _HebrewLetter then .cont next
  -- WB7b
  else if is current _DoubleQuote && is lastExIgnore _HebrewLetter then
    lookAhead _HebrewLetter data atEOF next (stepRest2 data atEOF s next)
  else stepRest2 data atEOF s next

/-- phrases/splitfunc.go:82-140: from the optimization and WB3 to WB6, then the rest. -/
def rules (data : Bytes) (atEOF : Bool) (s next : State) : Step State :=
  let current := next.current
  let last := s.current
  let lastExIgnore := next.lastExIgnore
  if (current ||| last) = 0 then .brk s.pos
  -- WB3
  else if is current _LF && is last _CR then .cont next
  -- WB3a, WB3b
  else if is (last ||| current) (_Newline ||| _CR ||| _LF) then .brk s.pos
  -- WB3c
  else if is current _ExtendedPictographic && is last _ZWJ then .cont next
  -- WB3d
  else if is (current &&& last) _WSegSpace then .cont next
  -- WB4
  else if is current (_Extend ||| _Format ||| _ZWJ) then .cont next
  -- WB5
  else if is current _AHLetter && is lastExIgnore _AHLetter then .cont next
  -- WB6
  else if is current (_MidLetter ||| _MidNumLetQ) && is lastExIgnore _AHLetter then
    lookAhead _AHLetter data atEOF next (stepRest1 data atEOF s next)
  else stepRest1 data atEOF s next

/-- One pass of the loop of `splitFunc` — phrases/splitfunc.go:51-238. -/
def step (data : Bytes) (atEOF : Bool) (s : State) : Step State :=
  if s.pos = data.length then
    if !atEOF then .more else .brk s.pos                        -- WB2
  else
    let last := s.current
    let lastLastExIgnore := if !is last _Ignore then s.lastExIgnore else s.lastLastExIgnore
    let lastExIgnore := if !is last _Ignore then last else s.lastExIgnore
    match trie.lookupAt data s.pos with
    | .error f => .fault f
    | .ok (current, w) =>
      if w = 0 then
        if atEOF then .brk data.length else .more
      else
        rules data atEOF s
          { pos := s.pos + w, current, lastExIgnore, lastLastExIgnore,
            regionalIndicatorCount := s.regionalIndicatorCount }

/-- `splitFunc[T]` and `SplitFunc` — phrases/splitfunc.go:19-241. -/
def splitFunc : SplitFn := fun data atEOF =>
  if data.length = 0 then .ok .requestMore
  else
    match trie.lookupAt data 0 with
    | .error f => .error f
    | .ok (current, w) =>
      if w = 0 then
        if !atEOF then .ok .requestMore
        else finish data (.brk data.length)
      else
        finish data (runLoop (step data atEOF) (loopFuel data)
          { pos := w, current, lastExIgnore := 0, lastLastExIgnore := 0,
            regionalIndicatorCount := 0 })

end Uax29.Phrases
