import Verif.Model.Seek
import Verif.Model.WordState
import Verif.Model.Utf8
import Verif.Table.WordsValues
import Verif.Table.WordsIndex
/-! # words/splitfunc.go and words/joiners.go -/
namespace Uax29.Words

/-- words/trie.go:111-3547 and 3551-3774: the tables of the words trie. -/
def trie : Trie := ⟨Table.Values.blocks, Table.Index.blocks⟩

/-! words/trie.go:8-29: `const ( _ALetter property = 1 << iota ... )`. -/
/-- words/trie.go:9 -/
def _ALetter : Nat := 1 <<< 0
/-- words/trie.go:10 -/
def _BleveIdeographic : Nat := 1 <<< 1
/-- words/trie.go:11 -/
def _CR : Nat := 1 <<< 2
/-- words/trie.go:12 -/
def _DoubleQuote : Nat := 1 <<< 3
/-- words/trie.go:13 -/
def _Extend : Nat := 1 <<< 4
/-- words/trie.go:14 -/
def _ExtendNumLet : Nat := 1 <<< 5
/-- words/trie.go:15 -/
def _ExtendedPictographic : Nat := 1 <<< 6
/-- words/trie.go:16 -/
def _Format : Nat := 1 <<< 7
/-- words/trie.go:17 -/
def _HebrewLetter : Nat := 1 <<< 8
/-- words/trie.go:18 -/
def _Katakana : Nat := 1 <<< 9
/-- words/trie.go:19 -/
def _LF : Nat := 1 <<< 10
/-- words/trie.go:20 -/
def _MidLetter : Nat := 1 <<< 11
/-- words/trie.go:21 -/
def _MidNum : Nat := 1 <<< 12
/-- words/trie.go:22 -/
def _MidNumLet : Nat := 1 <<< 13
/-- words/trie.go:23 -/
def _Newline : Nat := 1 <<< 14
/-- words/trie.go:24 -/
def _Numeric : Nat := 1 <<< 15
/-- words/trie.go:25 -/
def _RegionalIndicator : Nat := 1 <<< 16
/-- words/trie.go:26 -/
def _SingleQuote : Nat := 1 <<< 17
/-- words/trie.go:27 -/
def _WSegSpace : Nat := 1 <<< 18
/-- words/trie.go:28 -/
def _ZWJ : Nat := 1 <<< 19
/-- words/splitfunc.go:14 -/
def _AHLetter : Nat := _ALetter ||| _HebrewLetter
/-- words/splitfunc.go:15 -/
def _MidNumLetQ : Nat := _MidNumLet ||| _SingleQuote
/-- words/splitfunc.go:16 -/
def _Ignore : Nat := _Extend ||| _Format ||| _ZWJ

/-- `type Joiners struct { Middle, Leading []rune }` — words/joiners.go:12-31. `none` is a nil
slice. A Go `rune` is an `int32`, hence `Int`. -/
structure Joiners where
  middle : Option (List Int)
  leading : Option (List Int)
  deriving DecidableEq, Repr

/-- `runesContain` — words/joiners.go:33-41. -/
def runesContain (runes : List Int) (rune : Int) : Bool :=
  match runes with
  | [] => false
  | r :: rs => if r = rune then true else runesContain rs rune

/-- `decodeRune(data[pos:])`, rune only — words/splitfunc.go:24-34. -/
def runeAt (data : Bytes) (pos : Nat) : Res Int :=
  match sliceFrom data pos with
  | .error f => .error f
  | .ok s => .ok (Utf8.decodeRune s).1

/-- The joiner test and update `if j != nil && j.X != nil { ...; current |= bits }` at `pos` —
words/splitfunc.go:66-73 (`X` = Leading, `bits` = `_AHLetter`) and 110-117 (`X` = Middle, `bits` =
`_MidNumLet`). `runes` is `none` if `j` or the slice is nil. -/
def applyJoiner (runes : Option (List Int)) (bits : Nat) (data : Bytes) (pos current : Nat) :
    Res Nat :=
  match runes with
  | none => .ok current
  | some rs =>
    match runeAt data pos with
    | .error f => .error f
    | .ok r => .ok (if runesContain rs r then current ||| bits else current)

/-- The variables of `splitFunc` that live across loop passes — words/splitfunc.go:47-56. -/
abbrev State := WordState

/-- words/splitfunc.go:233-265, the rules from WB13 on. `s` is the state before the pass and `next`
the one after it if the rune is joined; `next` holds the updated `lastExIgnore`. -/
def stepRest3 (s next : State) : Step State :=
  let current := next.current
  let lastExIgnore := next.lastExIgnore
  -- WB13
  if is current _Katakana && is lastExIgnore _Katakana then .cont next
  -- WB13a
  else if is current _ExtendNumLet
      && is lastExIgnore (_AHLetter ||| _Numeric ||| _Katakana ||| _ExtendNumLet) then .cont next
  -- WB13b
  else if is current (_AHLetter ||| _Numeric ||| _Katakana) && is lastExIgnore _ExtendNumLet then
    .cont next
  -- WB15, WB16
  else if is current _RegionalIndicator && is lastExIgnore _RegionalIndicator then
    let regionalIndicatorCount := s.regionalIndicatorCount + 1
    if regionalIndicatorCount % 2 = 1 then .cont { next with regionalIndicatorCount }
    else .brk s.pos
  -- WB999
  else .brk s.pos

/-- A look-ahead rule (WB6, WB7b, WB12): `advance, more := subsequent(properties, data[pos+w:], atEOF)`,
then `return 0, empty, nil` if `more`, `pos += w + advance; continue` if found, and the rules that
follow otherwise — words/splitfunc.go:163-176, 191-204, 219-231. `next.pos` is `pos + w`. -/
def lookAhead (properties : Nat) (data : Bytes) (atEOF : Bool) (next : State)
    (otherwise : Step State) : Step State :=
  match subsequentFrom trie _Ignore properties data next.pos atEOF with
  | .error f => .fault f
  | .ok (advance, more) =>
    if more then .more
    else if advance ≠ notfound then .cont { next with pos := next.pos + advance.toNat }
    else otherwise

/-- words/splitfunc.go:206-231: the rules WB7c, WB11 and WB12, then the rest. -/
def stepRest2 (data : Bytes) (atEOF : Bool) (s next : State) : Step State :=
  let current := next.current
  let lastExIgnore := next.lastExIgnore
  let lastLastExIgnore := next.lastLastExIgnore
  -- WB7c
  if is current _HebrewLetter && is lastExIgnore _DoubleQuote && is lastLastExIgnore _HebrewLetter
  then .cont next
  -- WB11
  else if is current _Numeric && is lastExIgnore (_MidNum ||| _MidNumLetQ)
      && is lastLastExIgnore _Numeric then .cont next
  -- WB12
  else if is current (_MidNum ||| _MidNumLetQ) && is lastExIgnore _Numeric then
    lookAhead _Numeric data atEOF next (stepRest3 s next)
  else stepRest3 s next

/-- words/splitfunc.go:178-204: the rules WB7, WB7a and WB7b, then the rest. -/
def stepRest1 (data : Bytes) (atEOF : Bool) (s next : State) : Step State :=
  let current := next.current
  let lastExIgnore := next.lastExIgnore
  let lastLastExIgnore := next.lastLastExIgnore
  -- WB7
  if is current _AHLetter && is lastExIgnore (_MidLetter ||| _MidNumLetQ)
      && is lastLastExIgnore _AHLetter then .cont next
  -- WB7a
  else if is current _SingleQuote && is lastExIgnore _HebrewLetter then .cont next
  -- WB7b
  else if is current _DoubleQuote && is lastExIgnore _HebrewLetter then
    lookAhead _HebrewLetter data atEOF next (stepRest2 data atEOF s next)
  else stepRest2 data atEOF s next

/-- words/splitfunc.go:119-176: the rules from WB5 to WB6, then the rest; `last` is the property
before `next.current`. -/
def rules (data : Bytes) (atEOF : Bool) (s next : State) : Step State :=
  let current := next.current
  let last := s.current
  let lastExIgnore := next.lastExIgnore
  -- WB5, WB8, WB9, WB10
  if is current (_Numeric ||| _AHLetter) && is lastExIgnore (_Numeric ||| _AHLetter) then .cont next
  -- WB3d
  else if is (current &&& last) _WSegSpace then .cont next
  -- WB3
  else if is current _LF && is last _CR then .cont next
  -- WB3a, WB3b
  else if is (last ||| current) (_Newline ||| _CR ||| _LF) then .brk s.pos
  -- WB3c
  else if is current _ExtendedPictographic && is last _ZWJ then .cont next
  -- WB4
  else if is current (_Extend ||| _Format ||| _ZWJ) then .cont next
  -- WB6
  else if is current (_MidLetter ||| _MidNumLetQ) && is lastExIgnore _AHLetter then
    lookAhead _AHLetter data atEOF next (stepRest1 data atEOF s next)
  else stepRest1 data atEOF s next

/-- One pass of the loop of `(*Joiners).splitFunc` — words/splitfunc.go:79-266. `middle` is
`j.Middle`, or `none` if `j` or `j.Middle` is nil. -/
def step (middle : Option (List Int)) (data : Bytes) (atEOF : Bool) (s : State) : Step State :=
  if s.pos = data.length then
    if !atEOF then .more else .brk s.pos                        -- WB2
  else
    let last := s.current
    let lastLastExIgnore := if !is last _Ignore then s.lastExIgnore else s.lastLastExIgnore
    let lastExIgnore := if !is last _Ignore then last else s.lastExIgnore
    match trie.lookupAt data s.pos with
    | .error f => .fault f
    | .ok (current, w) =>
      if w = 0 then
        if atEOF then .brk data.length else .more
      else
        match applyJoiner middle _MidNumLet data s.pos current with
        | .error f => .fault f
        | .ok current =>
          rules data atEOF s
            { pos := s.pos + w, current, lastExIgnore, lastLastExIgnore,
              regionalIndicatorCount := s.regionalIndicatorCount }

/-- `(j *Joiners[T]) splitFunc` — words/splitfunc.go:41-269. `j = none` is a nil pointer. -/
def joinersSplitFunc (j : Option Joiners) : SplitFn := fun data atEOF =>
  if data.length = 0 then .ok .requestMore
  else
    match trie.lookupAt data 0 with
    | .error f => .error f
    | .ok (current, w) =>
      if w = 0 then
        if !atEOF then .ok .requestMore
        else finish data (.brk data.length)
      else
        match applyJoiner (j.bind Joiners.leading) _AHLetter data 0 current with
        | .error f => .error f
        | .ok current =>
          finish data (runLoop (step (j.bind Joiners.middle) data atEOF) (loopFuel data)
            { pos := w, current, lastExIgnore := 0, lastLastExIgnore := 0,
              regionalIndicatorCount := 0 })

/-- `splitFunc[T]` and `SplitFunc` — words/splitfunc.go:22, 36-39: `var none Joiners[T]`, whose
slices are nil. -/
def splitFunc : SplitFn := joinersSplitFunc (some ⟨none, none⟩)

end Uax29.Words
