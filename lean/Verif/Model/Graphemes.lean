import Verif.Model.Trie
import Verif.Table.GraphemesValues
import Verif.Table.GraphemesIndex
/-! # graphemes/splitfunc.go -/
namespace Uax29.Graphemes

/-- graphemes/trie.go:108-1587 and 1591-1716: the tables of the graphemes trie. -/
def trie : Trie := ⟨Table.Values.blocks, Table.Index.blocks⟩

/-! graphemes/trie.go:8-26: `const ( _CR property = 1 << iota ... )`. -/
/-- graphemes/trie.go:9 -/
def _CR : Nat := 1 <<< 0
/-- graphemes/trie.go:10 -/
def _Control : Nat := 1 <<< 1
/-- graphemes/trie.go:11 -/
def _Extend : Nat := 1 <<< 2
/-- graphemes/trie.go:12 -/
def _ExtendedPictographic : Nat := 1 <<< 3
/-- graphemes/trie.go:13 -/
def _InCBConsonant : Nat := 1 <<< 4
/-- graphemes/trie.go:14 -/
def _InCBExtend : Nat := 1 <<< 5
/-- graphemes/trie.go:15 -/
def _InCBLinker : Nat := 1 <<< 6
/-- graphemes/trie.go:16 -/
def _L : Nat := 1 <<< 7
/-- graphemes/trie.go:17 -/
def _LF : Nat := 1 <<< 8
/-- graphemes/trie.go:18 -/
def _LV : Nat := 1 <<< 9
/-- graphemes/trie.go:19 -/
def _LVT : Nat := 1 <<< 10
/-- graphemes/trie.go:20 -/
def _Prepend : Nat := 1 <<< 11
/-- graphemes/trie.go:21 -/
def _RegionalIndicator : Nat := 1 <<< 12
/-- graphemes/trie.go:22 -/
def _SpacingMark : Nat := 1 <<< 13
/-- graphemes/trie.go:23 -/
def _T : Nat := 1 <<< 14
/-- graphemes/trie.go:24 -/
def _V : Nat := 1 <<< 15
/-- graphemes/trie.go:25 -/
def _ZWJ : Nat := 1 <<< 16
/-- graphemes/splitfunc.go:12 -/
def _Ignore : Nat := _Extend

/-- `incbState` — graphemes/splitfunc.go:16-22: `incbNone`, `incbConsonant`, `incbLinker`, in this
order (the code compares with `>=`). -/
inductive Incb where
  | none | consonant | linker
  deriving DecidableEq, Repr

/-- The variables of `splitFunc` that live across loop passes — graphemes/splitfunc.go:35-47. -/
structure State where
  pos : Nat
  current : Nat
  lastExIgnore : Nat
  lastLastExIgnore : Nat
  regionalIndicatorCount : Nat
  incb : Incb
  deriving DecidableEq, Repr

/-- graphemes/splitfunc.go:90-105: update of the GB9c state from `last`. -/
def updateIncb (last : Nat) (incb : Incb) : Incb :=
  if is last (_InCBConsonant ||| _InCBLinker ||| _InCBExtend) then
    if is last _InCBConsonant then
      if incb ≠ .linker then .consonant else incb
    else if is last _InCBLinker then
      if incb ≠ .none then .linker else incb                    -- incb >= incbConsonant
    else incb
  else .none

/-- graphemes/splitfunc.go:118-201: the rules, from the optimization and GB3 on. `s` is the state
before the pass and `next` the one after it if the rune is joined; `next` holds the updated `current`,
`lastExIgnore`, `lastLastExIgnore` and `incb`. -/
def rules (s next : State) : Step State :=
  let current := next.current
  let last := s.current
  if (current ||| last) = 0 then .brk s.pos
  -- GB3
  else if is current _LF && is last _CR then .cont next
  -- GB4, GB5
  else if is (current ||| last) (_Control ||| _CR ||| _LF) then .brk s.pos
  -- GB6
  else if is current (_L ||| _V ||| _LV ||| _LVT) && is last _L then .cont next
  -- GB7
  else if is current (_V ||| _T) && is last (_LV ||| _V) then .cont next
  -- GB8
  else if is current _T && is last (_LVT ||| _T) then .cont next
  -- GB9
  else if is current (_Extend ||| _ZWJ) then .cont next
  -- GB9a
  else if is current _SpacingMark then .cont next
  -- GB9b
  else if is last _Prepend then .cont next
  -- GB9c
  else if next.incb = .linker && is current _InCBConsonant then
    .cont { next with incb := .consonant }
  -- GB11
  else if is current _ExtendedPictographic && is last _ZWJ
      && is next.lastLastExIgnore _ExtendedPictographic then .cont next
  -- GB12, GB13
  else if is (current &&& last) _RegionalIndicator then
    let regionalIndicatorCount := s.regionalIndicatorCount + 1
    if regionalIndicatorCount % 2 = 1 then .cont { next with regionalIndicatorCount }
    else .brk s.pos
  else .brk s.pos

/-- One pass of the loop of `splitFunc` — graphemes/splitfunc.go:61-201. -/
def step (data : Bytes) (atEOF : Bool) (s : State) : Step State :=
  if s.pos = data.length then
    if !atEOF then .more else .brk s.pos                        -- GB2
  else
    let last := s.current
    let lastLastExIgnore := if !is last _Ignore then s.lastExIgnore else s.lastLastExIgnore
    let lastExIgnore := if !is last _Ignore then last else s.lastExIgnore
    let incb := updateIncb last s.incb
    match trie.lookupAt data s.pos with
    | .error f => .fault f
    | .ok (current, w) =>
      if w = 0 then
        if atEOF then .brk data.length else .more
      else
        rules s
          { pos := s.pos + w, current, lastExIgnore, lastLastExIgnore,
            regionalIndicatorCount := s.regionalIndicatorCount, incb }

/-- `splitFunc[T]` and `SplitFunc` — graphemes/splitfunc.go:27-205. -/
def splitFunc : SplitFn := fun data atEOF =>
  if data.length = 0 then .ok .requestMore
  else
    match trie.lookupAt data 0 with
    | .error f => .error f
    | .ok (current, w) =>
      if w = 0 then
        if !atEOF then .ok .requestMore
        else finish data (.brk data.length)
      else
        finish data (runLoop (step data atEOF) (loopFuel data)
          { pos := w, current, lastExIgnore := 0, lastLastExIgnore := 0,
            regionalIndicatorCount := 0, incb := .none })

end Uax29.Graphemes
