import Verif.Model.Seek
import Verif.Table.SentencesValues
import Verif.Table.SentencesIndex
/-! # sentences/splitfunc.go -/
namespace Uax29.Sentences

/-- sentences/trie.go:105-3612 and 3616-3835: the tables of the sentences trie. -/
def trie : Trie := ⟨Table.Values.blocks, Table.Index.blocks⟩

/-! sentences/trie.go:8-23: `const ( _ATerm property = 1 << iota ... )`. -/
/-- sentences/trie.go:9 -/
def _ATerm : Nat := 1 <<< 0
/-- sentences/trie.go:10 -/
def _CR : Nat := 1 <<< 1
/-- sentences/trie.go:11 -/
def _Close : Nat := 1 <<< 2
/-- sentences/trie.go:12 -/
def _Extend : Nat := 1 <<< 3
/-- sentences/trie.go:13 -/
def _Format : Nat := 1 <<< 4
/-- sentences/trie.go:14 -/
def _LF : Nat := 1 <<< 5
/-- sentences/trie.go:15 -/
def _Lower : Nat := 1 <<< 6
/-- sentences/trie.go:16 -/
def _Numeric : Nat := 1 <<< 7
/-- sentences/trie.go:17 -/
def _OLetter : Nat := 1 <<< 8
/-- sentences/trie.go:18 -/
def _SContinue : Nat := 1 <<< 9
/-- sentences/trie.go:19 -/
def _STerm : Nat := 1 <<< 10
/-- sentences/trie.go:20 -/
def _Sep : Nat := 1 <<< 11
/-- sentences/trie.go:21 -/
def _Sp : Nat := 1 <<< 12
/-- sentences/trie.go:22 -/
def _Upper : Nat := 1 <<< 13
/-- sentences/splitfunc.go:13 -/
def _SATerm : Nat := _STerm ||| _ATerm
/-- sentences/splitfunc.go:14 -/
def _ParaSep : Nat := _Sep ||| _CR ||| _LF
/-- sentences/splitfunc.go:15 -/
def _Ignore : Nat := _Extend ||| _Format

/-- The variables of `splitFunc` that live across loop passes — sentences/splitfunc.go:30-42. -/
structure State where
  pos : Nat
  current : Nat
  lastExIgnore : Nat
  lastLastExIgnore : Nat
  lastExIgnoreSp : Nat
  lastExIgnoreClose : Nat
  lastExIgnoreSpClose : Nat
  lastExIgnoreParaSepSpClose : Nat
  deriving DecidableEq, Repr

/-- sentences/splitfunc.go:70-92: remember the previous properties. `pos` and `current` are not
touched. -/
def remember (s : State) : State :=
  let last := s.current
  let lastLastExIgnore := if !is last _Ignore then s.lastExIgnore else s.lastLastExIgnore
  let lastExIgnore := if !is last _Ignore then last else s.lastExIgnore
  let lastExIgnoreSp := if !is lastExIgnore _Sp then lastExIgnore else s.lastExIgnoreSp
  let lastExIgnoreClose := if !is lastExIgnore _Close then lastExIgnore else s.lastExIgnoreClose
  let lastExIgnoreSpClose :=
    if !is lastExIgnoreSp _Close then lastExIgnoreSp else s.lastExIgnoreSpClose
  let lastExIgnoreParaSepSpClose :=
    if !is lastExIgnoreSpClose _ParaSep then lastExIgnoreSpClose else s.lastExIgnoreParaSepSpClose
  { s with lastLastExIgnore, lastExIgnore, lastExIgnoreSp, lastExIgnoreClose, lastExIgnoreSpClose,
           lastExIgnoreParaSepSpClose }

/-- How the inner loop of SB8 ends: at position `p`, by `break main` with `pos = len(data)`, by
returning `0, empty, nil`, or with a fault. -/
inductive Scan8 where
  | stop (p : Nat)
  | breakMain
  | more
  | fault (f : Fault)
  deriving DecidableEq, Repr

/-- The inner loop of SB8 — sentences/splitfunc.go:150-167. -/
def scan8 (data : Bytes) (atEOF : Bool) : Nat → Nat → Scan8
  | 0, _ => .fault .diverge
  | fuel + 1, p =>
    if p < data.length then
      match trie.lookupAt data p with
      | .error f => .fault f
      | .ok (lookup, w) =>
        if w = 0 then
          if atEOF then .breakMain else .more
        else if is lookup (_OLetter ||| _Upper ||| _Lower ||| _ParaSep ||| _SATerm) then .stop p
        else scan8 data atEOF fuel (p + w)
    else .stop p

/-- sentences/splitfunc.go:182-209: the rules from SB8a on. `s` is the state before the pass and
`next` the one after it if the rune is joined. -/
def stepRest (s next : State) : Step State :=
  let current := next.current
  -- SB8a
  if is current (_SContinue ||| _SATerm) && is next.lastExIgnoreSpClose _SATerm then .cont next
  -- SB9
  else if is current (_Close ||| _Sp ||| _ParaSep) && is next.lastExIgnoreClose _SATerm then
    .cont next
  -- SB10
  else if is current (_Sp ||| _ParaSep) && is next.lastExIgnoreSpClose _SATerm then .cont next
  -- SB11
  else if is next.lastExIgnore _SATerm
      || (is next.lastExIgnore _Close && is next.lastExIgnoreClose _SATerm)
      || (is next.lastExIgnore _Sp && is next.lastExIgnoreSpClose _SATerm)
      || (is next.lastExIgnore _ParaSep && is next.lastExIgnoreParaSepSpClose _SATerm) then
    .brk s.pos
  -- SB998
  else .cont next

/-- sentences/splitfunc.go:105-180: from the optimization and SB3 to SB8, then the rest. -/
def rules (data : Bytes) (atEOF : Bool) (s next : State) : Step State :=
  let current := next.current
  let last := s.current
  if (current ||| last) = 0 then .cont next
  -- SB3
  else if is current _LF && is last _CR then .cont next
  -- SB4
  else if is last _ParaSep then .brk s.pos
  -- SB5
  else if is current (_Extend ||| _Format) then .cont next
  -- SB6
  else if is current _Numeric && is next.lastExIgnore _ATerm then .cont next
  -- SB7
  else if is current _Upper && is next.lastExIgnore _ATerm
      && is next.lastLastExIgnore (_Upper ||| _Lower) then .cont next
  -- SB8
  else if is next.lastExIgnoreSpClose _ATerm then
    match scan8 data atEOF (data.length + 1) s.pos with
    | .fault f => .fault f
    | .more => .more
    | .breakMain => .brk data.length
    | .stop p =>
      match subsequentFrom trie _Ignore _Lower data p atEOF with
      | .error f => .fault f
      | .ok (advance, more) =>
        if more then .more
        else if advance ≠ notfound then .cont { next with pos := p + advance.toNat }
        else stepRest s next
  else stepRest s next

/-- One pass of the loop of `splitFunc` — sentences/splitfunc.go:56-210. -/
def step (data : Bytes) (atEOF : Bool) (s : State) : Step State :=
  if s.pos = data.length then
    if !atEOF then .more else .brk s.pos                        -- SB2
  else
    match trie.lookupAt data s.pos with
    | .error f => .fault f
    | .ok (current, w) =>
      if w = 0 then
        if atEOF then .brk data.length else .more
      else
        rules data atEOF s { remember s with pos := s.pos + w, current }

/-- `splitFunc[T]` and `SplitFunc` — sentences/splitfunc.go:21-214. -/
def splitFunc : SplitFn := fun data atEOF =>
  if data.length = 0 then .ok .requestMore
  else
    match trie.lookupAt data 0 with
    | .error f => .error f
    | .ok (current, w) =>
      if w = 0 then
        if !atEOF then .ok .requestMore
        else finish data (.brk data.length)
      else
        finish data (runLoop (step data atEOF) (loopFuel data)
          { pos := w, current, lastExIgnore := 0, lastLastExIgnore := 0, lastExIgnoreSp := 0,
            lastExIgnoreClose := 0, lastExIgnoreSpClose := 0, lastExIgnoreParaSepSpClose := 0 })

end Uax29.Sentences
