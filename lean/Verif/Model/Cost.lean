import Verif.Model.History
/-!
# The work of the iterators

Copies of the functions of the model that also count. The work of a call is the number of calls of
`lookup`, plus the number of bytes of the text that the loops of `Next` and of the ANSI parsers test.
Every copy returns the work together with the result of the original; Proofs/Cost.lean shows that the
result is the one of the original. A single call of `lookup` reads at most four bytes, and one test of
a joiner decodes one rune and compares it with the runes of the caller's list: both count as part of
the lookup next to them.
-/
namespace Uax29

/-- A result and the work done to get it. -/
abbrev Counted (α : Type) := Nat × α

/-- The result after `n` more units of work. -/
def after {α : Type} (n : Nat) (x : Counted α) : Counted α := (n + x.1, x.2)

/-- `subsequentLoop`, counting the calls of `lookup` — words/seek.go:9-42, phrases/seek.go:9-42,
sentences/seek.go:9-42. -/
def subsequentLoopC (T : Trie) (ignore properties : Nat) (data : Bytes) (atEOF : Bool) :
    Nat → Nat → Counted (Res (Int × Bool))
  | 0, _ => (0, .error .diverge)
  | fuel + 1, i =>
    if i < data.length then
      match T.lookupAt data i with
      | .error f => (1, .error f)
      | .ok (lookup, w) =>
        if w = 0 then
          if atEOF then (1, .ok (notfound, false)) else (1, .ok (notfound, true))
        else if is lookup ignore then
          after 1 (subsequentLoopC T ignore properties data atEOF fuel (i + w))
        else if is lookup properties then (1, .ok (i, false))
        else (1, .ok (notfound, false))
    else if atEOF then (0, .ok (notfound, false))
    else (0, .ok (notfound, true))

/-- `subsequentFrom`, counting — words/seek.go:7-43, phrases/seek.go:7-43, sentences/seek.go:7-43. -/
def subsequentFromC (T : Trie) (ignore properties : Nat) (data : Bytes) (i : Nat) (atEOF : Bool) :
    Counted (Res (Int × Bool)) :=
  match sliceFrom data i with
  | .error f => (0, .error f)
  | .ok d => subsequentLoopC T ignore properties d atEOF (d.length + 1) 0

/-- `runLoop`, adding up the work of the passes. -/
def runLoopC {σ : Type} (body : σ → Counted (Step σ)) : Nat → σ → Counted LoopOut
  | 0, _ => (0, .fault .diverge)
  | fuel + 1, s =>
    match body s with
    | (n, .cont s') => after n (runLoopC body fuel s')
    | (n, .brk pos) => (n, .brk pos)
    | (n, .more) => (n, .more)
    | (n, .fault f) => (n, .fault f)

/-- A split function that counts. -/
abbrev SplitFnC := Bytes → Bool → Counted (Res SplitRes)

/-- `finish`, which does no work of its own. -/
def finishC (data : Bytes) (x : Counted LoopOut) : Counted (Res SplitRes) := (x.1, finish data x.2)

namespace Words

/-- `lookAhead`, counting — words/splitfunc.go:163-176, 191-204, 219-231. -/
def lookAheadC (properties : Nat) (data : Bytes) (atEOF : Bool) (next : State)
    (otherwise : Counted (Step State)) : Counted (Step State) :=
  match subsequentFromC trie _Ignore properties data next.pos atEOF with
  | (n, .error f) => (n, .fault f)
  | (n, .ok (advance, more)) =>
    if more then (n, .more)
    else if advance ≠ notfound then (n, .cont { next with pos := next.pos + advance.toNat })
    else after n otherwise

/-- `stepRest2`, counting — words/splitfunc.go:206-231. -/
def stepRest2C (data : Bytes) (atEOF : Bool) (s next : State) : Counted (Step State) :=
  let current := next.current
  let lastExIgnore := next.lastExIgnore
  let lastLastExIgnore := next.lastLastExIgnore
  -- WB7c
  if is current _HebrewLetter && is lastExIgnore _DoubleQuote && is lastLastExIgnore _HebrewLetter
  then (0, .cont next)
  -- WB11
  else if is current _Numeric && is lastExIgnore (_MidNum ||| _MidNumLetQ)
      && is lastLastExIgnore _Numeric then (0, .cont next)
  -- WB12
  else if is current (_MidNum ||| _MidNumLetQ) && is lastExIgnore _Numeric then
    lookAheadC _Numeric data atEOF next (0, stepRest3 s next)
  else (0, stepRest3 s next)

/-- `stepRest1`, counting — words/splitfunc.go:178-204. -/
def stepRest1C (data : Bytes) (atEOF : Bool) (s next : State) : Counted (Step State) :=
  let current := next.current
  let lastExIgnore := next.lastExIgnore
  let lastLastExIgnore := next.lastLastExIgnore
  -- WB7
  if is current _AHLetter && is lastExIgnore (_MidLetter ||| _MidNumLetQ)
      && is lastLastExIgnore _AHLetter then (0, .cont next)
  -- WB7a
  else if is current _SingleQuote && is lastExIgnore _HebrewLetter then (0, .cont next)
  -- WB7b
  else if is current _DoubleQuote && is lastExIgnore _HebrewLetter then
    lookAheadC _HebrewLetter data atEOF next (stepRest2C data atEOF s next)
  else stepRest2C data atEOF s next

/-- `rules`, counting — words/splitfunc.go:119-176. -/
def rulesC (data : Bytes) (atEOF : Bool) (s next : State) : Counted (Step State) :=
  let current := next.current
  let last := s.current
  let lastExIgnore := next.lastExIgnore
  -- WB5, WB8, WB9, WB10
  if is current (_Numeric ||| _AHLetter) && is lastExIgnore (_Numeric ||| _AHLetter) then
    (0, .cont next)
  -- WB3d
  else if is (current &&& last) _WSegSpace then (0, .cont next)
  -- WB3
  else if is current _LF && is last _CR then (0, .cont next)
  -- WB3a, WB3b
  else if is (last ||| current) (_Newline ||| _CR ||| _LF) then (0, .brk s.pos)
  -- WB3c
  else if is current _ExtendedPictographic && is last _ZWJ then (0, .cont next)
  -- WB4
  else if is current (_Extend ||| _Format ||| _ZWJ) then (0, .cont next)
  -- WB6
  else if is current (_MidLetter ||| _MidNumLetQ) && is lastExIgnore _AHLetter then
    lookAheadC _AHLetter data atEOF next (stepRest1C data atEOF s next)
  else stepRest1C data atEOF s next

/-- `step`, counting — words/splitfunc.go:79-266. -/
def stepC (middle : Option (List Int)) (data : Bytes) (atEOF : Bool) (s : State) :
    Counted (Step State) :=
  if s.pos = data.length then
    if !atEOF then (0, .more) else (0, .brk s.pos)              -- WB2
  else
    let last := s.current
    let lastLastExIgnore := if !is last _Ignore then s.lastExIgnore else s.lastLastExIgnore
    let lastExIgnore := if !is last _Ignore then last else s.lastExIgnore
    match trie.lookupAt data s.pos with
    | .error f => (1, .fault f)
    | .ok (current, w) =>
      if w = 0 then
        if atEOF then (1, .brk data.length) else (1, .more)
      else
        match applyJoiner middle _MidNumLet data s.pos current with
        | .error f => (1, .fault f)
        | .ok current =>
          after 1 (rulesC data atEOF s
            { pos := s.pos + w, current, lastExIgnore, lastLastExIgnore,
              regionalIndicatorCount := s.regionalIndicatorCount })

/-- `joinersSplitFunc`, counting — words/splitfunc.go:41-269. -/
def joinersSplitFuncC (j : Option Joiners) : SplitFnC := fun data atEOF =>
  if data.length = 0 then (0, .ok .requestMore)
  else
    match trie.lookupAt data 0 with
    | .error f => (1, .error f)
    | .ok (current, w) =>
      if w = 0 then
        if !atEOF then (1, .ok .requestMore)
        else (1, finish data (.brk data.length))
      else
        match applyJoiner (j.bind Joiners.leading) _AHLetter data 0 current with
        | .error f => (1, .error f)
        | .ok current =>
          after 1 (finishC data (runLoopC (stepC (j.bind Joiners.middle) data atEOF) (loopFuel data)
            { pos := w, current, lastExIgnore := 0, lastLastExIgnore := 0,
              regionalIndicatorCount := 0 }))

end Words

namespace Phrases

/-- `lookAhead`, counting — phrases/splitfunc.go:128-140, 155-167, 191-203. -/
def lookAheadC (properties : Nat) (data : Bytes) (atEOF : Bool) (next : State)
    (otherwise : Counted (Step State)) : Counted (Step State) :=
  match subsequentFromC trie _Ignore properties data next.pos atEOF with
  | (n, .error f) => (n, .fault f)
  | (n, .ok (advance, more)) =>
    if more then (n, .more)
    else if advance ≠ notfound then (n, .cont { next with pos := next.pos + advance.toNat })
    else after n otherwise

/-- `stepRest2`, counting — phrases/splitfunc.go:169-203. -/
def stepRest2C (data : Bytes) (atEOF : Bool) (s next : State) : Counted (Step State) :=
  let current := next.current
  let lastExIgnore := next.lastExIgnore
  let lastLastExIgnore := next.lastLastExIgnore
  -- WB7c
  if is current _HebrewLetter && is lastExIgnore _DoubleQuote && is lastLastExIgnore _HebrewLetter
  then (0, .cont next)
  -- WB8, WB9, WB10, with _WSegSpace added
  else if is current (_Numeric ||| _AHLetter ||| _WSegSpace)
      && is lastExIgnore (_Numeric ||| _AHLetter ||| _WSegSpace) then (0, .cont next)
  -- WB11
  else if is current _Numeric && is lastExIgnore (_MidNum ||| _MidNumLetQ)
      && is lastLastExIgnore _Numeric then (0, .cont next)
  -- WB12
  else if is current (_MidNum ||| _MidNumLetQ) && is lastExIgnore _Numeric then
    lookAheadC _Numeric data atEOF next (0, stepRest3 s next)
  else (0, stepRest3 s next)

/-- `stepRest1`, counting — phrases/splitfunc.go:142-167. -/
def stepRest1C (data : Bytes) (atEOF : Bool) (s next : State) : Counted (Step State) :=
  let current := next.current
  let lastExIgnore := next.lastExIgnore
  let lastLastExIgnore := next.lastLastExIgnore
  -- WB7
  if is current _AHLetter && is lastExIgnore (_MidLetter ||| _MidNumLetQ)
      && is lastLastExIgnore _AHLetter then (0, .cont next)
  -- WB7a
  else if is current _SingleQuote && is lastExIgnore _HebrewLetter then (0, .cont next)
  -- WB7b
  else if is current _DoubleQuote && is lastExIgnore _HebrewLetter then
    lookAheadC _HebrewLetter data atEOF next (stepRest2C data atEOF s next)
  else stepRest2C data atEOF s next

/-- `rules`, counting — phrases/splitfunc.go:82-140. -/
def rulesC (data : Bytes) (atEOF : Bool) (s next : State) : Counted (Step State) :=
  let current := next.current
  let last := s.current
  let lastExIgnore := next.lastExIgnore
  if (current ||| last) = 0 then (0, .brk s.pos)
  -- WB3
  else if is current _LF && is last _CR then (0, .cont next)
  -- WB3a, WB3b
  else if is (last ||| current) (_Newline ||| _CR ||| _LF) then (0, .brk s.pos)
  -- WB3c
  else if is current _ExtendedPictographic && is last _ZWJ then (0, .cont next)
  -- WB3d
  else if is (current &&& last) _WSegSpace then (0, .cont next)
  -- WB4
  else if is current (_Extend ||| _Format ||| _ZWJ) then (0, .cont next)
  -- WB5
  else if is current _AHLetter && is lastExIgnore _AHLetter then (0, .cont next)
  -- WB6
  else if is current (_MidLetter ||| _MidNumLetQ) && is lastExIgnore _AHLetter then
    lookAheadC _AHLetter data atEOF next (stepRest1C data atEOF s next)
  else stepRest1C data atEOF s next

/-- `step`, counting — phrases/splitfunc.go:51-238. -/
def stepC (data : Bytes) (atEOF : Bool) (s : State) : Counted (Step State) :=
  if s.pos = data.length then
    if !atEOF then (0, .more) else (0, .brk s.pos)              -- WB2
  else
    let last := s.current
    let lastLastExIgnore := if !is last _Ignore then s.lastExIgnore else s.lastLastExIgnore
    let lastExIgnore := if !is last _Ignore then last else s.lastExIgnore
    match trie.lookupAt data s.pos with
    | .error f => (1, .fault f)
    | .ok (current, w) =>
      if w = 0 then
        if atEOF then (1, .brk data.length) else (1, .more)
      else
        after 1 (rulesC data atEOF s
          { pos := s.pos + w, current, lastExIgnore, lastLastExIgnore,
            regionalIndicatorCount := s.regionalIndicatorCount })

/-- `splitFunc`, counting — phrases/splitfunc.go:19-241. -/
def splitFuncC : SplitFnC := fun data atEOF =>
  if data.length = 0 then (0, .ok .requestMore)
  else
    match trie.lookupAt data 0 with
    | .error f => (1, .error f)
    | .ok (current, w) =>
      if w = 0 then
        if !atEOF then (1, .ok .requestMore)
        else (1, finish data (.brk data.length))
      else
        after 1 (finishC data (runLoopC (stepC data atEOF) (loopFuel data)
          { pos := w, current, lastExIgnore := 0, lastLastExIgnore := 0,
            regionalIndicatorCount := 0 }))

end Phrases

namespace Sentences

/-- `scan8`, counting — sentences/splitfunc.go:150-167. -/
def scan8C (data : Bytes) (atEOF : Bool) : Nat → Nat → Counted Scan8
  | 0, _ => (0, .fault .diverge)
  | fuel + 1, p =>
    if p < data.length then
      match trie.lookupAt data p with
      | .error f => (1, .fault f)
      | .ok (lookup, w) =>
        if w = 0 then
          if atEOF then (1, .breakMain) else (1, .more)
        else if is lookup (_OLetter ||| _Upper ||| _Lower ||| _ParaSep ||| _SATerm) then (1, .stop p)
        else after 1 (scan8C data atEOF fuel (p + w))
    else (0, .stop p)

/-- `rules`, counting — sentences/splitfunc.go:105-180. -/
def rulesC (data : Bytes) (atEOF : Bool) (s next : State) : Counted (Step State) :=
  let current := next.current
  let last := s.current
  if (current ||| last) = 0 then (0, .cont next)
  -- SB3
  else if is current _LF && is last _CR then (0, .cont next)
  -- SB4
  else if is last _ParaSep then (0, .brk s.pos)
  -- SB5
  else if is current (_Extend ||| _Format) then (0, .cont next)
  -- SB6
  else if is current _Numeric && is next.lastExIgnore _ATerm then (0, .cont next)
  -- SB7
  else if is current _Upper && is next.lastExIgnore _ATerm
      && is next.lastLastExIgnore (_Upper ||| _Lower) then (0, .cont next)
  -- SB8
  else if is next.lastExIgnoreSpClose _ATerm then
    match scan8C data atEOF (data.length + 1) s.pos with
    | (n, .fault f) => (n, .fault f)
    | (n, .more) => (n, .more)
    | (n, .breakMain) => (n, .brk data.length)
    | (n, .stop p) =>
      match subsequentFromC trie _Ignore _Lower data p atEOF with
      | (m, .error f) => (n + m, .fault f)
      | (m, .ok (advance, more)) =>
        if more then (n + m, .more)
        else if advance ≠ notfound then (n + m, .cont { next with pos := p + advance.toNat })
        else (n + m, stepRest s next)
  else (0, stepRest s next)

/-- `step`, counting — sentences/splitfunc.go:56-210. -/
def stepC (data : Bytes) (atEOF : Bool) (s : State) : Counted (Step State) :=
  if s.pos = data.length then
    if !atEOF then (0, .more) else (0, .brk s.pos)              -- SB2
  else
    match trie.lookupAt data s.pos with
    | .error f => (1, .fault f)
    | .ok (current, w) =>
      if w = 0 then
        if atEOF then (1, .brk data.length) else (1, .more)
      else
        after 1 (rulesC data atEOF s { remember s with pos := s.pos + w, current })

/-- `splitFunc`, counting — sentences/splitfunc.go:21-214. -/
def splitFuncC : SplitFnC := fun data atEOF =>
  if data.length = 0 then (0, .ok .requestMore)
  else
    match trie.lookupAt data 0 with
    | .error f => (1, .error f)
    | .ok (current, w) =>
      if w = 0 then
        if !atEOF then (1, .ok .requestMore)
        else (1, finish data (.brk data.length))
      else
        after 1 (finishC data (runLoopC (stepC data atEOF) (loopFuel data)
          { pos := w, current, lastExIgnore := 0, lastLastExIgnore := 0, lastExIgnoreSp := 0,
            lastExIgnoreClose := 0, lastExIgnoreSpClose := 0, lastExIgnoreParaSepSpClose := 0 }))

end Sentences

namespace Graphemes

/-- `step`, counting: the rules look nothing up — graphemes/splitfunc.go:61-201. -/
def stepC (data : Bytes) (atEOF : Bool) (s : State) : Counted (Step State) :=
  if s.pos = data.length then
    if !atEOF then (0, .more) else (0, .brk s.pos)              -- GB2
  else
    let last := s.current
    let lastLastExIgnore := if !is last _Ignore then s.lastExIgnore else s.lastLastExIgnore
    let lastExIgnore := if !is last _Ignore then last else s.lastExIgnore
    let incb := updateIncb last s.incb
    match trie.lookupAt data s.pos with
    | .error f => (1, .fault f)
    | .ok (current, w) =>
      if w = 0 then
        if atEOF then (1, .brk data.length) else (1, .more)
      else
        (1, rules s
          { pos := s.pos + w, current, lastExIgnore, lastLastExIgnore,
            regionalIndicatorCount := s.regionalIndicatorCount, incb })

/-- `splitFunc`, counting — graphemes/splitfunc.go:27-205. -/
def splitFuncC : SplitFnC := fun data atEOF =>
  if data.length = 0 then (0, .ok .requestMore)
  else
    match trie.lookupAt data 0 with
    | .error f => (1, .error f)
    | .ok (current, w) =>
      if w = 0 then
        if !atEOF then (1, .ok .requestMore)
        else (1, finish data (.brk data.length))
      else
        after 1 (finishC data (runLoopC (stepC data atEOF) (loopFuel data)
          { pos := w, current, lastExIgnore := 0, lastLastExIgnore := 0,
            regionalIndicatorCount := 0, incb := .none }))

end Graphemes

/-! ## The iterators -/

/-- `Iter.callSplit`, counting; `split` is the counting copy of the iterator's split function —
graphemes/iterator.go:89-101, words/iterator.go:66-78, phrases/iterator.go:64-76,
sentences/iterator.go:64-76. -/
def Iter.callSplitC (split : SplitFnC) (it : Iter) : Counted (Iter × NextOut) :=
  match sliceFrom it.data it.pos with
  | .error f => (0, it, .fault f)
  | .ok remaining =>
    match split remaining true with
    | (n, .error f) => (n, it, .fault f)
    | (n, .ok r) =>
      match r.err with
      | some e => (n, it, .fault (.panic e))
      | none =>
        if r.advance ≤ 0 then
          (n, it, .fault (.panic "splitFunc returned a zero or negative advance"))
        else
          let it := { it with pos := it.pos + r.advance.toNat }
          if it.pos > it.data.length then
            (n, it, .fault (.panic "splitFunc advanced beyond end of data"))
          else (n, it, .ret true)

/-- `countWhile`, counting the bytes tested: those that pass, and the one that ends the loop before the
end of the data — words/iterator.go:54-56, phrases/iterator.go:49-51, sentences/iterator.go:49-51. -/
def countWhileC (p : UInt8 → Bool) : Bytes → Counted Nat
  | [] => (0, 0)
  | b :: rest =>
    if p b then
      match countWhileC p rest with
      | (n, k) => (n + 1, k + 1)
    else (1, 0)

/-- `Words.next`, counting: the first byte, the bytes of the loop and the byte compared with the space
are tested — words/iterator.go:42-79. -/
def Words.nextC (split : SplitFnC) (it : Iter) : Counted (Iter × NextOut) :=
  if it.pos ≥ it.data.length then (0, it, .ret false)
  else
    let it := { it with start := it.pos }
    match index it.data it.pos with
    | .error f => (0, it, .fault f)
    | .ok b =>
      if isASCIIAlphanumeric b then
        match countWhileC isASCIIAlphanumeric (it.data.drop (it.pos + 1)) with
        | (n, k) =>
          let e := it.pos + 1 + k
          if e ≥ it.data.length || it.data[e]? == some 0x20 then
            (1 + n + (if e ≥ it.data.length then 0 else 1), { it with pos := e }, .ret true)
          else after (1 + n + 1) (it.callSplitC split)
      else after 1 (it.callSplitC split)

/-- `Iter.nextSkipping`, counting — phrases/iterator.go:41-77, sentences/iterator.go:41-77. -/
def Iter.nextSkippingC (split : SplitFnC) (it : Iter) : Counted (Iter × NextOut) :=
  if it.pos ≥ it.data.length then (0, it, .ret false)
  else
    let it := { it with start := it.pos }
    match countWhileC isASCIIAlphanumericOrSpace (it.data.drop it.pos) with
    | (n, k) =>
      let it := { it with pos := it.pos + k }
      if it.pos ≥ it.data.length then (n, it, .ret true)
      else
        let it := if it.pos > it.start then { it with pos := it.pos - 1 } else it
        after n (it.callSplitC split)

namespace Graphemes

/-- `csiLoop`, counting the bytes tested — graphemes/ansi.go:71-88. -/
def csiLoopC (seenIntermediate : Bool) (i : Nat) : Bytes → Counted Nat
  | [] => (0, 0)
  | x :: rest =>
    let b := x.toNat
    if 0x30 ≤ b ∧ b ≤ 0x3F then
      if seenIntermediate then (1, 0) else after 1 (csiLoopC seenIntermediate (i + 1) rest)
    else if 0x20 ≤ b ∧ b ≤ 0x2F then after 1 (csiLoopC true (i + 1) rest)
    else if 0x40 ≤ b ∧ b ≤ 0x7E then (1, i + 1)
    else (1, 0)

/-- `oscLoop`, counting the passes — graphemes/ansi.go:102-114. -/
def oscLoopC (i : Nat) : Bytes → Counted (Option Nat)
  | [] => (0, none)
  | x :: rest =>
    let b := x.toNat
    if b = bel then (1, some (i + 1))
    else if b = can ∨ b = sub then (1, some i)
    else if isST7 x rest then (1, some (i + 2))
    else after 1 (oscLoopC (i + 1) rest)

/-- `stLoop`, counting the passes — graphemes/ansi.go:129-137. -/
def stLoopC (i : Nat) : Bytes → Counted (Option Nat)
  | [] => (0, none)
  | x :: rest =>
    let b := x.toNat
    if b = can ∨ b = sub then (1, some i)
    else if isST7 x rest then (1, some (i + 2))
    else after 1 (stLoopC (i + 1) rest)

/-- `nfLoop`, counting the bytes tested — graphemes/ansi.go:49-56. -/
def nfLoopC (i : Nat) : Bytes → Counted Nat
  | [] => (0, 0)
  | x :: rest =>
    let b := x.toNat
    if 0x20 ≤ b ∧ b ≤ 0x2F then after 1 (nfLoopC (i + 1) rest)
    else if 0x30 ≤ b ∧ b ≤ 0x7E then (1, i + 1)
    else (1, 0)

/-- `ansiEscapeLength`, counting the passes of its loops — graphemes/ansi.go:11-60. -/
def ansiEscapeLengthC (data : Bytes) : Counted Nat :=
  match data with
  | x0 :: x1 :: rest =>
    if x0.toNat ≠ esc then (0, 0)
    else
      let b1 := x1.toNat
      if b1 = 0x5B then                                         -- '[' CSI
        match csiLoopC false 0 rest with
        | (n, body) => if body = 0 then (n, 0) else (n, 2 + body)
      else if b1 = 0x5D then                                    -- ']' OSC
        match oscLoopC 0 rest with
        | (n, none) => (n, 0)
        | (n, some body) => (n, 2 + body)
      else if b1 = 0x50 ∨ b1 = 0x58 ∨ b1 = 0x5E ∨ b1 = 0x5F then -- 'P', 'X', '^', '_'
        match stLoopC 0 rest with
        | (n, none) => (n, 0)
        | (n, some body) => (n, 2 + body)
      else if 0x40 ≤ b1 ∧ b1 ≤ 0x7E then (0, 2)
      else if 0x30 ≤ b1 ∧ b1 ≤ 0x3F then (0, 2)
      else if 0x20 ≤ b1 ∧ b1 ≤ 0x2F then nfLoopC 2 rest
      else (0, 0)
  | _ => (0, 0)

/-- `oscLoopC1`, counting the passes — graphemes/ansi8.go:54-62. -/
def oscLoopC1C (i : Nat) : Bytes → Counted (Option Nat)
  | [] => (0, none)
  | x :: rest =>
    let b := x.toNat
    if b = bel ∨ b = st then (1, some (i + 1))
    else if b = can ∨ b = sub then (1, some i)
    else after 1 (oscLoopC1C (i + 1) rest)

/-- `stLoopC1`, counting the passes — graphemes/ansi8.go:69-77. -/
def stLoopC1C (i : Nat) : Bytes → Counted (Option Nat)
  | [] => (0, none)
  | x :: rest =>
    let b := x.toNat
    if b = can ∨ b = sub then (1, some i)
    else if b = st then (1, some (i + 1))
    else after 1 (stLoopC1C (i + 1) rest)

/-- `ansiEscapeLength8Bit`, counting the passes of its loops — graphemes/ansi8.go:11-42. -/
def ansiEscapeLength8BitC (data : Bytes) : Counted Nat :=
  match data with
  | [] => (0, 0)
  | x0 :: rest =>
    let b0 := x0.toNat
    if b0 = 0x9B then                                           -- C1 CSI
      match csiLoopC false 0 rest with
      | (n, body) => if body = 0 then (n, 0) else (n, 1 + body)
    else if b0 = 0x9D then                                      -- C1 OSC
      match oscLoopC1C 0 rest with
      | (n, none) => (n, 0)
      | (n, some body) => (n, 1 + body)
    else if b0 = 0x90 ∨ b0 = 0x98 ∨ b0 = 0x9E ∨ b0 = 0x9F then  -- C1 DCS, SOS, PM, APC
      match stLoopC1C 0 rest with
      | (n, none) => (n, 0)
      | (n, some body) => (n, 1 + body)
    else if 0x80 ≤ b0 ∧ b0 ≤ 0x9F then (0, 1)
    else (0, 0)

/-- `nextPlain`, counting the byte after the first one — graphemes/iterator.go:80-101. -/
def nextPlainC (split : SplitFnC) (it : Iter) (b : Nat) : Counted (Iter × NextOut) :=
  if b < Utf8.runeSelf && b != cr then
    if it.pos + 1 ≥ it.data.length then (0, { it with pos := it.pos + 1 }, .ret true)
    else
      match index it.data (it.pos + 1) with
      | .error f => (0, it, .fault f)
      | .ok b1 =>
        if b1.toNat < Utf8.runeSelf then (1, { it with pos := it.pos + 1 }, .ret true)
        else after 1 (it.callSplitC split)
  else it.callSplitC split

/-- `next8`, counting — graphemes/iterator.go:73-78. -/
def next8C (split : SplitFnC) (o : Options) (it : Iter) (b : Nat) : Counted (Iter × NextOut) :=
  if o.ansi8 && 0x80 ≤ b && b ≤ 0x9F then
    match sliceFrom it.data it.pos with
    | .error f => (0, it, .fault f)
    | .ok d =>
      match ansiEscapeLength8BitC d with
      | (n, a) =>
        if a > 0 then (n, { it with pos := it.pos + a }, .ret true)
        else after n (nextPlainC split it b)
  else nextPlainC split it b

/-- `next`, counting the first byte — graphemes/iterator.go:60-102. -/
def nextC (split : SplitFnC) (o : Options) (it : Iter) : Counted (Iter × NextOut) :=
  if it.pos ≥ it.data.length then (0, it, .ret false)
  else
    let it := { it with start := it.pos }
    match index it.data it.pos with
    | .error f => (0, it, .fault f)
    | .ok x =>
      let b := x.toNat
      if o.ansi7 && b == esc then
        match sliceFrom it.data it.pos with
        | .error f => (0, it, .fault f)
        | .ok d =>
          match ansiEscapeLengthC d with
          | (n, a) =>
            if a > 0 then (1 + n, { it with pos := it.pos + a }, .ret true)
            else after (1 + n) (next8C split o it b)
      else after 1 (next8C split o it b)

end Graphemes

/-- `collect`, adding up the work of the calls of `Next`. -/
def collectC (next : Iter → Counted (Iter × NextOut)) : Nat → Iter → Counted (Res (List Bytes))
  | 0, _ => (0, .error .diverge)
  | fuel + 1, it =>
    match next it with
    | (n, _, .fault f) => (n, .error f)
    | (n, _, .ret false) => (n, .ok [])
    | (n, it', .ret true) =>
      match it'.value with
      | .error f => (n, .error f)
      | .ok v =>
        match collectC next fuel it' with
        | (m, .error f) => (n + m, .error f)
        | (m, .ok vs) => (n + m, .ok (v :: vs))

/-- All graphemes of `data` with the options `o`, and the work. -/
def Graphemes.tokensC (o : Options) (data : Bytes) : Counted (Res (List Bytes)) :=
  collectC (nextC splitFuncC o) (data.length + 1) (fromBytes data)

/-- All words of `data` with joiners, and the work. -/
def Words.tokensC (j : Option Joiners) (data : Bytes) : Counted (Res (List Bytes)) :=
  collectC (nextC (joinersSplitFuncC j)) (data.length + 1) (setJoiners (fromBytes data) j)

/-- All phrases of `data`, and the work. -/
def Phrases.tokensC (data : Bytes) : Counted (Res (List Bytes)) :=
  collectC (Iter.nextSkippingC splitFuncC) (data.length + 1) (fromBytes data)

/-- All sentences of `data`, and the work. -/
def Sentences.tokensC (data : Bytes) : Counted (Res (List Bytes)) :=
  collectC (Iter.nextSkippingC splitFuncC) (data.length + 1) (fromBytes data)

/-- All tokens of `data` in package `p` with configuration `c`, and the work. -/
def tokensC (p : Pkg) (c : Config p) (data : Bytes) : Counted (Res (List Bytes)) :=
  match p, c with
  | .graphemes, c => Graphemes.tokensC c data
  | .words, c => Words.tokensC c data
  | .phrases, _ => Phrases.tokensC data
  | .sentences, _ => Sentences.tokensC data

end Uax29
