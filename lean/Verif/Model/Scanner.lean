import Verif.Model.Iterators
/-!
# The scanners

`FromReader` of each package returns a `bufio.Scanner` over the package's split function
(graphemes/reader.go:19-25, words/reader.go:18-25, phrases/reader.go, sentences/reader.go).
`bufio.Scanner` is in Go's standard library and not in /repo; it is modelled here after its source
(bufio/scan.go), with an `io.Reader` whose behaviour is a script.

Simplifications: a `Read` that returns a negative count or more than was asked for (which gives
`ErrBadReadCount`) is not modelled, and the split function's `ErrFinalToken` is not treated
specially, since no split function of the repository returns an error. The bytes of a token are
copied at the time of the call (`Text`); later reads do not change them.
-/
namespace Uax29.Scanner

/-- An error value: `io.EOF`, one of `bufio`'s errors, or an error of the reader or split function. -/
inductive Err where
  | eof
  | tooLong
  | negativeAdvance
  | advanceTooFar
  | noProgress
  | other (msg : String)
  deriving DecidableEq, Repr

/-- What an `io.Reader` does at its next calls. Each entry is the bytes it has ready and the error
that comes with the last of them; an entry longer than the buffer asked for is delivered in pieces.
After the script every `Read` gives `0, io.EOF`. -/
abbrev Reader := List (Bytes × Option Err)

/-- One call of `Read` with a buffer of `n` bytes: the bytes read, the error, and the reader after
the call. -/
def read (n : Nat) : Reader → Bytes × Option Err × Reader
  | [] => ([], some .eof, [])
  | (bs, e) :: rest =>
    if bs.length ≤ n then (bs, e, rest) else (bs.take n, none, (bs.drop n, e) :: rest)

/-- `bufio.Scanner`. `window` is `s.buf[s.start:s.end]`, `bufLen` is `len(s.buf)`; `s.end` is
`start + window.length`. -/
structure State where
  split : SplitFn
  reader : Reader
  maxTokenSize : Nat
  token : Option Bytes
  bufLen : Nat
  start : Nat
  window : Bytes
  err : Option Err
  empties : Nat

/-- `s.end`. -/
def State.end' (s : State) : Nat := s.start + s.window.length

/-- `bufio.startBufSize`. -/
def startBufSize : Nat := 4096
/-- `bufio.MaxScanTokenSize`. -/
def maxScanTokenSize : Nat := 64 * 1024
/-- `bufio.maxConsecutiveEmptyReads`. -/
def maxConsecutiveEmptyReads : Nat := 100

/-- `bufio.NewScanner(r)` followed by `s.Split(split)`. -/
def new (split : SplitFn) (r : Reader) : State :=
  ⟨split, r, maxScanTokenSize, none, 0, 0, [], none, 0⟩

/-- `s.Buffer(buf, max)` with `cap(buf) = n`, before the first `Scan`. -/
def State.buffer (s : State) (n max : Nat) : State := { s with bufLen := n, maxTokenSize := max }

/-- `setErr`: records the first error, or replaces `io.EOF`. -/
def State.setErr (s : State) (e : Err) : State :=
  match s.err with
  | none | some .eof => { s with err := some e }
  | _ => s

/-- `Err`: the first error that is not `io.EOF`. -/
def State.getErr (s : State) : Option Err :=
  match s.err with
  | some .eof => none
  | e => e

/-- The inner read loop of `Scan`; `loop` is the number of empty reads so far and `k` bounds the
passes. -/
def readLoop : Nat → Nat → State → State
  | 0, _, s => s
  | k + 1, loop, s =>
    match read (s.bufLen - s.end') s.reader with
    | (bs, e, r) =>
      let s := { s with window := s.window ++ bs, reader := r }
      match e with
      | some e => s.setErr e
      | none =>
        if bs.length > 0 then { s with empties := 0 }
        else if loop + 1 > maxConsecutiveEmptyReads then s.setErr .noProgress
        else readLoop k (loop + 1) s

/-- What a pass of the loop of `Scan` does: return, go on, or panic. -/
inductive Pass where
  | ret (b : Bool) (s : State)
  | cont (s : State)
  | fault (f : Fault)

/-- The second half of a pass: no token with what is held. -/
def fill (s : State) : Pass :=
  if s.err.isSome then .ret false { s with start := 0, window := [] }
  else
    let s := if s.start > 0 ∧ (s.end' = s.bufLen ∨ s.start > s.bufLen / 2) then
        { s with start := 0 } else s
    if s.end' = s.bufLen then
      if s.bufLen ≥ s.maxTokenSize then .ret false (s.setErr .tooLong)
      else
        let newSize := if s.bufLen * 2 = 0 then startBufSize else s.bufLen * 2
        let newSize := min newSize s.maxTokenSize
        .cont (readLoop (maxConsecutiveEmptyReads + 1) 0 { s with bufLen := newSize, start := 0 })
    else .cont (readLoop (maxConsecutiveEmptyReads + 1) 0 s)

/-- One pass of the loop of `Scan`. -/
def pass (s : State) : Pass :=
  if s.window.length > 0 ∨ s.err.isSome then
    match s.split s.window s.err.isSome with
    | .error f => .fault f
    | .ok r =>
      match r.err with
      | some e => .ret false (s.setErr (.other e))
      | none =>
        -- advance
        if r.advance < 0 then .ret false (s.setErr .negativeAdvance)
        else if r.advance > s.window.length then .ret false (s.setErr .advanceTooFar)
        else
          let s := { s with start := s.start + r.advance.toNat,
                            window := s.window.drop r.advance.toNat,
                            token := r.token }
          match r.token with
          | none => fill s
          | some _ =>
            if s.err.isNone ∨ r.advance > 0 then .ret true { s with empties := 0 }
            else
              let s := { s with empties := s.empties + 1 }
              if s.empties > maxConsecutiveEmptyReads then
                .fault (.panic "bufio.Scan: too many empty tokens without progressing")
              else .ret true s
  else fill s

/-- The bytes a reader still has to give. -/
def Reader.size (r : Reader) : Nat := (r.map fun e => e.1.length).sum

/-- The loop of `Scan`. -/
def scanLoop : Nat → State → Res (Bool × State)
  | 0, _ => .error .diverge
  | fuel + 1, s =>
    match pass s with
    | .ret b s => .ok (b, s)
    | .fault f => .error f
    | .cont s => scanLoop fuel s

/-- `Scan`; every pass that does not return reads at least a byte or records an error. -/
def scan (s : State) : Res (Bool × State) := scanLoop (Reader.size s.reader + 2) s

/-- The loop of a user, `for s.Scan() { use(s.Text()) }`, then `s.Err()`
(graphemes/README.md, words/README.md, sentences/README.md). -/
def collect : Nat → State → Res (List Bytes × Option Err)
  | 0, _ => .error .diverge
  | fuel + 1, s =>
    match scan s with
    | .error f => .error f
    | .ok (false, s) => .ok ([], s.getErr)
    | .ok (true, s) =>
      match collect fuel s with
      | .error f => .error f
      | .ok (ts, e) => .ok (s.token.getD [] :: ts, e)

/-- All tokens of a new scanner and its final error; `fuel` allows one token per byte. -/
def tokens (s : State) : Res (List Bytes × Option Err) := collect (Reader.size s.reader + 1) s

end Uax29.Scanner
