import Verif.Model.Go
/-! # graphemes/ansi.go and graphemes/ansi8.go

A byte is compared as a `Nat`. The loops over an index `i` are structural recursions over the rest of
the slice that carry `i`. -/
namespace Uax29.Graphemes

/-- graphemes/iterator.go:50 -/
def esc : Nat := 0x1B
/-- graphemes/iterator.go:51 -/
def cr : Nat := 0x0D
/-- graphemes/iterator.go:52 -/
def bel : Nat := 0x07
/-- graphemes/iterator.go:53 -/
def can : Nat := 0x18
/-- graphemes/iterator.go:54 -/
def sub : Nat := 0x1A
/-- graphemes/iterator.go:55 -/
def st : Nat := 0x9C

/-- The loop of `csiBodyLength` from index `i` — graphemes/ansi.go:71-88. -/
def csiLoop (seenIntermediate : Bool) (i : Nat) : Bytes → Nat
  | [] => 0
  | x :: rest =>
    let b := x.toNat
    if 0x30 ≤ b ∧ b ≤ 0x3F then
      if seenIntermediate then 0 else csiLoop seenIntermediate (i + 1) rest
    else if 0x20 ≤ b ∧ b ≤ 0x2F then csiLoop true (i + 1) rest
    else if 0x40 ≤ b ∧ b ≤ 0x7E then i + 1
    else 0

/-- `csiBodyLength` — graphemes/ansi.go:69-89. -/
def csiBodyLength (data : Bytes) : Nat := csiLoop false 0 data

/-- The test `data[i] == esc && i+1 < len(data) && data[i+1] == '\\'` — graphemes/ansi.go:110, 133;
`x` is `data[i]` and `rest` is `data[i+1:]`. -/
def isST7 (x : UInt8) (rest : Bytes) : Bool :=
  x.toNat == esc && (match rest with | y :: _ => y.toNat == 0x5C | [] => false)

/-- The loop of `oscLength` from index `i`; `none` is `-1` — graphemes/ansi.go:102-114. -/
def oscLoop (i : Nat) : Bytes → Option Nat
  | [] => none
  | x :: rest =>
    let b := x.toNat
    if b = bel then some (i + 1)
    else if b = can ∨ b = sub then some i
    else if isST7 x rest then some (i + 2)
    else oscLoop (i + 1) rest

/-- `oscLength` — graphemes/ansi.go:101-115. -/
def oscLength (data : Bytes) : Option Nat := oscLoop 0 data

/-- The loop of `stSequenceLength` from index `i`; `none` is `-1` — graphemes/ansi.go:129-137. -/
def stLoop (i : Nat) : Bytes → Option Nat
  | [] => none
  | x :: rest =>
    let b := x.toNat
    if b = can ∨ b = sub then some i
    else if isST7 x rest then some (i + 2)
    else stLoop (i + 1) rest

/-- `stSequenceLength` — graphemes/ansi.go:128-138. -/
def stSequenceLength (data : Bytes) : Option Nat := stLoop 0 data

/-- The nF loop from index `i` and the test of the final byte — graphemes/ansi.go:49-56. -/
def nfLoop (i : Nat) : Bytes → Nat
  | [] => 0
  | x :: rest =>
    let b := x.toNat
    if 0x20 ≤ b ∧ b ≤ 0x2F then nfLoop (i + 1) rest
    else if 0x30 ≤ b ∧ b ≤ 0x7E then i + 1
    else 0

/-- `ansiEscapeLength` — graphemes/ansi.go:11-60. -/
def ansiEscapeLength (data : Bytes) : Nat :=
  match data with
  | x0 :: x1 :: rest =>
    if x0.toNat ≠ esc then 0
    else
      let b1 := x1.toNat
      if b1 = 0x5B then                                         -- '[' CSI
        let body := csiBodyLength rest
        if body = 0 then 0 else 2 + body
      else if b1 = 0x5D then                                    -- ']' OSC
        match oscLength rest with
        | none => 0
        | some body => 2 + body
      else if b1 = 0x50 ∨ b1 = 0x58 ∨ b1 = 0x5E ∨ b1 = 0x5F then -- 'P', 'X', '^', '_'
        match stSequenceLength rest with
        | none => 0
        | some body => 2 + body
      else if 0x40 ≤ b1 ∧ b1 ≤ 0x7E then 2
      else if 0x30 ≤ b1 ∧ b1 ≤ 0x3F then 2
      else if 0x20 ≤ b1 ∧ b1 ≤ 0x2F then nfLoop 2 rest
      else 0
  | _ => 0

/-- The loop of `oscLengthC1` from index `i`; `none` is `-1` — graphemes/ansi8.go:54-62. -/
def oscLoopC1 (i : Nat) : Bytes → Option Nat
  | [] => none
  | x :: rest =>
    let b := x.toNat
    if b = bel ∨ b = st then some (i + 1)
    else if b = can ∨ b = sub then some i
    else oscLoopC1 (i + 1) rest

/-- `oscLengthC1` — graphemes/ansi8.go:53-64. -/
def oscLengthC1 (data : Bytes) : Option Nat := oscLoopC1 0 data

/-- The loop of `stSequenceLengthC1` from index `i`; `none` is `-1` — graphemes/ansi8.go:69-77. -/
def stLoopC1 (i : Nat) : Bytes → Option Nat
  | [] => none
  | x :: rest =>
    let b := x.toNat
    if b = can ∨ b = sub then some i
    else if b = st then some (i + 1)
    else stLoopC1 (i + 1) rest

/-- `stSequenceLengthC1` — graphemes/ansi8.go:68-79. -/
def stSequenceLengthC1 (data : Bytes) : Option Nat := stLoopC1 0 data

/-- `ansiEscapeLength8Bit` — graphemes/ansi8.go:11-42. -/
def ansiEscapeLength8Bit (data : Bytes) : Nat :=
  match data with
  | [] => 0
  | x0 :: rest =>
    let b0 := x0.toNat
    if b0 = 0x9B then                                           -- C1 CSI
      let body := csiBodyLength rest
      if body = 0 then 0 else 1 + body
    else if b0 = 0x9D then                                      -- C1 OSC
      match oscLengthC1 rest with
      | none => 0
      | some body => 1 + body
    else if b0 = 0x90 ∨ b0 = 0x98 ∨ b0 = 0x9E ∨ b0 = 0x9F then  -- C1 DCS, SOS, PM, APC
      match stSequenceLengthC1 rest with
      | none => 0
      | some body => 1 + body
    else if 0x80 ≤ b0 ∧ b0 ≤ 0x9F then 1
    else 0

end Uax29.Graphemes
