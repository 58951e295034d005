/-!
# Specification: the word boundary rules of UAX #29, and the rules of phrases

Rules WB1 to WB999 of https://unicode.org/reports/tr29/#Word_Boundary_Rules, written over the
properties of the characters and not over the code. Phrases change two things: Extended_Pictographic
counts as AHLetter, and WB8 to WB10 also join WSegSpace with letters, numbers and spaces.
-/
namespace Uax29.Spec

/-- The property values the rules speak of: Word_Break and Extended_Pictographic. -/
inductive WB where
  | CR | LF | Newline | Extend | ZWJ | Format | RegionalIndicator | Katakana | HebrewLetter | ALetter
  | SingleQuote | DoubleQuote | MidNumLet | MidLetter | MidNum | Numeric | ExtendNumLet | WSegSpace
  | ExtendedPictographic
  deriving DecidableEq, Repr

/-- The property values a character has. -/
abbrev WSet := WB → Bool

/-- `Newline | CR | LF` of WB3a and WB3b. -/
def WSet.newline (x : WSet) : Bool := x .Newline || x .CR || x .LF
/-- `Extend | Format | ZWJ` of WB4. -/
def WSet.ignorable (x : WSet) : Bool := x .Extend || x .Format || x .ZWJ
/-- The macro AHLetter; for phrases also Extended_Pictographic. -/
def WSet.ahLetter (phrases : Bool) (x : WSet) : Bool :=
  x .ALetter || x .HebrewLetter || (phrases && x .ExtendedPictographic)
/-- The macro MidNumLetQ. -/
def WSet.midNumLetQ (x : WSet) : Bool := x .MidNumLet || x .SingleQuote
/-- `MidLetter | MidNumLetQ` of WB6 and WB7. -/
def WSet.midLetter (x : WSet) : Bool := x .MidLetter || x.midNumLetQ
/-- `MidNum | MidNumLetQ` of WB11 and WB12. -/
def WSet.midNum (x : WSet) : Bool := x .MidNum || x.midNumLetQ
/-- What WB5 and WB8 to WB10 join: letters and numbers; for phrases also spaces. -/
def WSet.alnum (phrases : Bool) (x : WSet) : Bool :=
  x.ahLetter phrases || x .Numeric || (phrases && x .WSegSpace)

/-- WB4 for the text before a position, nearest character first: `X (Extend | Format | ZWJ)*` counts
as `X`. At the start of the text and after a newline there is no `X` to attach to. -/
def units : List WSet → List WSet
  | [] => []
  | a :: left =>
    match left with
    | [] => [a]
    | c :: _ => if a.ignorable && !c.newline then units left else a :: units left

/-- WB5 to WB999. `left` are the characters before, nearest first, `b` is the character after and
`next` the one after that, all in the sense of WB4. -/
def unitJoins (phrases : Bool) (left : List WSet) (b : WSet) (next : Option WSet) : Bool :=
  -- the character before, the one before that, and the one after `b`
  let before (f : WSet → Bool) := left.head?.any f
  let before2 (f : WSet → Bool) := left.tail.head?.any f
  let after (f : WSet → Bool) := next.any f
  -- WB5, WB8, WB9, WB10
  (before (·.alnum phrases) && b.alnum phrases)
  -- WB6
  || (before (·.ahLetter phrases) && b.midLetter && after (·.ahLetter phrases))
  -- WB7
  || (before2 (·.ahLetter phrases) && before (·.midLetter) && b.ahLetter phrases)
  -- WB7a
  || (before (· .HebrewLetter) && b .SingleQuote)
  -- WB7b
  || (before (· .HebrewLetter) && b .DoubleQuote && after (· .HebrewLetter))
  -- WB7c
  || (before2 (· .HebrewLetter) && before (· .DoubleQuote) && b .HebrewLetter)
  -- WB11
  || (before2 (· .Numeric) && before (·.midNum) && b .Numeric)
  -- WB12
  || (before (· .Numeric) && b.midNum && after (· .Numeric))
  -- WB13
  || (before (· .Katakana) && b .Katakana)
  -- WB13a
  || (before (fun x => x.ahLetter phrases || x .Numeric || x .Katakana || x .ExtendNumLet) && b .ExtendNumLet)
  -- WB13b
  || (before (· .ExtendNumLet) && (b.ahLetter phrases || b .Numeric || b .Katakana))
  -- WB15, WB16
  || (decide ((left.takeWhile (· .RegionalIndicator)).length % 2 = 1) && b .RegionalIndicator)
  -- WB999: otherwise break

/-- There is no boundary between `left`, given nearest character first, and `right`. -/
def joins (phrases : Bool) (left right : List WSet) : Bool :=
  match left, right with
  | a :: _, b :: after =>
    -- WB3
    if a .CR && b .LF then true
    -- WB3a, WB3b
    else if a.newline || b.newline then false
    -- WB3c
    else if a .ZWJ && b .ExtendedPictographic then true
    -- WB3d
    else if a .WSegSpace && b .WSegSpace then true
    -- WB4
    else if b.ignorable then true
    else unitJoins phrases (units left) b (after.dropWhile (·.ignorable)).head?
  | _, _ => false

/-- There is a word boundary between `before` and `after`, both in reading order. -/
def wordBreak (before after : List WSet) : Bool :=
  -- WB1, WB2
  before.isEmpty || after.isEmpty || !joins false before.reverse after

/-- There is a phrase boundary between `before` and `after`, both in reading order. -/
def phraseBreak (before after : List WSet) : Bool :=
  before.isEmpty || after.isEmpty || !joins true before.reverse after

end Uax29.Spec
