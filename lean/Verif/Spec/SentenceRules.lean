/-!
# Specification: the sentence boundary rules of UAX #29

Rules SB1 to SB998 of https://unicode.org/reports/tr29/#Sentence_Boundary_Rules, written over the
Sentence_Break values of the characters and not over the code.
-/
namespace Uax29.Spec

/-- The values of the property Sentence_Break. -/
inductive SB where
  | CR | LF | Sep | Extend | Format | Sp | Lower | Upper | OLetter | Numeric | ATerm | SContinue
  | STerm | Close | Other
  deriving DecidableEq, Repr

/-- The macro ParaSep. -/
def SB.paraSep (x : SB) : Bool := x = .Sep || x = .CR || x = .LF
/-- The macro SATerm. -/
def SB.saTerm (x : SB) : Bool := x = .STerm || x = .ATerm
/-- `Extend | Format` of SB5. -/
def SB.ignorable (x : SB) : Bool := x = .Extend || x = .Format
/-- `OLetter | Upper | Lower | ParaSep | SATerm` of SB8. -/
def SB.stops (x : SB) : Bool := x = .OLetter || x = .Upper || x = .Lower || x.paraSep || x.saTerm

/-- SB5 for the text before a position, nearest character first: `X (Extend | Format)*` counts as
`X`. At the start of the text and after a ParaSep there is no `X` to attach to. -/
def sunits : List SB → List SB
  | [] => []
  | a :: left =>
    match left with
    | [] => [a]
    | c :: _ => if a.ignorable && !c.paraSep then sunits left else a :: sunits left

/-- The text before a position, nearest first, ends with `X Close*`. -/
def endsClose (X : SB → Bool) (left : List SB) : Bool := (left.dropWhile (· = .Close)).head?.any X

/-- The text before a position, nearest first, ends with `X Close* Sp*`. -/
def endsCloseSp (X : SB → Bool) (left : List SB) : Bool := endsClose X (left.dropWhile (· = .Sp))

/-- The right hand side of SB8: `( ¬(OLetter | Upper | Lower | ParaSep | SATerm) )* Lower`. -/
def lowerAhead (right : List SB) : Bool := (right.dropWhile (!·.stops)).head? = some .Lower

/-- SB6 to SB998. `left` are the characters before, nearest first, in the sense of SB5, `b` is the
character after, and `ahead` says that the right hand side of SB8 matches. -/
def sunitJoins (ahead : Bool) (left : List SB) (b : SB) : Bool :=
  let before (f : SB → Bool) := left.head?.any f
  let before2 (f : SB → Bool) := left.tail.head?.any f
  -- SB6
  if before (· = .ATerm) && b = .Numeric then true
  -- SB7
  else if before2 (fun x => x = .Upper || x = .Lower) && before (· = .ATerm) && b = .Upper then true
  -- SB8
  else if endsCloseSp (· = .ATerm) left && ahead then true
  -- SB8a
  else if endsCloseSp (·.saTerm) left && (b = .SContinue || b.saTerm) then true
  -- SB9
  else if endsClose (·.saTerm) left && (b = .Close || b = .Sp || b.paraSep) then true
  -- SB10
  else if endsCloseSp (·.saTerm) left && (b = .Sp || b.paraSep) then true
  -- SB11
  else if endsCloseSp (·.saTerm) left || (before (·.paraSep) && endsCloseSp (·.saTerm) left.tail) then false
  -- SB998
  else true

/-- There is no boundary between `left`, given nearest character first, and `right`, if `ahead` says
that the right hand side of SB8 matches. -/
def sjoinsIf (ahead : Bool) (left right : List SB) : Bool :=
  match left, right with
  | a :: _, b :: _ =>
    -- SB3
    if a = .CR && b = .LF then true
    -- SB4
    else if a.paraSep then false
    -- SB5
    else if b.ignorable then true
    else sunitJoins ahead (sunits left) b
  | _, _ => false

/-- There is no boundary between `left`, given nearest character first, and `right`. -/
def sjoins (left right : List SB) : Bool := sjoinsIf (lowerAhead right) left right

/-- There is a sentence boundary between `before` and `after`, both in reading order. -/
def sentenceBreak (before after : List SB) : Bool :=
  -- SB1, SB2
  before.isEmpty || after.isEmpty || !sjoins before.reverse after

end Uax29.Spec
