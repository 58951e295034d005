/-!
# Specification: the grapheme cluster boundary rules of UAX #29

Rules GB1 to GB999 of https://unicode.org/reports/tr29/#Grapheme_Cluster_Boundary_Rules, written over
the properties of the characters and not over the code.
-/
namespace Uax29.Spec

/-- The property values the rules speak of: Grapheme_Cluster_Break, Extended_Pictographic and
Indic_Conjunct_Break. -/
inductive GB where
  | CR | LF | Control | Extend | ZWJ | RegionalIndicator | Prepend | SpacingMark
  | L | V | T | LV | LVT | ExtendedPictographic | InCBConsonant | InCBExtend | InCBLinker
  deriving DecidableEq, Repr

/-- The property values a character has. -/
abbrev GSet := GB → Bool

/-- `Control | CR | LF` of GB4 and GB5. -/
def GSet.control (x : GSet) : Bool := x .Control || x .CR || x .LF

/-- The left side of GB9c, for the text before a position, nearest character first:
`\p{InCB=Consonant} [\p{InCB=Extend}\p{InCB=Linker}]* \p{InCB=Linker} [\p{InCB=Extend}\p{InCB=Linker}]*`. -/
def conjunct (left : List GSet) : Bool :=
  let between := left.takeWhile fun x => x .InCBExtend || x .InCBLinker
  between.any (· .InCBLinker) && (left.drop between.length).head?.any (· .InCBConsonant)

/-- The left side of GB11: `\p{Extended_Pictographic} Extend* ZWJ`. -/
def pictographZwj (left : List GSet) : Bool :=
  left.head?.any (· .ZWJ) && (left.tail.dropWhile (· .Extend)).head?.any (· .ExtendedPictographic)

/-- The left side of GB12 and GB13: an odd number of regional indicators. -/
def oddIndicators (left : List GSet) : Bool :=
  (left.takeWhile (· .RegionalIndicator)).length % 2 = 1

/-- There is no boundary between `left`, given nearest character first, and `right`. -/
def graphemeJoins (left right : List GSet) : Bool :=
  match left, right with
  | a :: _, b :: _ =>
    -- GB3
    if a .CR && b .LF then true
    -- GB4, GB5
    else if a.control || b.control then false
    else
      -- GB6
      (a .L && (b .L || b .V || b .LV || b .LVT))
      -- GB7
      || ((a .LV || a .V) && (b .V || b .T))
      -- GB8
      || ((a .LVT || a .T) && b .T)
      -- GB9
      || (b .Extend || b .ZWJ)
      -- GB9a
      || b .SpacingMark
      -- GB9b
      || a .Prepend
      -- GB9c
      || (conjunct left && b .InCBConsonant)
      -- GB11
      || (pictographZwj left && b .ExtendedPictographic)
      -- GB12, GB13
      || (oddIndicators left && b .RegionalIndicator)
      -- GB999: otherwise break
  | _, _ => false

/-- There is a boundary between `before` and `after`, both in reading order. -/
def graphemeBreak (before after : List GSet) : Bool :=
  -- GB1, GB2
  before.isEmpty || after.isEmpty || !graphemeJoins before.reverse after

end Uax29.Spec
