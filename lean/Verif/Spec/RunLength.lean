import Verif.Spec.Replace
import Verif.Spec.GraphemeRules
import Verif.Spec.WordRules
import Verif.Spec.SentenceRules
/-! # Specification: runs of characters of one kind, made longer or shorter -/
namespace Uax29.Spec

/-- The kinds of characters that form runs in graphemes: marks, prepended characters, and the parts of
Hangul syllables. -/
def GSet.forms (x : GSet) : Bool := x .Extend || x .SpacingMark || x .Prepend || x .L || x .V || x .T

/-- The kinds of characters that form runs in words: letters, numbers, Katakana, underscores, blanks, marks
and format characters; in phrases also pictographs. -/
def WSet.forms (phrases : Bool) (x : WSet) : Bool :=
  x .ALetter || x .HebrewLetter || x .Numeric || x .Katakana || x .ExtendNumLet || x .WSegSpace
  || x .Extend || x .Format || x .ZWJ || (phrases && x .ExtendedPictographic)

/-- The kinds of characters that form runs in sentences: all but full stops and the characters that end
paragraphs. -/
def SB.forms (x : SB) : Bool := !(x = .ATerm || x = .Sep || x = .CR || x = .LF)

/-- A replacement of characters by one or more characters of the same kind, where the kind is one of `forms`. -/
def Stretches {K : Type} (cl : Char → K) (forms : K → Bool) (f : Char → List Char) : Prop :=
  ∀ c, f c = [c] ∨ (forms (cl c) = true ∧ f c ≠ [] ∧ ∀ d ∈ f c, cl d = cl c)

/-- Two runs of the same kind: one character each, or any number of characters if the kind is one of `forms`. -/
def SameRun {K : Type} (cl : Char → K) (forms : K → Bool) (r : List Char × List Char) : Prop :=
  r.1 ≠ [] ∧ r.2 ≠ [] ∧ ∃ x, (∀ c ∈ r.1, cl c = x) ∧ (∀ c ∈ r.2, cl c = x)
    ∧ (forms x = true ∨ (r.1.length = 1 ∧ r.2.length = 1))

/-- One character written twice. -/
def twice (c d : Char) : List Char := if d = c then [c, c] else [d]

end Uax29.Spec
