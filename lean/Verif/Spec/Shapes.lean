import Verif.Spec.WordClasses
import Verif.Spec.SentenceClasses
/-! # Specification: what words look like, how sentences end -/
namespace Uax29.Spec

/-- Extend, Format or ZWJ. -/
def WordMark (c : Char) : Prop := wordClasses c .Extend = true ∨ wordClasses c .Format = true ∨ wordClasses c .ZWJ = true

/-- The punctuation that may be within a word. -/
def WordMid (c : Char) : Prop :=
  wordClasses c .MidLetter = true ∨ wordClasses c .MidNum = true ∨ wordClasses c .MidNumLet = true
  ∨ wordClasses c .SingleQuote = true ∨ wordClasses c .DoubleQuote = true

/-- `x` ends with such a character, and marks. -/
def EndsWith (P : Char → Prop) (x : List Char) : Prop := ∃ x' c m, x = x' ++ c :: m ∧ P c ∧ ∀ d ∈ m, WordMark d

/-- `y` starts with such a character, after marks. -/
def StartsWith (P : Char → Prop) (y : List Char) : Prop := ∃ m c y', y = m ++ c :: y' ∧ P c ∧ ∀ d ∈ m, WordMark d

/-- An emoji sequence: a ZWJ and a pictograph after it. -/
def HasEmojiJoin (t : List Char) : Prop :=
  ∃ x c d y, t = x ++ c :: d :: y ∧ wordClasses c .ZWJ = true ∧ wordClasses d .ExtendedPictographic = true

/-- How punctuation gets into a word: between letters, between digits, or quotes with Hebrew letters. -/
def MidPlace (x : List Char) (c : Char) (y : List Char) : Prop :=
  ((wordClasses c .MidLetter = true ∨ wordClasses c .MidNumLet = true ∨ wordClasses c .SingleQuote = true)
    ∧ EndsWith (fun d => wordClasses d .ALetter = true ∨ wordClasses d .HebrewLetter = true) x
    ∧ StartsWith (fun d => wordClasses d .ALetter = true ∨ wordClasses d .HebrewLetter = true) y)
  ∨ ((wordClasses c .MidNum = true ∨ wordClasses c .MidNumLet = true ∨ wordClasses c .SingleQuote = true)
    ∧ EndsWith (fun d => wordClasses d .Numeric = true) x ∧ StartsWith (fun d => wordClasses d .Numeric = true) y)
  ∨ (wordClasses c .SingleQuote = true ∧ EndsWith (fun d => wordClasses d .HebrewLetter = true) x)
  ∨ (wordClasses c .DoubleQuote = true ∧ EndsWith (fun d => wordClasses d .HebrewLetter = true) x
    ∧ StartsWith (fun d => wordClasses d .HebrewLetter = true) y)

/-- `t` ends with a line end or separator, or with a terminator, closing characters and blanks; marks and format characters
(Extend, Format) may be after each of them. -/
def EndsSentence (t : List Char) : Prop :=
  (∃ x c, t = x ++ [c] ∧ (sentenceClass c = .CR ∨ sentenceClass c = .LF ∨ sentenceClass c = .Sep))
  ∨ ∃ x c y z, t = x ++ c :: (y ++ z) ∧ (sentenceClass c = .STerm ∨ sentenceClass c = .ATerm)
    ∧ (∀ d ∈ y, sentenceClass d = .Close ∨ sentenceClass d = .Extend ∨ sentenceClass d = .Format)
    ∧ ∀ d ∈ z, sentenceClass d = .Sp ∨ sentenceClass d = .Extend ∨ sentenceClass d = .Format

/-- The rules put a boundary between `a` and `b` that is due to a full stop with any brackets and blanks after it, and the text
ends before they could know better: `b` has no letter, line end or terminator. -/
def Undetermined (a b : List SB) : Prop :=
  b ≠ [] ∧ sentenceBreak a b = true ∧ endsCloseSp (· = .ATerm) (sunits a.reverse) = true ∧ ∀ x ∈ b, x.stops = false

end Uax29.Spec
