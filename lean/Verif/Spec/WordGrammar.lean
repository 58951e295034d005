import Verif.Spec.WordRules
/-!
# Specification: a grammar for words and phrases

UAX #29 gives no regular expression for words. This is one, written over the properties of the characters, without the rules.
With `ph` it is the grammar for phrases: a pictograph is a letter there, and a blank is joined with letters and digits.
-/
namespace Uax29.Spec

variable (ph : Bool) (cl : Char → WSet)

/-- `(Extend | Format | ZWJ)*`, which may come after every character of a word. -/
def Marks (m : List Char) : Prop := ∀ d ∈ m, cl d .Extend = true ∨ cl d .Format = true ∨ cl d .ZWJ = true

/-- A letter; in phrases also a pictograph. -/
def IsLetter (c : Char) : Prop :=
  cl c .ALetter = true ∨ cl c .HebrewLetter = true ∨ (ph = true ∧ cl c .ExtendedPictographic = true)

/-- A letter or a digit; in phrases also a blank. -/
def IsAlnum (c : Char) : Prop := IsLetter ph cl c ∨ cl c .Numeric = true ∨ (ph = true ∧ cl c .WSegSpace = true)

/-- What an underscore may be next to: letters, digits, Katakana and underscores. -/
def IsSolid (c : Char) : Prop :=
  IsLetter ph cl c ∨ cl c .Numeric = true ∨ cl c .Katakana = true ∨ cl c .ExtendNumLet = true

/-- What may be next to each other: letters and digits, Katakana and Katakana, underscores and all of these. -/
def IsPair (c d : Char) : Prop :=
  (IsAlnum ph cl c ∧ IsAlnum ph cl d) ∨ (cl c .Katakana = true ∧ cl d .Katakana = true)
  ∨ (cl c .ExtendNumLet = true ∧ IsSolid ph cl d) ∨ (IsSolid ph cl c ∧ cl d .ExtendNumLet = true)

/-- Punctuation `q` between `c` and `d`: between letters (as in `can't`), between digits (`3.14`), and between Hebrew letters. -/
def IsMid (c q d : Char) : Prop :=
  (IsLetter ph cl c ∧ (cl q .MidLetter = true ∨ cl q .MidNumLet = true ∨ cl q .SingleQuote = true) ∧ IsLetter ph cl d)
  ∨ (cl c .Numeric = true ∧ (cl q .MidNum = true ∨ cl q .MidNumLet = true ∨ cl q .SingleQuote = true) ∧ cl d .Numeric = true)
  ∨ (cl c .HebrewLetter = true ∧ cl q .DoubleQuote = true ∧ cl d .HebrewLetter = true)

/-- Letters, digits, Katakana and underscores, with punctuation between; the last of them, without its marks, is the argument. -/
inductive WordRun : Char → List Char → Prop
  | one (c : Char) (m : List Char) (hc : IsAlnum ph cl c ∨ cl c .Katakana = true ∨ cl c .ExtendNumLet = true) (hm : Marks cl m) :
      WordRun c (c :: m)
  | next {c : Char} {s : List Char} (d : Char) (m : List Char) (hs : WordRun c s) (hd : IsPair ph cl c d) (hm : Marks cl m) :
      WordRun d (s ++ d :: m)
  | mid {c : Char} {s : List Char} (q : Char) (m : List Char) (d : Char) (m' : List Char) (hs : WordRun c s) (hq : IsMid ph cl c q d)
      (hm : Marks cl m) (hm' : Marks cl m') : WordRun d (s ++ q :: m ++ d :: m')

/-- A word without emoji sequences: a run (after a Hebrew letter at its end there may be a single quote), blanks, a flag, or any
one character. -/
inductive WordPiece : List Char → Prop
  | run {c : Char} {s : List Char} (hs : WordRun ph cl c s) : WordPiece s
  | quote {c : Char} {s : List Char} (q : Char) (m : List Char) (hs : WordRun ph cl c s) (hc : cl c .HebrewLetter = true)
      (hq : cl q .SingleQuote = true) (hm : Marks cl m) : WordPiece (s ++ q :: m)
  | blanks (b m : List Char) (hne : b ≠ []) (hb : ∀ c ∈ b, cl c .WSegSpace = true) (hm : Marks cl m) : WordPiece (b ++ m)
  | flag (a b : Char) (m m' : List Char) (ha : cl a .RegionalIndicator = true) (hb : cl b .RegionalIndicator = true)
      (hm : Marks cl m) (hm' : Marks cl m') : WordPiece (a :: m ++ b :: m')
  | other (c : Char) (m : List Char) (hc : cl c .CR = false ∧ cl c .LF = false ∧ cl c .Newline = false) (hm : Marks cl m) :
      WordPiece (c :: m)

/-- WordPieces, with a ZWJ before and a pictograph after the place where they meet. -/
inductive WordPieces : List Char → Prop
  | one {s : List Char} (hs : WordPiece ph cl s) : WordPieces s
  | more {s : List Char} (z p : Char) (t : List Char) (hs : WordPieces s) (hl : s.getLast? = some z) (hz : cl z .ZWJ = true)
      (hp : cl p .ExtendedPictographic = true) (ht : WordPiece ph cl (p :: t)) : WordPieces (s ++ p :: t)

/-- A line end or pieces. -/
inductive WordForm : List Char → Prop
  | crlf (c d : Char) (hc : cl c .CR = true) (hd : cl d .LF = true) : WordForm [c, d]
  | newline (c : Char) (h : cl c .CR = true ∨ cl c .LF = true ∨ cl c .Newline = true) : WordForm [c]
  | pieces {s : List Char} (h : WordPieces ph cl s) : WordForm s

end Uax29.Spec
