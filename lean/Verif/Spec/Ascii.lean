/-! # Specification: words, phrases and sentences of ASCII text, and paragraphs -/
namespace Uax29.Spec.Ascii

/-- A letter. -/
def letter (c : Char) : Bool := ('A' ≤ c && c ≤ 'Z') || ('a' ≤ c && c ≤ 'z')
/-- A digit. -/
def digit (c : Char) : Bool := '0' ≤ c && c ≤ '9'
/-- A letter, a digit or an underscore. -/
def identifier (c : Char) : Bool := letter c || digit c || c = '_'
/-- What stays within a word between two letters, as in "can't". -/
def betweenLetters (c : Char) : Bool := c = '\'' || c = '.' || c = ':'
/-- What stays within a word between two digits, as in "1,000.5". -/
def betweenDigits (c : Char) : Bool := c = '\'' || c = '.' || c = ',' || c = ';'

/-- `f a m b`: the last character of `before`, `m`, and the first of `after` in one of the two ways in which there are
three characters around a position. -/
def around (before after : List Char) (f : Char → Char → Char → Bool) : Bool :=
  match before.reverse, after with
  | a :: left, b :: right =>
    (match right with | c :: _ => f a b c | [] => false) || (match left with | c :: _ => f c a b | [] => false)
  | _, _ => false

/-- There is no boundary of words (or of phrases) between `before` and `after`, both not empty and in reading order. -/
def together (phrases : Bool) (before after : List Char) : Bool :=
  match before.getLast?, after.head? with
  | some a, some b =>
    -- CR LF, and runs of spaces
    (a = '\r' && b = '\n') || (a = ' ' && b = ' ')
    -- runs of letters, digits and underscores
    || (identifier a && identifier b)
    -- phrases: also spaces before and after letters and digits
    || (phrases && ((a = ' ' && (letter b || digit b)) || ((letter a || digit a) && b = ' ')))
    -- "can't"
    || around before after (fun x m y => letter x && betweenLetters m && letter y)
    -- "1,000.5"
    || around before after (fun x m y => digit x && betweenDigits m && digit y)
  | _, _ => false

/-- The characters that end a paragraph. -/
def endsParagraph (c : Char) : Bool := c = '\n' || c = '\r' || c = '\u0085' || c = '\u2028' || c = '\u2029'

/-- A capital letter. -/
def upper (c : Char) : Bool := 'A' ≤ c && c ≤ 'Z'
/-- A small letter. -/
def lower (c : Char) : Bool := 'a' ≤ c && c ≤ 'z'
/-- The end of a line. -/
def lineEnd (c : Char) : Bool := c = '\n' || c = '\r'
/-- What may end a sentence. -/
def terminator (c : Char) : Bool := c = '.' || c = '!' || c = '?'
/-- Quotes and brackets, opening ones too. -/
def closing (c : Char) : Bool :=
  c = '"' || c = '\'' || c = '(' || c = ')' || c = '[' || c = ']' || c = '{' || c = '}'
/-- White space within a line. -/
def blank (c : Char) : Bool := c = ' ' || c = '\t' || c = '\x0b' || c = '\x0c'
/-- What does not begin a sentence. -/
def continues (c : Char) : Bool :=
  lineEnd c || blank c || terminator c || c = ',' || c = '-' || c = ':' || c = ';'

/-- The first letter, end of line or terminator is a small letter. -/
def smallFirst (text : List Char) : Bool :=
  (text.dropWhile fun c => !(letter c || lineEnd c || terminator c)).head?.any lower

/-- A sentence of ASCII text ends between two pieces of text, both not empty and in reading order. -/
inductive SentenceEnds : List Char → List Char → Prop
  /-- At the end of a line, but not between CR and LF. -/
  | line (a b : List Char) (e : Char) (he : lineEnd e = true) (hcrlf : ¬ (e = '\r' ∧ b.head? = some '\n')) :
    SentenceEnds (a ++ [e]) b
  /-- After a terminator `t` with quotes, brackets and then blanks after it. A period does not count before text
  that goes on with a small letter ("etc. (and so on)"), directly before a digit ("3.4"), and directly between letters, the
  second a capital one ("U.S"). -/
  | mark (a q s b : List Char) (t y : Char) (ht : terminator t = true) (hq : ∀ c ∈ q, closing c = true)
      (hs : ∀ c ∈ s, blank c = true) (hy : continues y = false) (hc : s = [] → closing y = false)
      (hsmall : t = '.' → smallFirst (y :: b) = false)
      (hdigit : t = '.' → q = [] → s = [] → digit y = false)
      (hupper : t = '.' → q = [] → s = [] → upper y = true → a.getLast?.any letter = false) :
    SentenceEnds (a ++ t :: (q ++ s)) (y :: b)

end Uax29.Spec.Ascii
