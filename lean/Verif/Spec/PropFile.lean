/-!
# Specification: the text files of the Unicode Character Database

UAX #44, section 4.2: lines of fields separated by semicolons, code points in hexadecimal, ranges with two
dots, comments from `#` to the end of the line. Nothing here mentions the model.
-/
namespace Uax29.Spec.PropFile

/-- Spaces and tabs. -/
def Blank (s : List Char) : Prop := ∀ c ∈ s, c = ' ' ∨ c = '\t'

/-- A hexadecimal digit and its value. -/
def Digit (c : Char) (d : Nat) : Prop :=
  "0123456789abcdef".toList[d]? = some c ∨ "0123456789ABCDEF".toList[d]? = some c

/-- A hexadecimal number and its value. -/
inductive Hex : List Char → Nat → Prop
  | one {c d} : Digit c d → Hex [c] d
  | more {s n c d} : Hex s n → Digit c d → Hex (s ++ [c]) (16 * n + d)

/-- A code point or a range of code points. -/
inductive Range : List Char → Nat → Nat → Prop
  | one {s n} : Hex s n → Range s n n
  | two {s t lo hi} : Hex s lo → Hex t hi → lo ≤ hi → Range (s ++ '.' :: '.' :: t) lo hi

/-- A name: ASCII letters, digits and underscores. -/
def Name (s : List Char) : Prop := s ≠ [] ∧ ∀ c ∈ s, c.isAlphanum = true ∨ c = '_'

/-- A comment, or nothing. -/
def Comment (s : List Char) : Prop := s = [] ∨ ∃ t, s = '#' :: t

/-- A line without its end, and what it lists: a name, and the first and the last code point. In a line
with two names the name is made of both, with an underscore in between. -/
inductive Line : List Char → Option (List Char × Nat × Nat) → Prop
  | empty : Line [] none
  | comment {t} : Line ('#' :: t) none
  | value {a r lo hi b c n d k} : Blank a → Range r lo hi → hi ≤ 0x10FFFF → Blank b → Blank c → Name n → Blank d →
      Comment k → ';' ∉ k → Line (a ++ r ++ b ++ ';' :: (c ++ n ++ d ++ k)) (some (n, lo, hi))
  | propertyValue {a r lo hi b c n d e v f k} : Blank a → Range r lo hi → hi ≤ 0x10FFFF → Blank b → Blank c → Name n →
      Blank d → Blank e → Name v → Blank f → Comment k →
      Line (a ++ r ++ b ++ ';' :: (c ++ n ++ d ++ ';' :: (e ++ v ++ f ++ k))) (some (n ++ '_' :: v, lo, hi))

/-- A file, in which every line ends with a newline, and what it lists. -/
inductive File : List Char → List (List Char × Nat × Nat) → Prop
  | nil : File [] []
  | cons {l o t es} : Line l o → '\n' ∉ l → File t es → File (l ++ '\n' :: t) (o.toList ++ es)

/-- The file lists the code point under the name. -/
def Lists (es : List (List Char × Nat × Nat)) (name : String) (r : Nat) : Prop :=
  ∃ e ∈ es, String.ofList e.1 = name ∧ e.2.1 ≤ r ∧ r ≤ e.2.2

/-! ## The files of tests -/

/-- A line of a test file: for each segment the numbers of its characters, of four digits at least, with
`×` between characters, and `÷` before and after segments. -/
inductive Segment : List Char → List Char → Prop
  | one {s c} : Hex s c.toNat → 4 ≤ s.length → Segment s [c]
  | more {s c t cs} : Hex s c.toNat → 4 ≤ s.length → Segment t cs → Segment (s ++ ' ' :: '×' :: ' ' :: t) (c :: cs)

@[inherit_doc Segment]
inductive Segments : List Char → List (List Char) → Prop
  | nil : Segments [] []
  | cons {s cs t css} : Segment s cs → Segments t css → Segments (' ' :: s ++ ' ' :: '÷' :: t) (cs :: css)

/-- A line of a test file, and the segments it lists. -/
inductive TestLine : List Char → List (List Char) → Prop
  | mk {t css a k} : Segments t css → Blank a → a.length ≤ 3 → TestLine ('÷' :: t ++ a ++ '#' :: k) css

/-- A file of tests: lines of comment and lines of tests. The last line may lack its newline. -/
inductive TestFile : List Char → List (List (List Char)) → Prop
  | nil : TestFile [] []
  | last {l css} : TestLine l css → '\n' ∉ l → '\r' ∉ l → TestFile l [css]
  | comment {k t tests} : '\n' ∉ k → TestFile t tests → TestFile ('#' :: k ++ '\n' :: t) tests
  | line {l css t tests} : TestLine l css → '\n' ∉ l → '\r' ∉ l → TestFile t tests →
      TestFile (l ++ '\n' :: t) (css :: tests)

/-- No line has 65536 bytes or more. -/
def ShortLines (text : List Char) : Prop := ∀ l, l <:+: text → '\n' ∉ l → (l.flatMap String.utf8EncodeChar).length < 65536

end Uax29.Spec.PropFile
