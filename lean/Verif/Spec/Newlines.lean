/-!
# Specification: the line ends of a text, all written as LF

The characters of section 5.8 of the Unicode Standard, "Newline Guidelines", that divide lines or
paragraphs and nothing else.
-/
namespace Uax29.Spec

/-- CR, LF, NEL, the line separator and the paragraph separator. -/
def IsLineEnd (c : Char) : Prop := c = '\r' ∨ c = '\n' ∨ c = '\u0085' ∨ c = '\u2028' ∨ c = '\u2029'

instance (c : Char) : Decidable (IsLineEnd c) := inferInstanceAs (Decidable (_ ∨ _))

/-- A text with LF for every line end; CR LF is one line end, so that its CR is left out. -/
def lineFeeds : List Char → List Char
  | [] => []
  | c :: s =>
    if c = '\r' ∧ s.head? = some '\n' then lineFeeds s else (if IsLineEnd c then '\n' else c) :: lineFeeds s

end Uax29.Spec
