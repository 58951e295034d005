import Verif.Spec.Joiners
import Verif.Spec.WordGrammar
/-! # Specification: a grammar for words with joiners -/
namespace Uax29.Spec

/-- The text with a leading joiner at its start replaced by the Hebrew letter alef. -/
def asLetter (L : List Int) : List Char → List Char
  | [] => []
  | c :: s => (if (c.val.toNat : Int) ∈ L then 'א' else c) :: s

/-- A word with the middle joiners `M`, which are like the full stop, and the leading joiners `L`, which are like a Hebrew letter at
the start. -/
def JoinedForm (M L : List Int) (s : List Char) : Prop := WordForm false (withMiddle M) (asLetter L s)

end Uax29.Spec
