import Verif.Spec.WordClasses
/-! # Specification: the properties of characters when joiners are set -/
namespace Uax29.Spec

/-- Every character of `M` counts as MidNumLet, too. -/
def withMiddle (M : List Int) (c : Char) : WSet := fun g =>
  wordClasses c g || (g == .MidNumLet && decide ((c.val.toNat : Int) ∈ M))

/-- Every character of `L` counts as AHLetter, too, that is as ALetter and as HebrewLetter. -/
def withLeading (L : List Int) (c : Char) : WSet := fun g =>
  wordClasses c g || ((g == .ALetter || g == .HebrewLetter) && decide ((c.val.toNat : Int) ∈ L))

/-- The properties of the characters of a text; those of `L` count as AHLetter at its start. -/
def leadingClasses (L : List Int) : List Char → List WSet
  | [] => []
  | c :: s => withLeading L c :: s.map wordClasses

end Uax29.Spec
