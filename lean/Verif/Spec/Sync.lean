import Verif.Spec.WordClasses
import Verif.Spec.Clusters
import Verif.Spec.Pieces
/-! # Specification: places in a text where one may begin to read -/
namespace Uax29.Spec

/-- The first byte is not one of 80 to BF, so it does not continue an encoding. -/
def StartsFresh (b : Bytes) : Prop := ∀ x, b.head? = some x → continuation x = false

/-- The text begins with a regional indicator, or with one after characters that are skipped. -/
def StartsFlag (skip : Char → Prop) (b : Bytes) : Prop :=
  ∃ m c rest, b = utf8 (m ++ [c]) ++ rest ∧ (∀ i ∈ m, skip i) ∧ regionalIndicator c

end Uax29.Spec
