import Verif.Spec.Pieces
/-! # Specification: texts that end with a whole encoding -/
namespace Uax29.Spec

/-- No bytes at the end of `a` are fewer than the first of them announces. -/
def Complete (a : Bytes) : Prop := ∀ b rest, b :: rest <:+ a → announced b ≤ rest.length + 1

end Uax29.Spec
