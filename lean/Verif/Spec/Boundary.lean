/-! # Specification of token boundaries -/
namespace Uax29.Spec

/-- There is a boundary after `a`: `a` is what the first tokens make up. -/
def Boundary {α : Type} (tokens : List (List α)) (a : List α) : Prop :=
  ∃ n, (tokens.take n).flatten = a

end Uax29.Spec
