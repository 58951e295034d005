import Verif.Model.Go
/-! # Specification of applying a split function repeatedly -/
namespace Uax29.Spec

/-- `Splits f text tokens`: `f`, applied to all that is left of the text, gives the first of the
tokens, and so on until nothing is left. -/
inductive Splits (f : SplitFn) : Bytes → List Bytes → Prop
  | nil : Splits f [] []
  | cons {tok rest : Bytes} {more : List Bytes} (ne : tok ≠ [])
      (first : f (tok ++ rest) true = .ok ⟨tok.length, some tok, none⟩)
      (others : Splits f rest more) : Splits f (tok ++ rest) (tok :: more)

end Uax29.Spec
