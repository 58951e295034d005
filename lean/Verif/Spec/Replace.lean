/-! # Specification: replacing the characters of a text -/
namespace Uax29.Spec

/-- A text with `f c` in place of each character `c`. -/
def expand {α β : Type} (f : α → List β) (s : List α) : List β := s.flatMap f

end Uax29.Spec
