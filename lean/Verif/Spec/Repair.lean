import Verif.Spec.Pieces
/-! # Specification: ill-formed bytes replaced -/
namespace Uax29.Spec

/-- The character of a piece; U+FFFD in place of ill-formed bytes. -/
def Piece.repaired : Piece → Char
  | .char c => c
  | .bad _ => '�'

end Uax29.Spec
