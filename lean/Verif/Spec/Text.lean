import Verif.Model.Go
/-! # Specification of text: UTF-8 from Lean's standard library -/
namespace Uax29.Spec

/-- The UTF-8 encoding of a sequence of Unicode scalar values (`String.utf8EncodeChar` is the encoder
of Lean's standard library). -/
def utf8 (s : List Char) : Bytes := s.flatMap String.utf8EncodeChar

/-- The bytes are well-formed UTF-8. -/
def ValidUtf8 (b : Bytes) : Prop := ∃ s, b = utf8 s

end Uax29.Spec
