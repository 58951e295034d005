import Verif.Spec.WordClasses
import Verif.Spec.PhraseClasses
import Verif.Spec.GraphemeClasses
import Verif.Spec.SentenceClasses
import Verif.Spec.Pieces
/-! # Specification: ASCII characters exchanged for others with the same properties -/
namespace Uax29.Spec

/-- `φ` exchanges ASCII characters for ASCII characters that are the same to `f`, and leaves the other bytes alone. -/
structure Exchanges {σ : Type} (f : Char → σ) (φ : UInt8 → UInt8) : Prop where
  ascii : ∀ b, b < 0x80 → φ b < 0x80 ∧ f (Char.ofNat (φ b).toNat) = f (Char.ofNat b.toNat)
  rest : ∀ b, 0x80 ≤ b → φ b = b

/-- The small letters exchanged for the capital ones. -/
def upper (b : UInt8) : UInt8 := if 0x61 ≤ b ∧ b ≤ 0x7A then b - 0x20 else b
/-- The capital letters exchanged for the small ones. -/
def lower (b : UInt8) : UInt8 := if 0x41 ≤ b ∧ b ≤ 0x5A then b + 0x20 else b
/-- The digits exchanged for `0`, the capital letters for `A` and the small letters for `a`. -/
def masked (b : UInt8) : UInt8 :=
  if 0x30 ≤ b ∧ b ≤ 0x39 then 0x30 else if 0x41 ≤ b ∧ b ≤ 0x5A then 0x41 else if 0x61 ≤ b ∧ b ≤ 0x7A then 0x61 else b

end Uax29.Spec
