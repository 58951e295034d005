import Verif.Spec.Text
/-! # Specification: a byte sequence as Go's `range` sees it -/
namespace Uax29.Spec

/-- `Runes d l`: `d` is taken apart into the runes `l`. Where an encoded character begins it is taken
whole, a byte where none begins counts as U+FFFD. -/
inductive Runes : Bytes → List Nat → Prop
  | nil : Runes [] []
  | char {d : Bytes} {l : List Nat} (c : Char) (rest : Runes d l) :
      Runes (String.utf8EncodeChar c ++ d) (c.val.toNat :: l)
  | bad {d : Bytes} {l : List Nat} (b : UInt8) (ill : ∀ c e, b :: d ≠ String.utf8EncodeChar c ++ e)
      (rest : Runes d l) : Runes (b :: d) (0xFFFD :: l)

end Uax29.Spec
