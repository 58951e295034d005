import Verif.Model.Graphemes
import Verif.Spec.GraphemeRules
/-! # The properties of characters according to the table of package graphemes -/
namespace Uax29.Spec

/-- The bit for a property value in the table (graphemes/trie.go:8-26). -/
def gbBit : GB → Nat
  | .CR => Graphemes._CR
  | .LF => Graphemes._LF
  | .Control => Graphemes._Control
  | .Extend => Graphemes._Extend
  | .ZWJ => Graphemes._ZWJ
  | .RegionalIndicator => Graphemes._RegionalIndicator
  | .Prepend => Graphemes._Prepend
  | .SpacingMark => Graphemes._SpacingMark
  | .L => Graphemes._L
  | .V => Graphemes._V
  | .T => Graphemes._T
  | .LV => Graphemes._LV
  | .LVT => Graphemes._LVT
  | .ExtendedPictographic => Graphemes._ExtendedPictographic
  | .InCBConsonant => Graphemes._InCBConsonant
  | .InCBExtend => Graphemes._InCBExtend
  | .InCBLinker => Graphemes._InCBLinker

/-- The property values in a table entry. -/
def gset (v : Nat) : GSet := fun g => is v (gbBit g)

/-- The property values of a character: the table entry that lookup finds for its encoding. -/
def graphemeClasses (c : Char) : GSet :=
  match Graphemes.trie.lookup (String.utf8EncodeChar c) with
  | .ok (v, _) => gset v
  | .error _ => fun _ => false

end Uax29.Spec
