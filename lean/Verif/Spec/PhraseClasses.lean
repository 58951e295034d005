import Verif.Model.Phrases
import Verif.Spec.WordRules
/-! # The properties of characters according to the table of package phrases -/
namespace Uax29.Spec

/-- The bit for a property value in the table (phrases/trie.go:8-28). -/
def pbBit : WB → Nat
  | .CR => Phrases._CR
  | .LF => Phrases._LF
  | .Newline => Phrases._Newline
  | .Extend => Phrases._Extend
  | .ZWJ => Phrases._ZWJ
  | .Format => Phrases._Format
  | .RegionalIndicator => Phrases._RegionalIndicator
  | .Katakana => Phrases._Katakana
  | .HebrewLetter => Phrases._HebrewLetter
  | .ALetter => Phrases._ALetter
  | .SingleQuote => Phrases._SingleQuote
  | .DoubleQuote => Phrases._DoubleQuote
  | .MidNumLet => Phrases._MidNumLet
  | .MidLetter => Phrases._MidLetter
  | .MidNum => Phrases._MidNum
  | .Numeric => Phrases._Numeric
  | .ExtendNumLet => Phrases._ExtendNumLet
  | .WSegSpace => Phrases._WSegSpace
  | .ExtendedPictographic => Phrases._ExtendedPictographic

/-- The property values in a table entry. -/
def pset (v : Nat) : WSet := fun g => is v (pbBit g)

/-- The property values of a character: the table entry that lookup finds for its encoding. -/
def phraseClasses (c : Char) : WSet :=
  match Phrases.trie.lookup (String.utf8EncodeChar c) with
  | .ok (v, _) => pset v
  | .error _ => fun _ => false

end Uax29.Spec
