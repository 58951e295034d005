import Verif.Model.Words
import Verif.Spec.WordRules
/-! # The properties of characters according to the table of package words -/
namespace Uax29.Spec

/-- The bit for a property value in the table (words/trie.go:8-29). -/
def wbBit : WB → Nat
  | .CR => Words._CR
  | .LF => Words._LF
  | .Newline => Words._Newline
  | .Extend => Words._Extend
  | .ZWJ => Words._ZWJ
  | .Format => Words._Format
  | .RegionalIndicator => Words._RegionalIndicator
  | .Katakana => Words._Katakana
  | .HebrewLetter => Words._HebrewLetter
  | .ALetter => Words._ALetter
  | .SingleQuote => Words._SingleQuote
  | .DoubleQuote => Words._DoubleQuote
  | .MidNumLet => Words._MidNumLet
  | .MidLetter => Words._MidLetter
  | .MidNum => Words._MidNum
  | .Numeric => Words._Numeric
  | .ExtendNumLet => Words._ExtendNumLet
  | .WSegSpace => Words._WSegSpace
  | .ExtendedPictographic => Words._ExtendedPictographic

/-- The property values in a table entry. -/
def wset (v : Nat) : WSet := fun g => is v (wbBit g)

/-- The property values of a character: the table entry that lookup finds for its encoding. -/
def wordClasses (c : Char) : WSet :=
  match Words.trie.lookup (String.utf8EncodeChar c) with
  | .ok (v, _) => wset v
  | .error _ => fun _ => false

end Uax29.Spec
