import Verif.Model.Sentences
import Verif.Spec.SentenceRules
/-! # The properties of characters according to the table of package sentences -/
namespace Uax29.Spec

/-- The bit for a property value in the table (sentences/trie.go:8-23). -/
def sbBit : SB → Nat
  | .CR => Sentences._CR
  | .LF => Sentences._LF
  | .Sep => Sentences._Sep
  | .Extend => Sentences._Extend
  | .Format => Sentences._Format
  | .Sp => Sentences._Sp
  | .Lower => Sentences._Lower
  | .Upper => Sentences._Upper
  | .OLetter => Sentences._OLetter
  | .Numeric => Sentences._Numeric
  | .ATerm => Sentences._ATerm
  | .SContinue => Sentences._SContinue
  | .STerm => Sentences._STerm
  | .Close => Sentences._Close
  | .Other => 0

/-- The values of Sentence_Break other than Other. -/
def allSB : List SB := [.CR, .LF, .Sep, .Extend, .Format, .Sp, .Lower, .Upper, .OLetter, .Numeric, .ATerm,
  .SContinue, .STerm, .Close]

/-- The property value of a table entry: the first whose bit is set. (`C10_unique` in
`Props/Sentences.lean` says that there is at most one.) -/
def sclass (v : Nat) : SB := (allSB.find? fun x => is v (sbBit x)).getD .Other

/-- The property value of a character: the table entry that lookup finds for its encoding. -/
def sentenceClass (c : Char) : SB :=
  match Sentences.trie.lookup (String.utf8EncodeChar c) with
  | .ok (v, _) => sclass v
  | .error _ => .Other

end Uax29.Spec
