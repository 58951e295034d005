import Verif.Spec.WordClasses
/-! # Specification: what the documentation of the Bleve functions speaks of -/
namespace Uax29.Spec

/-- The ideographic property of words/bleve_compat.go:73-76 according to the table of package words: the
bit `_BleveIdeographic` (words/trie.go:21) of the table entry that lookup finds for the encoding. -/
def ideographic (c : Char) : Bool :=
  match Words.trie.lookup (String.utf8EncodeChar c) with
  | .ok (v, _) => is v Words._BleveIdeographic
  | .error _ => false

/-- A digit or a connector: Numeric or ExtendNumLet. -/
def digitOrConnector (c : Char) : Bool := wordClasses c .Numeric || wordClasses c .ExtendNumLet

/-- A decimal separator: MidNum, MidNumLet or Single_Quote. -/
def separator (c : Char) : Bool :=
  wordClasses c .MidNum || wordClasses c .MidNumLet || wordClasses c .SingleQuote

/-- An ignored character of WB4. -/
def ignored (c : Char) : Bool := wordClasses c .Extend || wordClasses c .Format || wordClasses c .ZWJ

/-- What may follow the digit or connector `c` in a number: nothing; another digit or connector; after
a digit, a separator, any number of ignored characters and another digit. -/
inductive NumberTail : Char → List Char → Prop
  | done {c} : NumberTail c []
  | next {c x s} : digitOrConnector x = true → NumberTail x s → NumberTail c (x :: s)
  | separated {c m ig d s} : wordClasses c .Numeric = true → separator m = true →
      (∀ x ∈ ig, ignored x = true) → wordClasses d .Numeric = true → NumberTail d s →
      NumberTail c (m :: (ig ++ d :: s))

end Uax29.Spec
