import Verif.Spec.Ucd.Graphemes
import Verif.Spec.Ucd.Words
import Verif.Spec.Ucd.Sentences
import Verif.Spec.Ucd.Scripts
/-!
# Specification: the properties of characters as ranges of code points

The range tables in `Spec/Ucd/*.lean` are the Unicode 15.0 data of Perl; where the tables in /repo,
which are for Unicode 17.0, differ from it, the code points are listed as changed.
-/
namespace Uax29.Spec

/-- Is the number in one of the ranges? -/
def inRanges (rs : List (Nat × Nat)) (n : Nat) : Bool := rs.any fun r => r.1 ≤ n && n ≤ r.2

/-- Does the character have the property value: as in Unicode 15.0, unless it is listed as changed. -/
def Ucd.grapheme (g : GB) (c : Char) : Bool := inRanges (Ucd.gcb g) c.val.toNat != inRanges (Ucd.gcbChanged g) c.val.toNat
@[inherit_doc Ucd.grapheme]
def Ucd.word (g : WB) (c : Char) : Bool := inRanges (Ucd.wb g) c.val.toNat != inRanges (Ucd.wbChanged g) c.val.toNat
@[inherit_doc Ucd.grapheme]
def Ucd.sentence (g : SB) (c : Char) : Bool := inRanges (Ucd.sb g) c.val.toNat != inRanges (Ucd.sbChanged g) c.val.toNat

/-- The property values of a character. -/
def Ucd.graphemeClasses (c : Char) : GSet := fun g => Ucd.grapheme g c
@[inherit_doc Ucd.graphemeClasses]
def Ucd.wordClasses (c : Char) : WSet := fun g => Ucd.word g c

/-- The values of Sentence_Break other than Other. -/
def Ucd.sbValues : List SB := [.CR, .LF, .Sep, .Extend, .Format, .Sp, .Lower, .Upper, .OLetter, .Numeric, .ATerm,
  .SContinue, .STerm, .Close]

/-- The value of Sentence_Break of a character. -/
def Ucd.sentenceClass (c : Char) : SB := (Ucd.sbValues.find? fun g => Ucd.sentence g c).getD .Other

/-- The ideographic characters of internal/gen/main.go:189-197: those with Word_Break=Katakana and those of
the scripts Han and Hiragana. -/
def Ucd.ideographic (c : Char) : Bool :=
  inRanges (Ucd.wb .Katakana) c.val.toNat || inRanges Ucd.han c.val.toNat || inRanges Ucd.hiragana c.val.toNat

end Uax29.Spec
