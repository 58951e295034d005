import Verif.Spec.PropFile
import Verif.Spec.Ucd
/-!
# Specification: what the files of the Unicode Character Database list

The names of the property values in GraphemeBreakProperty.txt, WordBreakProperty.txt,
SentenceBreakProperty.txt, emoji-data.txt and (for Indic_Conjunct_Break) DerivedCoreProperties.txt.
-/
namespace Uax29.Spec

/-- The name of a property value in the files. -/
def gbName : GB → String
  | .CR => "CR" | .LF => "LF" | .Control => "Control" | .Extend => "Extend" | .ZWJ => "ZWJ"
  | .RegionalIndicator => "Regional_Indicator" | .Prepend => "Prepend" | .SpacingMark => "SpacingMark"
  | .L => "L" | .V => "V" | .T => "T" | .LV => "LV" | .LVT => "LVT"
  | .ExtendedPictographic => "Extended_Pictographic" | .InCBConsonant => "InCB_Consonant"
  | .InCBExtend => "InCB_Extend" | .InCBLinker => "InCB_Linker"

@[inherit_doc gbName]
def wbName : WB → String
  | .CR => "CR" | .LF => "LF" | .Newline => "Newline" | .Extend => "Extend" | .ZWJ => "ZWJ" | .Format => "Format"
  | .RegionalIndicator => "Regional_Indicator" | .Katakana => "Katakana" | .HebrewLetter => "Hebrew_Letter"
  | .ALetter => "ALetter" | .SingleQuote => "Single_Quote" | .DoubleQuote => "Double_Quote"
  | .MidNumLet => "MidNumLet" | .MidLetter => "MidLetter" | .MidNum => "MidNum" | .Numeric => "Numeric"
  | .ExtendNumLet => "ExtendNumLet" | .WSegSpace => "WSegSpace" | .ExtendedPictographic => "Extended_Pictographic"

@[inherit_doc gbName]
def sbName : SB → String
  | .CR => "CR" | .LF => "LF" | .Sep => "Sep" | .Extend => "Extend" | .Format => "Format" | .Sp => "Sp"
  | .Lower => "Lower" | .Upper => "Upper" | .OLetter => "OLetter" | .Numeric => "Numeric" | .ATerm => "ATerm"
  | .SContinue => "SContinue" | .STerm => "STerm" | .Close => "Close" | .Other => "Other"

/-- The three files list the values that the characters have: the file for Grapheme_Cluster_Break, and no
others, the emoji file for Extended_Pictographic, and the file for Indic_Conjunct_Break. -/
structure GraphemeFiles (es emoji incb : List (List Char × Nat × Nat)) : Prop where
  names : ∀ e ∈ es, ∃ g, String.ofList e.1 = gbName g
  lists : ∀ g (c : Char), PropFile.Lists (match g with
      | .ExtendedPictographic => emoji
      | .InCBConsonant | .InCBExtend | .InCBLinker => incb
      | _ => es) (gbName g) c.val.toNat ↔ Ucd.grapheme g c = true

/-- The two files list the values that the characters have. -/
structure WordFiles (es emoji : List (List Char × Nat × Nat)) : Prop where
  names : ∀ e ∈ es, ∃ g, String.ofList e.1 = wbName g
  lists : ∀ g (c : Char), PropFile.Lists (if g = .ExtendedPictographic then emoji else es) (wbName g) c.val.toNat
    ↔ Ucd.word g c = true

/-- The file lists the values that the characters have. -/
structure SentenceFile (es : List (List Char × Nat × Nat)) : Prop where
  names : ∀ e ∈ es, ∃ g, g ≠ .Other ∧ String.ofList e.1 = sbName g
  lists : ∀ g (c : Char), g ≠ .Other → (PropFile.Lists es (sbName g) c.val.toNat ↔ Ucd.sentenceClass c = g)

end Uax29.Spec
