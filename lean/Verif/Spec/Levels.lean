import Verif.Spec.GraphemeClasses
import Verif.Spec.WordClasses
import Verif.Spec.SentenceClasses
/-! # Specification: where the rules of one level may cut a token of another

UAX #29, section 3, wants word and sentence boundaries not to occur within graphemes. Its rules do not have this
property; the cases here are all those where they do not. All positions listed are within a token of the smaller kind;
which of them are boundaries of the larger kind, their rules decide. -/
namespace Uax29.Spec

/-- Positions between `before` and `after` within a grapheme where there may be a word boundary. -/
inductive WordCutsGrapheme : List Char → List Char → Prop
  /-- Before Thai and Lao SARA AM, which are SpacingMark (GB9a) but not Extend for the word rules. -/
  | saraAm (a b : List Char) (x y : Char) (hx : (graphemeClasses x).control = false) (hy : y = 'ำ' ∨ y = 'ຳ') :
      WordCutsGrapheme (a ++ [x]) (y :: b)
  /-- After a Prepend character (GB9b): the word rules take it for a letter or a numeral. -/
  | prepend (a b : List Char) (x y : Char) (hx : graphemeClasses x .Prepend = true) (hy : (graphemeClasses y).control = false) :
      WordCutsGrapheme (a ++ [x]) (y :: b)
  /-- In a conjunct (GB9c) with a consonant that is no ALetter, as those of Myanmar and Khmer. -/
  | conjunct (a m b : List Char) (c y : Char) (hc : graphemeClasses c .InCBConsonant = true)
      (hm : ∀ i ∈ m, graphemeClasses i .InCBExtend = true ∨ graphemeClasses i .InCBLinker = true)
      (hl : ∃ i ∈ m, graphemeClasses i .InCBLinker = true) (hy : graphemeClasses y .InCBConsonant = true)
      (h : ¬ (wordClasses c .ALetter = true ∧ wordClasses y .ALetter = true)) : WordCutsGrapheme (a ++ c :: m) (y :: b)
  /-- In a flag, if there is another regional indicator before it with a mark in between. -/
  | flags (a m rs b : List Char) (r y : Char) (hr : wordClasses r .RegionalIndicator = true) (hm : m ≠ [])
      (hi : ∀ i ∈ m, (wordClasses i).ignorable = true) (hrs : ∀ i ∈ rs, wordClasses i .RegionalIndicator = true)
      (ho : rs.length % 2 = 1) (hy : wordClasses y .RegionalIndicator = true) : WordCutsGrapheme (a ++ r :: m ++ rs) (y :: b)

/-- Positions within a grapheme where there may be a sentence boundary. -/
inductive SentenceCutsGrapheme : List Char → List Char → Prop
  /-- Before SARA AM, as above. -/
  | saraAm (a b : List Char) (x y : Char) (hx : (graphemeClasses x).control = false) (hy : y = 'ำ' ∨ y = 'ຳ') :
      SentenceCutsGrapheme (a ++ [x]) (y :: b)
  /-- Before an emoji modifier, which is Extend (GB9) but Other for the sentence rules. -/
  | modifier (a b : List Char) (x y : Char) (hx : (graphemeClasses x).control = false)
      (hy : 0x1F3FB ≤ y.toNat ∧ y.toNat ≤ 0x1F3FF) : SentenceCutsGrapheme (a ++ [x]) (y :: b)
  /-- After the Syriac abbreviation mark, which is Prepend (GB9b) but Format for the sentence rules. -/
  | abbreviation (a b : List Char) (y : Char) (hy : (graphemeClasses y).control = false) : SentenceCutsGrapheme (a ++ ['܏']) (y :: b)
  /-- In an emoji sequence (GB11) that begins with one of the two pictographs that are STerm. -/
  | exclamation (a m b : List Char) (t z y : Char) (ht : t = '‼' ∨ t = '⁉')
      (hm : ∀ i ∈ m, graphemeClasses i .Extend = true) (hz : graphemeClasses z .ZWJ = true)
      (hy : graphemeClasses y .ExtendedPictographic = true) :
      SentenceCutsGrapheme (a ++ t :: m ++ [z]) (y :: b)

/-- Positions within a word where there may be a sentence boundary. -/
inductive SentenceCutsWord : List Char → List Char → Prop
  /-- After a full stop between letters (WB7), as in "a.א", but not before Lower (SB8), and not between Upper or
  Lower and Upper (SB7). -/
  | stop (a m m' b : List Char) (l t y : Char) (hl : (wordClasses l).ahLetter false = true)
      (ht : t = '.' ∨ t = '․' ∨ t = '﹒' ∨ t = '．') (hm : ∀ i ∈ m ++ m', (wordClasses i).ignorable = true)
      (hy : (wordClasses y).ahLetter false = true) (hlow : sentenceClass y ≠ .Lower)
      (hup : (∀ i ∈ m, (sentenceClass i).ignorable = true) → sentenceClass y = .Upper → sentenceClass l ≠ .Upper ∧ sentenceClass l ≠ .Lower) :
      SentenceCutsWord (a ++ l :: m ++ t :: m') (y :: b)
  /-- After an Armenian full stop between numerals (WB11). -/
  | armenian (a m m' b : List Char) (l y : Char) (hl : wordClasses l .Numeric = true)
      (hm : ∀ i ∈ m ++ m', (wordClasses i).ignorable = true) (hy : wordClasses y .Numeric = true) :
      SentenceCutsWord (a ++ l :: m ++ '։' :: m') (y :: b)
  /-- After a narrow no-break space, which is ExtendNumLet (WB13a, WB13b). -/
  | narrow (a m b : List Char) (y : Char) (hm : ∀ i ∈ m, (wordClasses i).ignorable = true)
      (hy : (wordClasses y).ahLetter false = true ∨ wordClasses y .Numeric = true ∨ wordClasses y .Katakana = true
        ∨ wordClasses y .ExtendNumLet = true) : SentenceCutsWord (a ++ '\u202F' :: m) (y :: b)
  /-- Between a ZWJ and a pictograph (WB3c). -/
  | zwj (a b : List Char) (x y : Char) (hx : wordClasses x .ZWJ = true)
      (hy : wordClasses y .ExtendedPictographic = true) : SentenceCutsWord (a ++ [x]) (y :: b)
  /-- Before an emoji modifier, which is Extend for the word rules (WB4). -/
  | modifier (a b : List Char) (x y : Char) (hx : (wordClasses x).newline = false)
      (hy : 0x1F3FB ≤ y.toNat ∧ y.toNat ≤ 0x1F3FF) : SentenceCutsWord (a ++ [x]) (y :: b)
  /-- After a Syriac abbreviation mark, which is ALetter but Format for the sentence rules, before what WB5, WB6, WB9 and
  WB13a join to a letter. -/
  | abbreviation (a m b : List Char) (y : Char) (hm : ∀ i ∈ m, (wordClasses i).ignorable = true)
      (hy : (wordClasses y).alnum false = true ∨ wordClasses y .ExtendNumLet = true ∨ (wordClasses y).midLetter = true
        ∧ (b.dropWhile fun c => (wordClasses c).ignorable).head?.any (fun c => (wordClasses c).ahLetter false) = true) :
      SentenceCutsWord (a ++ '܏' :: m) (y :: b)
  /-- After an abbreviation mark and a character that WB7 joins to letters on both sides. -/
  | afterAbbreviation (a m m' b : List Char) (t y : Char) (hm : ∀ i ∈ m ++ m', (wordClasses i).ignorable = true)
      (ht : (wordClasses t).midLetter = true) (hy : (wordClasses y).ahLetter false = true) :
      SentenceCutsWord (a ++ '܏' :: m ++ t :: m') (y :: b)

/-- Positions within a phrase where there may be a sentence boundary. -/
inductive SentenceCutsPhrase : List Char → List Char → Prop
  /-- Where it is within a word. -/
  | word (a b : List Char) (h : SentenceCutsWord a b) : SentenceCutsPhrase a b
  /-- After a space, which phrases join to what follows, as in "Hi. Yo". -/
  | space (a m b : List Char) (x y : Char) (hx : wordClasses x .WSegSpace = true)
      (hm : ∀ i ∈ m, (wordClasses i).ignorable = true) (hy : (wordClasses y).alnum true = true) :
      SentenceCutsPhrase (a ++ x :: m) (y :: b)
  /-- After a pictograph, which phrases take for a letter, as in "a‼b", or an abbreviation mark, before what is joined to a
  letter. -/
  | pictograph (a m b : List Char) (x y : Char) (hx : wordClasses x .ExtendedPictographic = true ∨ x = '܏')
      (hm : ∀ i ∈ m, (wordClasses i).ignorable = true)
      (hy : (wordClasses y).alnum true = true ∨ wordClasses y .ExtendNumLet = true ∨ (wordClasses y).midLetter = true
        ∧ (b.dropWhile fun c => (wordClasses c).ignorable).head?.any (fun c => (wordClasses c).ahLetter true) = true) :
      SentenceCutsPhrase (a ++ x :: m) (y :: b)
  /-- Between a narrow no-break space and a pictograph (WB13b). -/
  | narrow (a m b : List Char) (y : Char) (hm : ∀ i ∈ m, (wordClasses i).ignorable = true)
      (hy : wordClasses y .ExtendedPictographic = true) : SentenceCutsPhrase (a ++ '\u202F' :: m) (y :: b)
  /-- After a full stop or the like (WB7) next to a pictograph. -/
  | stop (a m m' b : List Char) (l t y : Char) (hl : (wordClasses l).ahLetter true = true)
      (ht : (wordClasses t).midLetter = true) (hm : ∀ i ∈ m ++ m', (wordClasses i).ignorable = true)
      (hy : (wordClasses y).ahLetter true = true)
      (h : wordClasses l .ExtendedPictographic = true ∨ wordClasses y .ExtendedPictographic = true) :
      SentenceCutsPhrase (a ++ l :: m ++ t :: m') (y :: b)

end Uax29.Spec
