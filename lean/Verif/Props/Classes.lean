import Verif.Proofs.RunsWords
import Verif.Proofs.RunsGraphemes
import Verif.Proofs.RunsSentences
import Verif.Props.Words
import Verif.Props.Graphemes
import Verif.Props.Sentences
import Verif.Props.Phrases
import Verif.Props.Unions
import Verif.Props.Bleve
/-! # Property C51: the properties of characters are those of the Unicode Character Database -/
namespace Uax29
open Spec

/-- C51: the property values that lookup in the table of package graphemes gives to a character are
those of the ranges of code points. -/
theorem C51_graphemes (c : Char) (g : GB) : graphemeClasses c g = Ucd.grapheme g c := by
  rw [graphemeClasses_eq]
  exact Graphemes.wf.prop_ranges Graphemes.runs_all (Graphemes.ranges g) c

/-- C51 for the table of package words. -/
theorem C51_words (c : Char) (g : WB) : wordClasses c g = Ucd.word g c := by
  rw [Words.wordClasses_eq]
  exact Words.wf.prop_ranges Words.runs_all (Words.ranges g) c

/-- C51 for the table of package phrases. -/
theorem C51_phrases (c : Char) (g : WB) : phraseClasses c g = Ucd.word g c := by
  rw [C33_classes, C51_words]

theorem Sentences.prop_bit (c : Char) : Sentences.trie.prop c = sbBit (sentenceClass c) := by
  have := C10_unique c
  have e := Sentences.wf.lookup_encode c []
  rw [List.append_nil, this] at e
  simp only [Except.ok.injEq, Prod.mk.injEq] at e
  exact e.1.symm

theorem is_sbBit : ∀ g h : SB, h ≠ .Other → (is (sbBit g) (sbBit h) = true ↔ g = h) := by
  intro g h hh
  cases g <;> cases h <;> first | exact absurd rfl hh | decide

/-- C51 for the table of package sentences: a value other than Other. -/
theorem C51_sentences (c : Char) (g : SB) (hg : g ≠ .Other) : sentenceClass c = g ↔ Ucd.sentence g c = true := by
  have h := Sentences.wf.prop_ranges Sentences.runs_all (Sentences.ranges g hg) c
  rw [← is_sbBit _ _ hg, ← Sentences.prop_bit]
  show is (Sentences.trie.prop c) (sbBit g) = true ↔ _
  rw [h]
  rfl

/-- C51 for the table of package sentences: all values. -/
theorem C51_sentence (c : Char) : sentenceClass c = Ucd.sentenceClass c := by
  unfold Ucd.sentenceClass
  cases hf : Ucd.sbValues.find? fun g => Ucd.sentence g c with
  | some g =>
    have hm := List.mem_of_find?_eq_some hf
    have hne : g ≠ .Other := by intro h; subst h; revert hm; decide
    exact (C51_sentences c g hne).2 (by simpa using List.find?_some hf)
  | none =>
    rw [List.find?_eq_none] at hf
    apply Classical.byContradiction
    intro hne
    have hm : sentenceClass c ∈ Ucd.sbValues := by
      revert hne
      cases sentenceClass c <;> decide
    exact hf _ hm ((C51_sentences c _ hne).1 rfl)

/-- C51: the ideographic characters of the Bleve functions. -/
theorem C51_ideographic (c : Char) : ideographic c = Ucd.ideographic c := by
  rw [ideographic_eq, Words.wf.prop_ranges Words.runs_all Words.ideographic_ranges c,
    ideographicRanges, inRanges_merge, inRanges_merge]
  simp [Ucd.ideographic, inRanges]

/-! ## Conformance with these properties: C08, C09, C10 and C11 without the tables -/

theorem C51_graphemes_conform (s : List Char) :
    ∃ gs : List (List Char), defaultTokens .graphemes (utf8 s) = .ok (gs.map utf8)
      ∧ gs.flatten = s ∧ (∀ g ∈ gs, g ≠ [])
      ∧ ∀ a b, s = a ++ b →
        (Boundary gs a ↔ graphemeBreak (a.map Ucd.graphemeClasses) (b.map Ucd.graphemeClasses) = true) := by
  rw [show Ucd.graphemeClasses = graphemeClasses from funext fun c => funext fun g => (C51_graphemes c g).symm]
  exact C08_conform s

theorem C51_words_conform (s : List Char) :
    ∃ ws : List (List Char), defaultTokens .words (utf8 s) = .ok (ws.map utf8)
      ∧ ws.flatten = s ∧ (∀ w ∈ ws, w ≠ [])
      ∧ ∀ a b, s = a ++ b →
        (Boundary ws a ↔ wordBreak (a.map Ucd.wordClasses) (b.map Ucd.wordClasses) = true) := by
  rw [show Ucd.wordClasses = wordClasses from funext fun c => funext fun g => (C51_words c g).symm]
  exact C09_conform s

theorem C51_sentences_conform (s : List Char) :
    ∃ ws : List (List Char), defaultTokens .sentences (utf8 s) = .ok (ws.map utf8)
      ∧ ws.flatten = s ∧ (∀ w ∈ ws, w ≠ [])
      ∧ ∀ a b, s = a ++ b →
        (Boundary ws a ↔ sentenceBreak (a.map Ucd.sentenceClass) (b.map Ucd.sentenceClass) = true) := by
  rw [show Ucd.sentenceClass = sentenceClass from funext fun c => (C51_sentence c).symm]
  exact C10_conform s

theorem C51_phrases_conform (s : List Char) :
    ∃ ws : List (List Char), defaultTokens .phrases (utf8 s) = .ok (ws.map utf8)
      ∧ ws.flatten = s ∧ (∀ w ∈ ws, w ≠ [])
      ∧ ∀ a b, s = a ++ b →
        (Boundary ws a ↔ phraseBreak (a.map Ucd.wordClasses) (b.map Ucd.wordClasses) = true) := by
  rw [show Ucd.wordClasses = phraseClasses from funext fun c => funext fun g => (C51_phrases c g).symm]
  exact C11_conform s

example : Ucd.word .ALetter 'a' = true ∧ Ucd.word .Katakana 'カ' = true ∧ Ucd.word .ALetter '漢' = false := by
  decide +kernel
example : Ucd.grapheme .Extend '\u0301' = true ∧ Ucd.grapheme .LVT '각' = true := by decide +kernel
/-- A character whose property changed after Unicode 15.0. -/
example : Ucd.word .Numeric '\u0600' = !inRanges (Ucd.wb .Numeric) 0x600 := by decide +kernel
example : Ucd.sentenceClass '.' = .ATerm ∧ Ucd.sentenceClass '漢' = .OLetter ∧ Ucd.sentenceClass '+' = .Other := by
  decide +kernel
example : Ucd.ideographic '漢' = true ∧ Ucd.ideographic 'ー' = true ∧ Ucd.ideographic '한' = false := by decide +kernel
/-- The properties in the break rules, from the ranges alone. -/
example : wordBreak (['3', '.'].map Ucd.wordClasses) (['1', '4'].map Ucd.wordClasses) = false := by decide +kernel
example : wordBreak (['3', '.'].map Ucd.wordClasses) (['a'].map Ucd.wordClasses) = true := by decide +kernel

end Uax29
