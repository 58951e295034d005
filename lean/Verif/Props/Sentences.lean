import Verif.Proofs.SentencesFast
import Verif.Proofs.Conform
import Verif.Spec.Boundary
import Verif.Props.Iteration
/-! # Properties of sentence segmentation: C10 -/
namespace Uax29
open Spec

theorem sentences_segs (data : Bytes) :
    defaultTokens .sentences data = .ok (segs (splitAdv Sentences.splitFunc) data) := by
  rw [defaultTokens_eq]
  refine (tokens_eq .sentences () data).trans ?_
  congr 1
  exact (Iterator.goodAdv .sentences ()).segs_congr (goodAdv_of_good Sentences.splitFunc_good) Sentences.adv_eq data

theorem sentenceClass_eq (c : Char) : sentenceClass c = sclass (Sentences.trie.prop c) := by
  have := Sentences.wf.lookup_encode c []
  rw [List.append_nil] at this
  simp only [sentenceClass, this]

/-- The table entry of a character has the bit of its property value and no other. -/
theorem C10_unique (c : Char) : Sentences.trie.lookup (String.utf8EncodeChar c)
    = .ok (sbBit (sentenceClass c), (String.utf8EncodeChar c).length) := by
  have := Sentences.wf.lookup_encode c []
  rw [List.append_nil] at this
  rw [this, sentenceClass_eq, ← Sentences.value_bit (Sentences.wf.prop_value c)]

example : sentenceClass '.' = .ATerm := by decide +kernel

/-- **C10** On UTF-8 the sentences are whole characters, and there is a boundary between two of them
exactly where the rules of UAX #29 put one. -/
theorem C10_conform (s : List Char) :
    ∃ ws : List (List Char), defaultTokens .sentences (utf8 s) = .ok (ws.map utf8)
      ∧ ws.flatten = s ∧ (∀ w ∈ ws, w ≠ [])
      ∧ ∀ a b, s = a ++ b →
        (Boundary ws a ↔ sentenceBreak (a.map sentenceClass) (b.map sentenceClass) = true) := by
  obtain ⟨gs, h1, h2, h3, h4⟩ := Sentences.follows.conform Sentences.wf
    (goodAdv_of_good Sentences.splitFunc_good) (P := Sentences.trie.IsValue) (fun _ h => h) (Sentences.restart false) s
  refine ⟨gs, by rw [sentences_segs, h1], h2, h3, ?_⟩
  intro a b hab
  rw [h4 a b hab]
  have e : ∀ l : List Char, l.map sentenceClass = (l.map (cellOf Sentences.trie Prod.fst)).map sclass := by
    intro l; simp [sentenceClass_eq, cellOf]
  rw [e, e, sentenceBreak, ← List.map_reverse, ← List.map_reverse, ← List.map_reverse]
  simp only [Sentences.J, lowerAheadCut, sjoins, List.isEmpty_map, Bool.false_and, Bool.or_false, Bool.or_eq_true,
    Bool.not_eq_true', List.isEmpty_iff]
  rw [or_assoc]

-- a full stop ends a sentence before a capital letter, not before a small one
example : defaultTokens .sentences (utf8 ['A', 'b', '.', ' ', 'C']) =
    .ok [utf8 ['A', 'b', '.', ' '], utf8 ['C']] := by decide +kernel
example : defaultTokens .sentences (utf8 ['A', 'b', '.', ' ', 'c']) =
    .ok [utf8 ['A', 'b', '.', ' ', 'c']] := by decide +kernel
example : sentenceBreak (['A', 'b', '.', ' '].map sentenceClass) (['C'].map sentenceClass) = true := by decide +kernel
example : sentenceBreak (['A', 'b', '.', ' '].map sentenceClass) (['1', 'c'].map sentenceClass) = false := by
  decide +kernel
-- a question mark does
example : sentenceBreak (['b', '?', ' '].map sentenceClass) (['c'].map sentenceClass) = true := by decide +kernel
-- SB6, SB7
example : sentenceBreak (['1', '.'].map sentenceClass) (['2'].map sentenceClass) = false := by decide +kernel
example : sentenceBreak (['U', '.'].map sentenceClass) (['S'].map sentenceClass) = false := by decide +kernel
example : sentenceBreak (['1', '.'].map sentenceClass) (['S'].map sentenceClass) = true := by decide +kernel

end Uax29
