import Verif.Proofs.PhrasesFast
import Verif.Proofs.Conform
import Verif.Spec.Boundary
import Verif.Props.Iteration
/-! # Properties of phrase segmentation: C11 -/
namespace Uax29
open Spec

theorem phrases_segs (data : Bytes) :
    defaultTokens .phrases data = .ok (segs (splitAdv Phrases.splitFunc) data) := by
  rw [defaultTokens_eq]
  refine (tokens_eq .phrases () data).trans ?_
  congr 1
  exact (Iterator.goodAdv .phrases ()).segs_congr (goodAdv_of_good Phrases.splitFunc_good) Phrases.adv_eq data

theorem phraseClasses_eq (c : Char) : phraseClasses c = pset (Phrases.trie.prop c) := by
  have := Phrases.wf.lookup_encode c []
  rw [List.append_nil] at this
  simp only [phraseClasses, this]

/-- **C11** On UTF-8 the phrases are whole characters, and there is a boundary between two of them
exactly where the phrase rules put one: the word rules, with Extended_Pictographic as AHLetter and
WSegSpace joined with letters, numbers and spaces. -/
theorem C11_conform (s : List Char) :
    ∃ ws : List (List Char), defaultTokens .phrases (utf8 s) = .ok (ws.map utf8)
      ∧ ws.flatten = s ∧ (∀ w ∈ ws, w ≠ [])
      ∧ ∀ a b, s = a ++ b →
        (Boundary ws a ↔ phraseBreak (a.map phraseClasses) (b.map phraseClasses) = true) := by
  obtain ⟨gs, h1, h2, h3, h4⟩ := Phrases.follows.conform Phrases.wf
    (goodAdv_of_good Phrases.splitFunc_good) (P := Phrases.trie.IsValue) (fun _ h => h) Phrases.restart s
  refine ⟨gs, by rw [phrases_segs, h1], h2, h3, ?_⟩
  intro a b hab
  rw [h4 a b hab]
  have e : ∀ l : List Char, l.map phraseClasses = (l.map (cellOf Phrases.trie Prod.fst)).map pset := by
    intro l; simp [phraseClasses_eq, cellOf]
  rw [e, e, phraseBreak, ← List.map_reverse, ← List.map_reverse, ← List.map_reverse]
  simp only [Phrases.J, List.isEmpty_map, Bool.or_eq_true, Bool.not_eq_true', List.isEmpty_iff]
  rw [or_assoc]

-- letters, digits and spaces are one phrase; a comma ends it
example : defaultTokens .phrases (utf8 ['a', ' ', 'b', '1', ',', ' ', 'c']) =
    .ok [utf8 ['a', ' ', 'b', '1'], utf8 [','], utf8 [' ', 'c']] := by decide +kernel
-- a space joins with a letter in phrases, not in words
example : phraseBreak (['a'].map phraseClasses) ([' '].map phraseClasses) = false := by decide +kernel
example : wordBreak (['a'].map phraseClasses) ([' '].map phraseClasses) = true := by decide +kernel
-- a pictograph joins with a letter in phrases, not in words
example : phraseBreak (['a'].map phraseClasses) (['😀'].map phraseClasses) = false := by decide +kernel
example : wordBreak (['a'].map phraseClasses) (['😀'].map phraseClasses) = true := by decide +kernel
example : phraseBreak (['a'].map phraseClasses) ([','].map phraseClasses) = true := by decide +kernel

end Uax29
