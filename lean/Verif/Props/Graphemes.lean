import Verif.Proofs.GraphemeConf
import Verif.Proofs.Segs
/-! # Properties of grapheme segmentation: C08 -/
namespace Uax29
open Spec

theorem graphemes_segs (data : Bytes) :
    defaultTokens .graphemes data = .ok (segs (splitAdv Graphemes.splitFunc) data) := by
  rw [defaultTokens_eq, tokens_eq]
  congr 1
  exact (Iterator.goodAdv .graphemes _).segs_congr (goodAdv_of_good Graphemes.splitFunc_good)
    (fun _ hd => Graphemes.adv_default hd) data

theorem graphemeClasses_eq (c : Char) : graphemeClasses c = gset (Graphemes.trie.prop c) := by
  have := Graphemes.wf.lookup_encode c []
  rw [List.append_nil] at this
  simp only [graphemeClasses, this]

/-- **C08** On UTF-8 the graphemes are whole characters, and there is a boundary between two of them
exactly where the rules GB1–GB999 put one, given the properties in the shipped table. -/
theorem C08_conform (s : List Char) :
    ∃ gs : List (List Char), defaultTokens .graphemes (utf8 s) = .ok (gs.map utf8)
      ∧ gs.flatten = s ∧ (∀ g ∈ gs, g ≠ [])
      ∧ ∀ a b, s = a ++ b →
        (Boundary gs a ↔ graphemeBreak (a.map graphemeClasses) (b.map graphemeClasses) = true) := by
  obtain ⟨gs, h1, h2, h3, h4⟩ := Graphemes.follows.conform Graphemes.wf
    (goodAdv_of_good Graphemes.splitFunc_good) (P := Graphemes.trie.IsValue) (fun _ h => h) Graphemes.restart s
  refine ⟨gs, by rw [graphemes_segs, h1], h2, h3, ?_⟩
  intro a b hab
  rw [h4 a b hab]
  have e : ∀ l : List Char, l.map graphemeClasses = (l.map (cellOf Graphemes.trie Prod.fst)).map gset := by
    intro l; simp [graphemeClasses_eq, cellOf]
  rw [e, e, graphemeBreak, ← List.map_reverse, ← List.map_reverse, ← List.map_reverse]
  simp only [Graphemes.J, List.isEmpty_map, Bool.or_eq_true, Bool.not_eq_true', List.isEmpty_iff]
  rw [or_assoc]

-- woman, ZWJ, rocket and a combining accent are one grapheme, the letter after them is another
example : defaultTokens .graphemes (utf8 ['👩', '\u200D', '🚀', '\u0301', 'x'])
    = .ok [utf8 ['👩', '\u200D', '🚀', '\u0301'], utf8 ['x']] := by decide +kernel
example : graphemeBreak (['👩', '\u200D'].map graphemeClasses) (['🚀'].map graphemeClasses) = false := by
  decide +kernel
-- a conjunct: ka, virama, ka (GB9c); without the virama there is a boundary
example : graphemeBreak (['क', '\u094D'].map graphemeClasses) (['क'].map graphemeClasses) = false := by
  decide +kernel
example : graphemeBreak (['क'].map graphemeClasses) (['क'].map graphemeClasses) = true := by
  decide +kernel

end Uax29
