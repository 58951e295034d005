import Verif.Proofs.RunLength
import Verif.Props.Graphemes
import Verif.Props.Words
import Verif.Props.Phrases
import Verif.Props.Sentences
import Verif.Props.Unions
import Verif.Model.Chars
/-! # C102: the length of runs does not matter -/
namespace Uax29
open Spec

theorem Replacing.of_conform {p : Pkg} {f : Char → List Char} {K : Type} {J : List K → List K → Bool}
    {cl : Char → K} (hJ : Replacing f J cl cl)
    (h : ∀ s : List Char, ∃ ts : List (List Char), defaultTokens p (utf8 s) = .ok (ts.map utf8)
        ∧ ts.flatten = s ∧ (∀ w ∈ ts, w ≠ [])
        ∧ ∀ x y, s = x ++ y → (Boundary ts x ↔ breakOf J (x.map cl) (y.map cl) = true)) (s : List Char) :
    ∃ ts : List (List Char), defaultTokens p (utf8 s) = .ok (ts.map utf8) ∧ ts.flatten = s
      ∧ defaultTokens p (utf8 (expand f s)) = .ok (ts.map fun t => utf8 (expand f t)) := by
  obtain ⟨ts, h0, h1, h2, h3⟩ := h s
  obtain ⟨us, k0, k1, k2, k3⟩ := h (expand f s)
  refine ⟨ts, h0, h1, ?_⟩
  rw [k0, hJ.tokens h1 h2 h3 k1 k2 k3, List.map_map]
  rfl

/-- **C102** If marks (prepended characters, the parts of Hangul syllables) of a text are each replaced by one or
more characters of the same kind, the graphemes of the new text are those of the old one after the replacement, -/
theorem C102_graphemes (f : Char → List Char) (hf : Stretches graphemeClasses GSet.forms f) (s : List Char) :
    ∃ ts : List (List Char), defaultTokens .graphemes (utf8 s) = .ok (ts.map utf8) ∧ ts.flatten = s
      ∧ defaultTokens .graphemes (utf8 (expand f s)) = .ok (ts.map fun t => utf8 (expand f t)) :=
  (uncounted_graphemes.stretches hf).of_conform C08_conform s

/-- the same holds for words and letters (digits, Katakana, underscores, blanks, marks, format characters, joiners), -/
theorem C102_words (f : Char → List Char) (hf : Stretches wordClasses (WSet.forms false) f) (s : List Char) :
    ∃ ts : List (List Char), defaultTokens .words (utf8 s) = .ok (ts.map utf8) ∧ ts.flatten = s
      ∧ defaultTokens .words (utf8 (expand f s)) = .ok (ts.map fun t => utf8 (expand f t)) :=
  ((uncounted_words false).stretches hf).of_conform C09_conform s

/-- for phrases and the same kinds and pictographs, -/
theorem C102_phrases (f : Char → List Char) (hf : Stretches phraseClasses (WSet.forms true) f) (s : List Char) :
    ∃ ts : List (List Char), defaultTokens .phrases (utf8 s) = .ok (ts.map utf8) ∧ ts.flatten = s
      ∧ defaultTokens .phrases (utf8 (expand f s)) = .ok (ts.map fun t => utf8 (expand f t)) := by
  have h := C11_conform
  have e : phraseClasses = wordClasses := funext C33_classes
  rw [e] at h hf
  exact ((uncounted_words true).stretches hf).of_conform h s

/-- and for sentences and all kinds but full stops and the ends of paragraphs. -/
theorem C102_sentences (f : Char → List Char) (hf : Stretches sentenceClass SB.forms f) (s : List Char) :
    ∃ ts : List (List Char), defaultTokens .sentences (utf8 s) = .ok (ts.map utf8) ∧ ts.flatten = s
      ∧ defaultTokens .sentences (utf8 (expand f s)) = .ok (ts.map fun t => utf8 (expand f t)) :=
  (uncounted_sentences.stretches hf).of_conform C10_conform s

/-- A replacement for the examples: `l` by `lll`, `3` by `27`, a blank by two. -/
def stretched (c : Char) : List Char :=
  if c = 'l' then chars "lll" else if c = '3' then chars "27" else if c = ' ' then chars "  " else [c]

theorem stretched_words : Stretches wordClasses (WSet.forms false) stretched := by
  have key : ∀ a b : Char, Words.trie.prop a = Words.trie.prop b → wordClasses a = wordClasses b := by
    intro a b h
    rw [Words.wordClasses_eq, Words.wordClasses_eq, h]
  intro c
  unfold stretched
  split
  · rename_i h; subst h
    refine .inr ⟨by decide +kernel, by decide +kernel, ?_⟩
    intro d hd
    rw [show chars "lll" = ['l', 'l', 'l'] by decide +kernel] at hd
    simp only [List.mem_cons, List.not_mem_nil, or_false, or_self] at hd
    rw [hd]
  split
  · rename_i h; subst h
    refine .inr ⟨by decide +kernel, by decide +kernel, ?_⟩
    intro d hd
    rw [show chars "27" = ['2', '7'] by decide +kernel] at hd
    simp only [List.mem_cons, List.not_mem_nil, or_false] at hd
    rcases hd with rfl | rfl <;> exact key _ _ (by decide +kernel)
  split
  · rename_i h; subst h
    refine .inr ⟨by decide +kernel, by decide +kernel, ?_⟩
    intro d hd
    rw [show chars "  " = [' ', ' '] by decide +kernel] at hd
    simp only [List.mem_cons, List.not_mem_nil, or_false, or_self] at hd
    rw [hd]
  · exact .inl rfl

example : expand stretched (chars "l'll 3.3, l") = chars "lll'llllll  27.27,  lll" := by decide +kernel
example : defaultTokens .words (utf8 (chars "l'll 3.3, l"))
    = .ok [utf8 (chars "l'll"), utf8 (chars " "), utf8 (chars "3.3"), utf8 (chars ","), utf8 (chars " "), utf8 (chars "l")]
  ∧ defaultTokens .words (utf8 (chars "lll'llllll  27.27,  lll"))
    = .ok [utf8 (chars "lll'llllll"), utf8 (chars "  "), utf8 (chars "27.27"), utf8 (chars ","), utf8 (chars "  "),
      utf8 (chars "lll")] := by decide +kernel
/-- Another replacement: two of each. -/
theorem Spec.Stretches.double {K : Type} (cl : Char → K) (forms : K → Bool) :
    Stretches cl forms fun c => if forms (cl c) then [c, c] else [c] := by
  intro c
  by_cases h : forms (cl c) = true
  · exact .inr ⟨h, by simp [h], by simp [h]⟩
  · exact .inl (by simp [h])

example : expand (fun c => if (sentenceClass c).forms then [c, c] else [c]) (chars "It is p. 3, etc. and (so) on! Yes")
    = chars "IItt  iiss  pp.  33,,  eettcc.  aanndd  ((ssoo))  oonn!!  YYeess" := by decide +kernel
example : defaultTokens .sentences (utf8 (chars "It is p. 3, etc. and (so) on! Yes"))
    = .ok [utf8 (chars "It is p. 3, etc. and (so) on! "), utf8 (chars "Yes")]
  ∧ defaultTokens .sentences (utf8 (chars "IItt  iiss  pp.  33,,  eettcc.  aanndd  ((ssoo))  oonn!!  YYeess"))
    = .ok [utf8 (chars "IItt  iiss  pp.  33,,  eettcc.  aanndd  ((ssoo))  oonn!!  "), utf8 (chars "YYeess")] := by
  decide +kernel
-- a full stop is different: a second one ends the sentence
example : defaultTokens .sentences (utf8 (chars "a.P")) = .ok [utf8 (chars "a.P")]
  ∧ defaultTokens .sentences (utf8 (chars "a..P")) = .ok [utf8 (chars "a.."), utf8 (chars "P")] := by decide +kernel
example : expand (fun c => if (graphemeClasses c).forms then [c, c] else [c])
      ['e', Char.ofNat 0x301, Char.ofNat 0x1100, Char.ofNat 0x1161, 'x']
    = ['e', Char.ofNat 0x301, Char.ofNat 0x301, Char.ofNat 0x1100, Char.ofNat 0x1100, Char.ofNat 0x1161, Char.ofNat 0x1161,
      'x'] := by decide +kernel
example : defaultTokens .graphemes (utf8 ['e', Char.ofNat 0x301, Char.ofNat 0x1100, Char.ofNat 0x1161, 'x'])
    = .ok [utf8 ['e', Char.ofNat 0x301], utf8 [Char.ofNat 0x1100, Char.ofNat 0x1161], utf8 ['x']]
  ∧ defaultTokens .graphemes (utf8 ['e', Char.ofNat 0x301, Char.ofNat 0x301, Char.ofNat 0x1100, Char.ofNat 0x1100,
      Char.ofNat 0x1161, Char.ofNat 0x1161, 'x'])
    = .ok [utf8 ['e', Char.ofNat 0x301, Char.ofNat 0x301],
      utf8 [Char.ofNat 0x1100, Char.ofNat 0x1100, Char.ofNat 0x1161, Char.ofNat 0x1161], utf8 ['x']] := by decide +kernel
-- a regional indicator is different: two make a flag, three do not make one grapheme
example : defaultTokens .graphemes (utf8 [Char.ofNat 0x1F1E9, Char.ofNat 0x1F1E9, Char.ofNat 0x1F1EA])
    = .ok [utf8 [Char.ofNat 0x1F1E9, Char.ofNat 0x1F1E9], utf8 [Char.ofNat 0x1F1EA]] := by decide +kernel
-- pictographs are joined in phrases, not in words
example : defaultTokens .phrases (utf8 [Char.ofNat 0x1F600, Char.ofNat 0x1F600])
    = .ok [utf8 [Char.ofNat 0x1F600, Char.ofNat 0x1F600]]
  ∧ defaultTokens .words (utf8 [Char.ofNat 0x1F600, Char.ofNat 0x1F600])
    = .ok [utf8 [Char.ofNat 0x1F600], utf8 [Char.ofNat 0x1F600]] := by decide +kernel
-- kinds that form runs
example : ([0x301, 0x903, 0x600, 0x1100, 0x1161, 0x11A8].map fun n => (graphemeClasses (Char.ofNat n)).forms)
    = [true, true, true, true, true, true] := by decide +kernel
example : ([0x61, 0x5D0, 0x30, 0x30A2, 0x5F, 0x20, 0x301, 0xAD, 0x200D].map fun n =>
      (wordClasses (Char.ofNat n)).forms false) = [true, true, true, true, true, true, true, true, true]
  ∧ (wordClasses (Char.ofNat 0x1F600)).forms false = false ∧ (wordClasses (Char.ofNat 0x1F600)).forms true = true := by
  decide +kernel
-- an accent or soft hyphen written twice, and a joiner
example : defaultTokens .words (utf8 (['e', Char.ofNat 0x301, Char.ofNat 0x301, Char.ofNat 0xAD, Char.ofNat 0xAD, 'x', '\'',
      Char.ofNat 0x200D, Char.ofNat 0x200D, 'y']))
    = .ok [utf8 (['e', Char.ofNat 0x301, Char.ofNat 0x301, Char.ofNat 0xAD, Char.ofNat 0xAD, 'x', '\'',
      Char.ofNat 0x200D, Char.ofNat 0x200D, 'y'])] := by decide +kernel
-- punctuation is different: two apostrophes divide the word
example : defaultTokens .words (utf8 (chars "l''l"))
    = .ok [utf8 (chars "l"), utf8 (chars "'"), utf8 (chars "'"), utf8 (chars "l")] := by decide +kernel

end Uax29
