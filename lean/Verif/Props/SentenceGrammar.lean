import Verif.Proofs.SentenceGrammar
import Verif.Props.WordGrammar
import Verif.Props.Sentences
/-! # Sentences are the longest matches of a grammar: C99 -/
namespace Uax29
open Spec

/-- **C99** A text is one sentence if and only if it has the form. -/
theorem C99_sentence (t : List Char) : defaultTokens .sentences (utf8 t) = .ok [utf8 t] ↔ SentenceForm sentenceClass t := by
  obtain ⟨ts, h1, h2, h3, h4⟩ := C10_conform t
  have e : defaultTokens .sentences (utf8 t) = .ok [utf8 t] ↔ ts = [t] := by
    rw [h1]
    constructor
    · intro h
      exact (List.map_inj_right fun _ _ h => utf8_inj h).mp (show ts.map utf8 = [t].map utf8 from Except.ok.inj h)
    · rintro rfl
      rfl
  rw [e]
  by_cases ht : t = []
  · subst ht
    constructor
    · rintro rfl
      exact absurd rfl (h3 [] (by simp))
    · intro h
      generalize e : ([] : List Char) = t at h
      cases h with
      | mk g e' hs hg he hne => exact absurd e.symm hne
  rw [one_token ht h2 h3, ← SGrammar.undivided_iff ht]
  constructor
  · intro h x y hxy hx0 hy0
    have := h x y hxy hx0 hy0
    rw [h4 x y hxy] at this
    simpa [sentenceBreak, hx0, hy0] using this
  · intro h x y hxy hx0 hy0
    rw [h4 x y hxy]
    simp [sentenceBreak, hx0, hy0, h x y hxy hx0 hy0]

/-- **C99** The sentences of a text are the longest matches of the grammar, from left to right. -/
theorem C99_sentences (s : List Char) (ts : List (List Char)) :
    defaultTokens .sentences (utf8 s) = .ok (ts.map utf8) ↔ LongestMatches (SentenceForm sentenceClass) s ts := by
  rw [C98_longest, longestMatches_congr C99_sentence]

instance (m : List Char) : Decidable (SMarks sentenceClass m) := inferInstanceAs (Decidable (∀ d ∈ m, _ ∨ _))
-- "3.4?) " with a line end
example : SentenceForm sentenceClass ['3', '.', '4', '?', ')', ' ', '\r', '\n'] :=
  .mk ['?', ')', ' '] ['\r', '\n'] (.number (s := ['3']) (t := '.') (g := []) [] '4' [] (.char (s := []) '3' [] .nil (by decide +kernel)
    (by decide +kernel)) (.one '.' [] [] (by decide +kernel) (by decide +kernel) (by decide +kernel)) (by decide +kernel)
    (by decide +kernel) (by decide +kernel) (by decide +kernel))
    (.inr ⟨'?', .one '?' [')'] [' '] (by decide +kernel) (by decide +kernel) (by decide +kernel)⟩)
    (.inr (.inr ⟨'\r', '\n', rfl, by decide +kernel, by decide +kernel⟩)) (by simp)
-- "U.S" and "etc. (and" go on; "A. B" and "no? (and" do not
example : SentenceForm sentenceClass (chars "U.S") ∧ SentenceForm sentenceClass (chars "etc. (and")
    ∧ ¬ SentenceForm sentenceClass (chars "A. B") ∧ ¬ SentenceForm sentenceClass (chars "no? (and") := by
  simp only [← C99_sentence]; decide +kernel
-- a comma after a question mark; nothing after a line end; a blank line is two sentences
example : SentenceForm sentenceClass (chars "\"So?\", A") ∧ ¬ SentenceForm sentenceClass ['a', '\n', 'b']
    ∧ SentenceForm sentenceClass ['\n'] ∧ ¬ SentenceForm sentenceClass ['\n', '\n'] := by
  simp only [← C99_sentence]; decide +kernel
example : LongestMatches (SentenceForm sentenceClass) (chars "He said, \"Go.\" I went. Mr. a b") [chars "He said, \"Go.\" ", chars "I went. ",
    chars "Mr. a b"] :=
  (C99_sentences _ _).mp (by decide +kernel)

end Uax29
