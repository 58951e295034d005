import Verif.Proofs.NewlineRules
import Verif.Props.GenTestText
import Verif.Model.Chars
/-! # C101: line ends may be written in any way -/
namespace Uax29
open Spec

/-- **C101** The tokens of a text with LF for every line end are the tokens of the text with LF for
every line end. -/
theorem C101_newlines (p : Pkg) (s : List Char) :
    ∃ ts : List (List Char), defaultTokens p (utf8 s) = .ok (ts.map utf8) ∧ ts.flatten = s
      ∧ defaultTokens p (utf8 (lineFeeds s)) = .ok (ts.map fun t => utf8 (lineFeeds t)) := by
  have key : ∀ {K : Type} {J : List K → List K → Bool} {cl : Char → K} {b : List K → List K → Bool}, Newlines J cl →
      (∀ x y, b x y = breakOf J x y) →
      (∀ s : List Char, ∃ ts : List (List Char), defaultTokens p (utf8 s) = .ok (ts.map utf8)
        ∧ ts.flatten = s ∧ (∀ w ∈ ts, w ≠ []) ∧ ∀ x y, s = x ++ y → (Boundary ts x ↔ b (x.map cl) (y.map cl) = true)) →
      ∃ ts : List (List Char), defaultTokens p (utf8 s) = .ok (ts.map utf8) ∧ ts.flatten = s
        ∧ defaultTokens p (utf8 (lineFeeds s)) = .ok (ts.map fun t => utf8 (lineFeeds t)) := by
    intro K J cl b hJ hb h
    obtain ⟨ts, h0, h1, h2, h3⟩ := h s
    obtain ⟨us, k0, k1, k2, k3⟩ := h (lineFeeds s)
    have := hJ.tokens h1 h2 (fun x y e => by rw [← hb]; exact h3 x y e) k1 k2 (fun x y e => by rw [← hb]; exact k3 x y e)
    refine ⟨ts, h0, h1, ?_⟩
    rw [k0, this, List.map_map]
    rfl
  cases p with
  | graphemes => exact key newlines_graphemes (fun _ _ => rfl) C08_conform
  | words => exact key (newlines_words false) (fun _ _ => rfl) C09_conform
  | phrases =>
    have := C11_conform
    rw [show phraseClasses = wordClasses from funext C33_classes] at this
    exact key (newlines_words true) (fun _ _ => rfl) this
  | sentences => exact key newlines_sentences (fun _ _ => rfl) C10_conform

/-- Two texts that differ only in how line ends are written have the same tokens but for the line ends. -/
theorem C101_spelling (p : Pkg) (s s' : List Char) (h : lineFeeds s = lineFeeds s') :
    ∃ ts ts' : List (List Char), defaultTokens p (utf8 s) = .ok (ts.map utf8)
      ∧ defaultTokens p (utf8 s') = .ok (ts'.map utf8) ∧ ts.flatten = s ∧ ts'.flatten = s'
      ∧ ts.map lineFeeds = ts'.map lineFeeds := by
  obtain ⟨ts, h1, h2, h3⟩ := C101_newlines p s
  obtain ⟨ts', k1, k2, k3⟩ := C101_newlines p s'
  refine ⟨ts, ts', h1, k1, h2, k2, ?_⟩
  rw [h, k3] at h3
  have := Except.ok.inj h3
  have e : ∀ l : List (List Char), (l.map fun t => utf8 (lineFeeds t)) = (l.map lineFeeds).map utf8 := by simp
  rw [e, e] at this
  exact (List.map_inj_right (f := utf8) fun _ _ => utf8_inj).mp this.symm

-- a CR LF, a CR before a CR LF, a line separator
example : lineFeeds (chars "a\r\nb\r\r\nc d") = chars "a\nb\n\nc\nd" := by decide +kernel
example : defaultTokens .graphemes (utf8 (chars "a\r\r\n")) = .ok [utf8 (chars "a"), utf8 (chars "\r"), utf8 (chars "\r\n")]
  ∧ defaultTokens .graphemes (utf8 (chars "a\n\n")) = .ok [utf8 (chars "a"), utf8 (chars "\n"), utf8 (chars "\n")] := by
  decide +kernel
example : defaultTokens .sentences (utf8 (chars "Hi there.\r\nYes\u0085no"))
    = .ok [utf8 (chars "Hi there.\r\n"), utf8 (chars "Yes\u0085"), utf8 (chars "no")]
  ∧ defaultTokens .sentences (utf8 (chars "Hi there.\nYes\nno"))
    = .ok [utf8 (chars "Hi there.\n"), utf8 (chars "Yes\n"), utf8 (chars "no")] := by decide +kernel

-- a form feed is no line end in this sense: in package words it is a newline, in package sentences a space
example : defaultTokens .sentences (utf8 (chars "a\x0cb")) = .ok [utf8 (chars "a\x0cb")]
    ∧ defaultTokens .sentences (utf8 (chars "a\nb")) = .ok [utf8 (chars "a\n"), utf8 (chars "b")] := by decide +kernel

end Uax29
