import Verif.Proofs.Hangul
import Verif.Props.Graphemes
import Verif.Props.Words
import Verif.Props.Phrases
import Verif.Props.Sentences
import Verif.Props.Unions
import Verif.Props.GenTestText
import Verif.Model.Chars
/-! # C100: Hangul syllables may be written as one character or in parts -/
namespace Uax29
open Spec

/-- **C100** The tokens of a text with its Hangul syllables in parts are the tokens of the text, with
their syllables in parts: no syllable is cut, and no boundary moves. -/
theorem C100_hangul (p : Pkg) (s : List Char) :
    ∃ ts : List (List Char), defaultTokens p (utf8 s) = .ok (ts.map utf8) ∧ ts.flatten = s
      ∧ defaultTokens p (utf8 (decompose s)) = .ok (ts.map fun t => utf8 (decompose t)) := by
  have key : ∀ {K : Type} {J : List K → List K → Bool} {cl : Char → K} {b : List K → List K → Bool}, Replacing decomposed J cl cl →
      (∀ x y, b x y = breakOf J x y) →
      (∀ s : List Char, ∃ ts : List (List Char), defaultTokens p (utf8 s) = .ok (ts.map utf8)
        ∧ ts.flatten = s ∧ (∀ w ∈ ts, w ≠ []) ∧ ∀ x y, s = x ++ y → (Boundary ts x ↔ b (x.map cl) (y.map cl) = true)) →
      ∃ ts : List (List Char), defaultTokens p (utf8 s) = .ok (ts.map utf8) ∧ ts.flatten = s
        ∧ defaultTokens p (utf8 (decompose s)) = .ok (ts.map fun t => utf8 (decompose t)) := by
    intro K J cl b hJ hb h
    obtain ⟨ts, h0, h1, h2, h3⟩ := h s
    obtain ⟨us, k0, k1, k2, k3⟩ := h (decompose s)
    have := hJ.tokens h1 h2 (fun x y e => by rw [← hb]; exact h3 x y e) k1 k2 (fun x y e => by rw [← hb]; exact k3 x y e)
    refine ⟨ts, h0, h1, ?_⟩
    rw [k0, this, List.map_map]
    rfl
  cases p with
  | graphemes => exact key decomposing_graphemes (fun _ _ => rfl) C08_conform
  | words => exact key (decomposing_words false) (fun _ _ => rfl) C09_conform
  | phrases =>
    have := C11_conform
    rw [show phraseClasses = wordClasses from funext C33_classes] at this
    exact key (decomposing_words true) (fun _ _ => rfl) this
  | sentences => exact key decomposing_sentences (fun _ _ => rfl) C10_conform

/-- Two spellings of a text, with the same parts, have the same tokens but for the spelling. -/
theorem C100_spelling (p : Pkg) (s s' : List Char) (h : decompose s = decompose s') :
    ∃ ts ts' : List (List Char), defaultTokens p (utf8 s) = .ok (ts.map utf8)
      ∧ defaultTokens p (utf8 s') = .ok (ts'.map utf8) ∧ ts.flatten = s ∧ ts'.flatten = s'
      ∧ ts.map decompose = ts'.map decompose := by
  obtain ⟨ts, h1, h2, h3⟩ := C100_hangul p s
  obtain ⟨ts', k1, k2, k3⟩ := C100_hangul p s'
  refine ⟨ts, ts', h1, k1, h2, k2, ?_⟩
  rw [h, k3] at h3
  have := Except.ok.inj h3
  have e : ∀ l : List (List Char), (l.map fun t => utf8 (decompose t)) = (l.map decompose).map utf8 := by simp
  rw [e, e] at this
  exact (List.map_inj_right (f := utf8) fun _ _ => utf8_inj).mp this.symm

-- 한글, in parts ᄒ ᅡ ᆫ ᄀ ᅳ ᆯ
example : decompose (chars "한글") = [Char.ofNat 0x1112, Char.ofNat 0x1161, Char.ofNat 0x11AB, Char.ofNat 0x1100,
  Char.ofNat 0x1173, Char.ofNat 0x11AF] := by decide +kernel
-- the first syllable, the last one, and the neighbours of the range
example : decompose [Char.ofNat 0xAC00, Char.ofNat 0xD7A3, Char.ofNat 0xABFF, Char.ofNat 0xD7A4]
  = [Char.ofNat 0x1100, Char.ofNat 0x1161, Char.ofNat 0x1112, Char.ofNat 0x1175, Char.ofNat 0x11C2, Char.ofNat 0xABFF,
    Char.ofNat 0xD7A4] := by decide +kernel
-- two graphemes, one word
example : defaultTokens .graphemes (utf8 (chars "한글")) = .ok [utf8 (chars "한"), utf8 (chars "글")]
  ∧ defaultTokens .graphemes (utf8 (decompose (chars "한글")))
    = .ok [utf8 (decompose (chars "한")), utf8 (decompose (chars "글"))]
  ∧ defaultTokens .words (utf8 (decompose (chars "한글 a"))) = .ok [utf8 (decompose (chars "한글")), utf8 (chars " "), utf8 (chars "a")] := by
  decide +kernel
-- the two syllables 각, as a syllable with a trailing consonant after it, and 각
example : decompose [Char.ofNat 0xAC00, Char.ofNat 0x11A8] = decompose [Char.ofNat 0xAC01]
  ∧ defaultTokens .graphemes (utf8 [Char.ofNat 0xAC00, Char.ofNat 0x11A8])
    = .ok [utf8 [Char.ofNat 0xAC00, Char.ofNat 0x11A8]] := by decide +kernel

end Uax29
