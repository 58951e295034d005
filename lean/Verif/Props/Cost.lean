import Verif.Proofs.CostAnsi
import Verif.Proofs.CostQuad
import Verif.Proofs.CostLower
import Verif.Spec.Text
/-!
# Properties C54 and C55: the work of segmenting a text

`tokensC` is the loop over all tokens with a counter: one unit for each call of `lookup`, and one for each
byte tested by the loops of `Next` and of the ANSI parsers.
-/
namespace Uax29
open Spec

/-- Counting changes nothing: the tokens are those of the iterator of the package. -/
theorem C54_result (p : Pkg) (c : Config p) (data : Bytes) : (tokensC p c data).2 = tokens p c data := by
  cases p with
  | graphemes => exact Graphemes.tokensC_snd c data
  | words => exact Words.tokensC_snd c data
  | phrases => exact Phrases.tokensC_snd data
  | sentences => exact Sentences.tokensC_snd data

/-- **C54** Graphemes, options off: at most four units per byte. -/
theorem C54_graphemes (data : Bytes) :
    (tokensC .graphemes ({} : Graphemes.Options) data).1 ≤ 4 * data.length :=
  Graphemes.tokensC_le data

/-- C54, words, with any joiners: at most eight units per byte. -/
theorem C54_words (j : Option Words.Joiners) (data : Bytes) : (tokensC .words j data).1 ≤ 8 * data.length :=
  Words.tokensC_le j data

/-- C54, phrases: at most seven units per byte. -/
theorem C54_phrases (data : Bytes) : (tokensC .phrases () data).1 ≤ 7 * data.length :=
  Phrases.tokensC_le data

/-- C54, the counters miss nothing: a unit of work covers at most four bytes, in every package and configuration. -/
theorem C54_lower (p : Pkg) (c : Config p) (data : Bytes) : data.length ≤ 4 * (tokensC p c data).1 :=
  tokensC_ge p c data

-- two lookups for the first token, one for the second, and the first byte of each is tested
example : (tokensC .graphemes ({} : Graphemes.Options) (utf8 ['👍', '👍'])).1 = 5 := by decide +kernel
example : tokensC .words none (utf8 ['H', 'i', ',', ' ', '世', '界', ' ', 'c', 'a', 'n', '\'', 't'])
    = (33, .ok [utf8 ['H', 'i'], utf8 [','], utf8 [' '], utf8 ['世'], utf8 ['界'], utf8 [' '],
        utf8 ['c', 'a', 'n', '\'', 't']]) := by decide +kernel
example : (tokensC .graphemes ({} : Graphemes.Options) (utf8 ['H', 'é', '👍', '🏽'])).1 = 10 := by decide +kernel
example : (tokensC .phrases () (utf8 ['a', ' ', 'b', ',', ' ', 'c', '.'])).1 = 16 := by decide +kernel
-- the ignorable characters are looked up twice: by a look-ahead that fails, and by the passes of the next token
example : (tokensC .words none (utf8 ('a' :: '.' :: List.replicate 20 '̀' ++ ['-']))).1 = 51 := by decide +kernel

/-- **C55** In all four packages, with any configuration, the work is at most quadratic. -/
theorem C55_quadratic (p : Pkg) (c : Config p) (data : Bytes) :
    (tokensC p c data).1 ≤ (4 * data.length + 5) * data.length := by
  have mono : ∀ k n, n ≤ k * data.length → k ≤ 4 * data.length + 5 → n ≤ (4 * data.length + 5) * data.length :=
    fun k n h1 h2 => Nat.le_trans h1 (Nat.mul_le_mul_right _ h2)
  have small : ∀ k n, n ≤ k * data.length → k ≤ 9 → n ≤ (4 * data.length + 5) * data.length := by
    intro k n h1 h2
    by_cases h0 : data.length = 0
    · rw [h0] at h1 ⊢; omega
    · exact mono k n h1 (by omega)
  cases p with
  | graphemes => exact mono _ _ (Graphemes.tokensC_quad c data) (by omega)
  | words => exact small _ _ (Words.tokensC_le c data) (by omega)
  | phrases => exact small _ _ (Phrases.tokensC_le data) (by omega)
  | sentences => exact Sentences.tokensC_le data

/-- C55, no number of units per byte is enough for sentences. (The search of rule SB8 for a lowercase letter
starts anew at each character after a full stop.) -/
theorem C55_sentences (k : Nat) : ∃ data, k * data.length < (tokensC .sentences () data).1 :=
  ⟨_, Sentences.closes_superlinear k⟩

/-- C55, the texts: a full stop and `n` closing parentheses. -/
theorem C55_sentences_text (n : Nat) :
    n * n ≤ 2 * (tokensC .sentences () (0x2E :: List.replicate n 0x29)).1 :=
  Sentences.closes_tokens n

/-- C55, nor for graphemes with the option for 7-bit escape sequences. (The search for the end of an operating
system command starts anew at each `ESC ]`.) -/
theorem C55_ansi7 (o : Graphemes.Options) (h : o.ansi7 = true) (k : Nat) :
    ∃ data, k * data.length < (tokensC .graphemes o data).1 :=
  ⟨_, Graphemes.superlinear (f := fun n => (Graphemes.tokensC o (Graphemes.oscs n)).1) (Graphemes.oscs_tokens o h)
    Graphemes.oscs_length k⟩

/-- C55, nor with the option for 8-bit escape sequences. -/
theorem C55_ansi8 (o : Graphemes.Options) (h : o.ansi8 = true) (k : Nat) :
    ∃ data, k * data.length < (tokensC .graphemes o data).1 :=
  ⟨_, Graphemes.superlinear (f := fun n => (Graphemes.tokensC o (Graphemes.c1s n)).1) (Graphemes.c1s_tokens o h)
    Graphemes.c1s_length k⟩

example : (tokensC .sentences () (utf8 ('.' :: List.replicate 10 ')'))).1 = 67 := by decide +kernel
example : (tokensC .sentences () (utf8 ('.' :: List.replicate 20 ')'))).1 = 232 := by decide +kernel
example : (tokensC .sentences () (utf8 ('a' :: List.replicate 20 ')'))).1 = 23 := by decide +kernel
example : (tokensC .graphemes ({ ansi7 := true } : Graphemes.Options) (Graphemes.oscs 10)).1 = 129 := by decide +kernel
example : (tokensC .graphemes ({} : Graphemes.Options) (Graphemes.oscs 10)).1 = 39 := by decide +kernel
example : (tokensC .graphemes ({ ansi8 := true } : Graphemes.Options) (Graphemes.c1s 10)).1 = 167 := by decide +kernel
-- with the sequence closed the search is paid for by the length of the token
example : tokensC .graphemes ({ ansi7 := true } : Graphemes.Options) ([0x1B, 0x5D, 0x61, 0x62, 0x07] ++ utf8 ['H', 'i'])
    = (7, .ok [[0x1B, 0x5D, 0x61, 0x62, 0x07], utf8 ['H'], utf8 ['i']]) := by decide +kernel

-- one call of a split function: no data costs nothing, and an incomplete encoding at the begin costs one look
example : (Words.joinersSplitFuncC none [] true).1 = 0 ∧ (Phrases.splitFuncC [] true).1 = 0 ∧ (Sentences.splitFuncC [] true).1 = 0
    ∧ (Graphemes.splitFuncC [] true).1 = 0 := by decide +kernel
example : Words.joinersSplitFuncC none [0xE4, 0xB8] false = (1, .ok .requestMore)
    ∧ Phrases.splitFuncC [0xE4, 0xB8] false = (1, .ok .requestMore)
    ∧ Sentences.splitFuncC [0xE4, 0xB8] false = (1, .ok .requestMore)
    ∧ Graphemes.splitFuncC [0xE4, 0xB8] false = (1, .ok .requestMore) := by decide +kernel
-- an incomplete encoding after a character: two looks, more text to come or not
example : (Words.joinersSplitFuncC none [0xE4, 0xB8, 0x96, 0xE4, 0xB8] false).1 = 2
    ∧ (Phrases.splitFuncC [0xE4, 0xB8, 0x96, 0xE4, 0xB8] false).1 = 2
    ∧ (Sentences.splitFuncC [0xE4, 0xB8, 0x96, 0xE4, 0xB8] false).1 = 2
    ∧ (Graphemes.splitFuncC [0xE4, 0xB8, 0x96, 0xE4, 0xB8] false).1 = 2 := by decide +kernel
example : (Words.joinersSplitFuncC none [0xE4, 0xB8, 0x96, 0xE4, 0xB8] true).1 = 2
    ∧ (Phrases.splitFuncC [0xE4, 0xB8, 0x96, 0xE4, 0xB8] true).1 = 2
    ∧ (Sentences.splitFuncC [0xE4, 0xB8, 0x96, 0xE4, 0xB8] true).1 = 2
    ∧ (Graphemes.splitFuncC [0xE4, 0xB8, 0x96, 0xE4, 0xB8] true).1 = 2 := by decide +kernel
-- the passes for escape sequences: none for two bytes, one for each byte after them
example : [[0x1B, 0x4D], [0x1B, 0x37], [0x1B, 0x63], [0x1B, 0x28, 0x42], [0x1B, 0x5B, 0x31, 0x6D], [0x1B], [0x1B, 0x5B], [0x1B, 0x07]].map
    Graphemes.ansiEscapeLengthC = [(0, 2), (0, 2), (0, 2), (1, 3), (2, 4), (0, 0), (0, 0), (0, 0)] := by decide +kernel

end Uax29
