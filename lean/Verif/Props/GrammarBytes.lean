import Verif.Props.SentenceGrammar
import Verif.Props.ClusterGrammar
import Verif.Props.Repair
/-! # The grammars on arbitrary bytes: C97, C99 -/
namespace Uax29
open Spec

theorem repaired_longest {p : Pkg} {R : List Char → Prop}
    (hR : ∀ (s : List Char) (ts : List (List Char)), defaultTokens p (utf8 s) = .ok (ts.map utf8) ↔ LongestMatches R s ts)
    {ps : List Piece} {gs : List (List Piece)}
    (h : defaultTokens p (utf8 (ps.map Piece.repaired)) = .ok (gs.map fun g => utf8 (g.map Piece.repaired))) :
    LongestMatches R (ps.map Piece.repaired) (gs.map (·.map Piece.repaired)) := by
  rw [← hR, h, List.map_map]
  rfl

/-- **C99** On arbitrary bytes the words are whole pieces, and with every ill-formed piece as U+FFFD they are the longest matches of
the grammar; an encoding that is cut off at the end of the text belongs to the last word. -/
theorem C99_words_bytes (data : Bytes) :
    ∃ ps t gs, Pieces data ps t ∧ defaultTokens .words data = .ok (tokenBytes t gs) ∧ gs.flatten = ps ∧ (∀ g ∈ gs, g ≠ [])
      ∧ LongestMatches (WordForm false wordClasses) (ps.map Piece.repaired) (gs.map (·.map Piece.repaired)) := by
  obtain ⟨ps, t, gs, h0, h1, h2, h3, h4⟩ := C64_repair .words (by decide) data
  exact ⟨ps, t, gs, h0, h1, h2, h3, repaired_longest C99_words h4⟩

/-- **C99** The same for phrases. -/
theorem C99_phrases_bytes (data : Bytes) :
    ∃ ps t gs, Pieces data ps t ∧ defaultTokens .phrases data = .ok (tokenBytes t gs) ∧ gs.flatten = ps ∧ (∀ g ∈ gs, g ≠ [])
      ∧ LongestMatches (WordForm true phraseClasses) (ps.map Piece.repaired) (gs.map (·.map Piece.repaired)) := by
  obtain ⟨ps, t, gs, h0, h1, h2, h3, h4⟩ := C64_repair .phrases (by decide) data
  exact ⟨ps, t, gs, h0, h1, h2, h3, repaired_longest C99_phrases h4⟩

/-- **C99** The same for sentences, if no encoding is cut off at the end of the text (else it is false, see C42 and C64). -/
theorem C99_sentences_bytes (data : Bytes) (ps : List Piece) (hp : Pieces data ps []) :
    ∃ gs, defaultTokens .sentences data = .ok (tokenBytes [] gs) ∧ gs.flatten = ps ∧ (∀ g ∈ gs, g ≠ [])
      ∧ LongestMatches (SentenceForm sentenceClass) (ps.map Piece.repaired) (gs.map (·.map Piece.repaired)) := by
  obtain ⟨gs, h1, h2, h3, h4⟩ := C64_sentences_partial data ps hp
  exact ⟨gs, h1, h2, h3, repaired_longest C99_sentences h4⟩

/-- **C97** On arbitrary bytes the graphemes are whole pieces, and with every ill-formed piece as U+FFFD they are the longest matches
of the regular expression. -/
theorem C97_bytes (data : Bytes) :
    ∃ ps t gs, Pieces data ps t ∧ defaultTokens .graphemes data = .ok (tokenBytes t gs) ∧ gs.flatten = ps ∧ (∀ g ∈ gs, g ≠ [])
      ∧ LongestMatches (Cluster graphemeClasses) (ps.map Piece.repaired) (gs.map (·.map Piece.repaired)) := by
  obtain ⟨ps, t, gs, h0, h1, h2, h3, h4⟩ := C64_repair .graphemes (by decide) data
  exact ⟨ps, t, gs, h0, h1, h2, h3, repaired_longest C97_iff h4⟩

-- "a", a stray continuation byte with a mark, "b", and a cut off encoding
example : defaultTokens .words ([0x61, 0x80] ++ utf8 ['\u0301', 'b'] ++ [0xF0])
      = .ok (tokenBytes [0xF0] [[.char 'a'], [.bad [0x80], .char '\u0301'], [.char 'b']])
    ∧ defaultTokens .graphemes ([0x61, 0x80] ++ utf8 ['\u0301', 'b'] ++ [0xF0])
      = .ok (tokenBytes [0xF0] [[.char 'a'], [.bad [0x80], .char '\u0301'], [.char 'b']]) := by decide +kernel
example : LongestMatches (WordForm false wordClasses) ([Piece.char 'a', .bad [0x80], .char '\u0301', .char 'b'].map Piece.repaired)
    [['a'], ['\uFFFD', '\u0301'], ['b']] := (C99_words _ _).mp (by decide +kernel)
example : defaultTokens .sentences [0x61, 0x2E, 0x80, 0x62, 0x3F, 0x20, 0x80]
    = .ok (tokenBytes [] [[.char 'a', .char '.', .bad [0x80], .char 'b', .char '?', .char ' '], [.bad [0x80]]]) := by decide +kernel

end Uax29
