import Verif.Proofs.Pieces
import Verif.Props.Graphemes
import Verif.Props.Words
import Verif.Props.Phrases
import Verif.Props.Sentences
/-! # Property C42: ill-formed bytes -/
namespace Uax29
open Spec

/-- C42, there is exactly one way to take a byte sequence apart into pieces. -/
theorem C42_pieces (data : Bytes) : ∃ ps t, Pieces data ps t ∧ ∀ ps' t', Pieces data ps' t' → ps' = ps ∧ t' = t := by
  obtain ⟨l, t, hd⟩ := Words.wf.decodes data
  obtain ⟨ps, hp, -⟩ := hd.pieces Words.wf Words.strict
  exact ⟨ps, t, hp, fun ps' t' h => h.unique hp⟩

/-- C42, on arbitrary bytes the graphemes are whole pieces, and there is a boundary between two of them
exactly where the rules put one, with ill-formed pieces as characters without properties. -/
theorem C42_graphemes (data : Bytes) :
    ∃ ps t gs, Pieces data ps t ∧ defaultTokens .graphemes data = .ok (tokenBytes t gs)
      ∧ gs.flatten = ps ∧ (∀ g ∈ gs, g ≠ [])
      ∧ ∀ a b, ps = a ++ b → (Boundary gs a ↔
        graphemeBreak (a.map (Piece.classes graphemeClasses fun _ => false))
          (b.map (Piece.classes graphemeClasses fun _ => false)) = true) := by
  obtain ⟨ps, t, gs, h0, h1, h2, h3, h4⟩ := Graphemes.follows.contained Graphemes.wf Graphemes.strict
    (goodAdv_of_good Graphemes.splitFunc_good) (fun _ => Graphemes.restart) data
  refine ⟨ps, t, gs, h0, by rw [graphemes_segs, h1], h2, h3, ?_⟩
  intro a b hab
  rw [h4 a b hab]
  have e : ∀ l : List Piece, l.map (Piece.classes graphemeClasses fun _ => false)
      = (l.map Graphemes.trie.pieceProp).map gset := by
    intro l
    rw [List.map_map]
    apply List.map_congr_left
    intro p _
    cases p with
    | char c => exact graphemeClasses_eq c
    | bad bs =>
      funext g
      exact (Bool.eq_false_iff.mpr (by cases g <;> decide) : gset 0 g = false).symm
  rw [e, e, graphemeBreak, ← List.map_reverse, ← List.map_reverse, ← List.map_reverse]
  simp only [Graphemes.J, List.isEmpty_map, Bool.or_eq_true, Bool.not_eq_true', List.isEmpty_iff]
  rw [or_assoc]

/-- C42, words. -/
theorem C42_words (data : Bytes) :
    ∃ ps t gs, Pieces data ps t ∧ defaultTokens .words data = .ok (tokenBytes t gs)
      ∧ gs.flatten = ps ∧ (∀ g ∈ gs, g ≠ [])
      ∧ ∀ a b, ps = a ++ b → (Boundary gs a ↔
        wordBreak (a.map (Piece.classes wordClasses fun _ => false))
          (b.map (Piece.classes wordClasses fun _ => false)) = true) := by
  obtain ⟨ps, t, gs, h0, h1, h2, h3, h4⟩ := Words.follows.contained Words.wf Words.strict
    (goodAdv_of_good (Words.splitFunc_good _)) (fun _ => Words.restart) data
  refine ⟨ps, t, gs, h0, by rw [default_words_segs, h1], h2, h3, ?_⟩
  intro a b hab
  rw [h4 a b hab]
  have e : ∀ l : List Piece, l.map (Piece.classes wordClasses fun _ => false)
      = (l.map Words.trie.pieceProp).map wset := by
    intro l
    rw [List.map_map]
    apply List.map_congr_left
    intro p _
    cases p with
    | char c => exact Words.wordClasses_eq c
    | bad bs => exact Words.wset_zero.symm
  rw [e, e, wordBreak, ← List.map_reverse, ← List.map_reverse, ← List.map_reverse]
  simp only [Words.J, List.isEmpty_map, Bool.or_eq_true, Bool.not_eq_true', List.isEmpty_iff]
  rw [or_assoc]

/-- C42, phrases. -/
theorem C42_phrases (data : Bytes) :
    ∃ ps t gs, Pieces data ps t ∧ defaultTokens .phrases data = .ok (tokenBytes t gs)
      ∧ gs.flatten = ps ∧ (∀ g ∈ gs, g ≠ [])
      ∧ ∀ a b, ps = a ++ b → (Boundary gs a ↔
        phraseBreak (a.map (Piece.classes phraseClasses fun _ => false))
          (b.map (Piece.classes phraseClasses fun _ => false)) = true) := by
  obtain ⟨ps, t, gs, h0, h1, h2, h3, h4⟩ := Phrases.follows.contained Phrases.wf Phrases.strict
    (goodAdv_of_good Phrases.splitFunc_good) (fun _ => Phrases.restart) data
  refine ⟨ps, t, gs, h0, by rw [phrases_segs, h1], h2, h3, ?_⟩
  intro a b hab
  rw [h4 a b hab]
  have e : ∀ l : List Piece, l.map (Piece.classes phraseClasses fun _ => false)
      = (l.map Phrases.trie.pieceProp).map pset := by
    intro l
    rw [List.map_map]
    apply List.map_congr_left
    intro p _
    cases p with
    | char c => exact phraseClasses_eq c
    | bad bs => exact Phrases.pset_zero.symm
  rw [e, e, phraseBreak, ← List.map_reverse, ← List.map_reverse, ← List.map_reverse]
  simp only [Phrases.J, List.isEmpty_map, Bool.or_eq_true, Bool.not_eq_true', List.isEmpty_iff]
  rw [or_assoc]

/-- A cut off encoding at the end counts as a small letter for SB8. -/
theorem lowerAhead_append (right : List SB) : lowerAhead (right ++ [.Lower]) = lowerAheadCut true right := by
  unfold lowerAheadCut lowerAhead
  induction right with
  | nil => rfl
  | cons x right ih =>
    rw [List.cons_append, List.dropWhile_cons, List.dropWhile_cons]
    by_cases hx : x.stops = true
    · simp [hx]
    · rw [Bool.not_eq_true] at hx
      simp only [hx, Bool.not_false, if_true]
      rw [ih]
      simp [hx]

/-- C42, sentences, exactly: as the other packages, but if an incomplete encoding is left at the end,
SB8 takes it for a small letter. -/
theorem C42_sentences_cut (data : Bytes) :
    ∃ ps t gs, Pieces data ps t ∧ defaultTokens .sentences data = .ok (tokenBytes t gs)
      ∧ gs.flatten = ps ∧ (∀ g ∈ gs, g ≠ [])
      ∧ ∀ a b, ps = a ++ b → (Boundary gs a ↔ b = [] ∨
        sentenceBreak (a.map (Piece.classes sentenceClass .Other))
          (b.map (Piece.classes sentenceClass .Other) ++ if t = [] then [] else [.Lower]) = true) := by
  obtain ⟨ps, t, gs, h0, h1, h2, h3, h4⟩ := Sentences.follows.contained Sentences.wf Sentences.strict
    (goodAdv_of_good Sentences.splitFunc_good) Sentences.restart data
  refine ⟨ps, t, gs, h0, by rw [sentences_segs, h1], h2, h3, ?_⟩
  intro a b hab
  rw [h4 a b hab]
  have e : ∀ l : List Piece, l.map (Piece.classes sentenceClass .Other)
      = (l.map Sentences.trie.pieceProp).map sclass := by
    intro l
    rw [List.map_map]
    apply List.map_congr_left
    intro p _
    cases p with
    | char c => exact sentenceClass_eq c
    | bad bs =>
      have h : SB.Other = sclass 0 := by decide
      simp only [Function.comp, Trie.pieceProp, Piece.classes]
      exact h
  by_cases hb : b = []
  · simp [hb]
  obtain ⟨b0, b, rfl⟩ := List.exists_cons_of_ne_nil hb
  by_cases ha : a = []
  · simp [ha, sentenceBreak]
  rw [e, e, sentenceBreak, ← List.map_reverse, ← List.map_reverse, ← List.map_reverse]
  simp only [Sentences.J, List.map_cons, List.cons_append, List.isEmpty_cons, List.isEmpty_map, Bool.or_false,
    Bool.or_eq_true, List.isEmpty_iff, ha, hb, false_or, Bool.not_eq_true', sjoins]
  have hif : ∀ (x : Bool) (l : List SB) (r0 : SB) (r r' : List SB), sjoinsIf x l (r0 :: r) = sjoinsIf x l (r0 :: r') := by
    intro x l r0 r r'
    cases l <;> rfl
  by_cases ht : t = []
  · subst ht
    simp [lowerAheadCut]
  · rw [if_neg ht, ← List.cons_append, lowerAhead_append]
    have : (!t.isEmpty) = true := by simp [ht]
    rw [this, List.cons_append]
    rw [hif _ _ _ (List.map sclass (List.map Sentences.trie.pieceProp b) ++ [SB.Lower])
      (List.map sclass (List.map Sentences.trie.pieceProp b))]

/-- C42, sentences. The full statement is that of the other packages; it is proved for data that does
not end with an incomplete encoding. -/
theorem C42_sentences_partial (data : Bytes) (ps : List Piece) (hp : Pieces data ps []) :
    ∃ gs, defaultTokens .sentences data = .ok (gs.map (·.flatMap Piece.bytes))
      ∧ gs.flatten = ps ∧ (∀ g ∈ gs, g ≠ [])
      ∧ ∀ a b, ps = a ++ b → (Boundary gs a ↔
        sentenceBreak (a.map (Piece.classes sentenceClass .Other))
          (b.map (Piece.classes sentenceClass .Other)) = true) := by
  obtain ⟨ps', t, gs, h0, h1, h2, h3, h4⟩ := C42_sentences_cut data
  obtain ⟨rfl, rfl⟩ := h0.unique hp
  have htb : ∀ gs : List (List Piece), tokenBytes [] gs = gs.map (·.flatMap Piece.bytes) := by
    intro gs
    induction gs with
    | nil => rfl
    | cons g gs ih =>
      cases gs with
      | nil => simp [tokenBytes]
      | cons g' gs => rw [tokenBytes.eq_3 _ _ _ (by simp), ih]; rfl
  refine ⟨gs, by rw [h1, htb], h2, h3, ?_⟩
  intro a b hab
  rw [h4 a b hab, if_pos rfl, List.append_nil]
  constructor
  · rintro (rfl | h)
    · simp [sentenceBreak]
    · exact h
  · exact .inr

/-- The bytes "a. 1" and the first byte of a four-byte encoding. -/
def cutSentence : Bytes := [0x61, 0x2E, 0x20, 0x31, 0xF0]

/-- C42 fails for sentences: with an incomplete encoding after it, "a. 1" is one sentence, although the
rules put a boundary before the "1". -/
theorem C42_sentences_fails :
    Pieces cutSentence [.char 'a', .char '.', .char ' ', .char '1'] [0xF0]
    ∧ defaultTokens .sentences cutSentence = .ok [cutSentence]
    ∧ sentenceBreak ([Piece.char 'a', .char '.', .char ' '].map (Piece.classes sentenceClass .Other))
        ([Piece.char '1'].map (Piece.classes sentenceClass .Other)) = true :=
  ⟨.char 'a' (.char '.' (.char ' ' (.char '1' (.cut (by decide))))), by decide +kernel, by decide +kernel⟩

-- Without the incomplete encoding there are two sentences.
example : defaultTokens .sentences (utf8 "a. 1".toList) = .ok [utf8 "a. ".toList, utf8 "1".toList] := by
  decide +kernel
-- A letter, a stray continuation byte, an overlong encoding, two bytes of a four-byte encoding before a
-- letter, and a cut off encoding that takes two letters with it.
example : Pieces [0x61, 0x80, 0xE0, 0x80, 0x80, 0xF0, 0x9F, 0x62, 0x63, 0xF0, 0x64, 0x65]
    [.char 'a', .bad [0x80], .bad [0xE0, 0x80, 0x80], .bad [0xF0, 0x9F], .char 'b', .char 'c'] [0xF0, 0x64, 0x65] := by
  have ill : ∀ d, Utf8.decodeRune d = (0xFFFD, 1) → ∀ c e, d ≠ String.utf8EncodeChar c ++ e := by
    intro d h c e hc
    have h1 := decodeRune_encode c e
    rw [← hc, h] at h1
    simp only [Prod.mk.injEq] at h1
    rcases encode_cases c with ⟨h2, _⟩ | ⟨_, h2, _⟩ | ⟨_, _, b0, b1, b2, h2, _⟩ | ⟨h2, _⟩
    · omega
    · omega
    · rw [h2] at h1; simp at h1
    · omega
  refine .char 'a' (.bad (bs := []) (by decide) (ill _ (by decide)) (by decide) (.bad (bs := [0x80, 0x80]) (by decide)
    (ill _ (by decide)) (by decide) (.bad (bs := [0x9F]) (by decide) (ill _ (by decide)) (by decide)
    (.char 'b' (.char 'c' (.cut (by decide)))))))
example : defaultTokens .words [0x61, 0x80, 0xE0, 0x80, 0x80, 0xF0, 0x9F, 0x62, 0x63, 0xF0, 0x64, 0x65]
    = .ok [[0x61], [0x80], [0xE0, 0x80, 0x80], [0xF0, 0x9F], [0x62, 0x63, 0xF0, 0x64, 0x65]] := by decide +kernel

end Uax29
