import Verif.Props.LineEndsBytes
import Verif.Props.Transparent
/-! # Words, phrases and sentences that start with a mark: C20 -/
namespace Uax29
open Spec

/-- A token with a token before it starts where a boundary is, with a last piece before it. -/
theorem piece_before {gs : List (List Piece)} (h3 : ∀ g ∈ gs, g ≠ []) {A B : List (List Piece)} {g : List Piece}
    (hAB : gs = A ++ g :: B) (hA : A ≠ []) : ∃ x d, A.flatten = x ++ [d] ∧ Boundary gs (x ++ [d]) := by
  have hne : A.flatten ≠ [] := flatten_ne_nil (fun g hg => h3 g (by rw [hAB]; simp [hg])) hA
  have hlast := List.dropLast_concat_getLast hne
  have hb := boundary_before A (g :: B)
  rw [← hAB] at hb
  exact ⟨_, _, hlast.symm, by rw [hlast]; exact hb⟩

/-- C20 for words, on arbitrary bytes: a word whose first piece is an Extend, Format or ZWJ character is the first one, or the
piece before it is CR, LF or another newline. -/
theorem C20_words (data : Bytes) :
    ∃ ps t gs, Pieces data ps t ∧ defaultTokens .words data = .ok (tokenBytes t gs) ∧ gs.flatten = ps
      ∧ ∀ A c g B, gs = A ++ (.char c :: g) :: B →
        (wordClasses c .Extend = true ∨ wordClasses c .Format = true ∨ wordClasses c .ZWJ = true) →
        A = [] ∨ ∃ d, A.flatten.getLast? = some (.char d)
          ∧ (wordClasses d .CR = true ∨ wordClasses d .LF = true ∨ wordClasses d .Newline = true) := by
  obtain ⟨ps, t, gs, h0, h1, h2, h3, h4⟩ := C42_words data
  refine ⟨ps, t, gs, h0, h1, h2, ?_⟩
  intro A c g B hAB hc
  by_cases hA : A = []
  · exact .inl hA
  right
  obtain ⟨x, d, hx, hb⟩ := piece_before h3 hAB hA
  rw [h4 _ (Piece.char c :: g ++ B.flatten) (by rw [← hx, ← h2, hAB]; simp)] at hb
  rw [hx, List.getLast?_concat]
  have hm : (wordClasses c).ignorable = true ∧ (wordClasses c).newline = false := by
    have := Words.okValue.all (P := fun v => (wset v .Extend = true ∨ wset v .Format = true ∨ wset v .ZWJ = true) →
      (wset v).ignorable = true ∧ (wset v).newline = false) (by decide +kernel) (Words.okValue_of (Words.wf.prop_value c))
    rw [Words.wordClasses_eq] at hc ⊢
    exact this hc
  cases hd : (d.classes wordClasses fun _ => false).newline with
  | true =>
    cases d with
    | bad bs => simp [Piece.classes, WSet.newline] at hd
    | char d =>
      refine ⟨d, rfl, ?_⟩
      simp only [Piece.classes, WSet.newline, Bool.or_eq_true] at hd
      rcases hd with (h | h) | h
      · exact .inr (.inr h)
      · exact .inl h
      · exact .inr (.inl h)
  | false =>
    have := joins_mark (ph := false) (left := (x.map (Piece.classes wordClasses fun _ => false)).reverse)
      (right := (g ++ B.flatten).map (Piece.classes wordClasses fun _ => false)) hd hm.2 hm.1
    simp only [wordBreak, List.map_append, List.map_cons, List.map_nil, List.reverse_append, List.reverse_cons,
      List.reverse_nil, List.nil_append, List.cons_append] at hb this
    simp only [Piece.classes] at hb this
    rw [this] at hb
    simp at hb

/-- C20 for phrases, on arbitrary bytes: a phrase whose first piece is an Extend, Format or ZWJ character is the first one, or the
piece before it is CR, LF or another newline. -/
theorem C20_phrases (data : Bytes) :
    ∃ ps t gs, Pieces data ps t ∧ defaultTokens .phrases data = .ok (tokenBytes t gs) ∧ gs.flatten = ps
      ∧ ∀ A c g B, gs = A ++ (.char c :: g) :: B →
        (phraseClasses c .Extend = true ∨ phraseClasses c .Format = true ∨ phraseClasses c .ZWJ = true) →
        A = [] ∨ ∃ d, A.flatten.getLast? = some (.char d)
          ∧ (phraseClasses d .CR = true ∨ phraseClasses d .LF = true ∨ phraseClasses d .Newline = true) := by
  obtain ⟨ps, t, gs, h0, h1, h2, h3, h4⟩ := C42_phrases data
  refine ⟨ps, t, gs, h0, h1, h2, ?_⟩
  intro A c g B hAB hc
  by_cases hA : A = []
  · exact .inl hA
  right
  obtain ⟨x, d, hx, hb⟩ := piece_before h3 hAB hA
  rw [h4 _ (Piece.char c :: g ++ B.flatten) (by rw [← hx, ← h2, hAB]; simp)] at hb
  rw [hx, List.getLast?_concat]
  have hm : (phraseClasses c).ignorable = true ∧ (phraseClasses c).newline = false := by
    have := Phrases.okValue.all (P := fun v => (pset v .Extend = true ∨ pset v .Format = true ∨ pset v .ZWJ = true) →
      (pset v).ignorable = true ∧ (pset v).newline = false) (by decide +kernel) (Phrases.okValue_of (Phrases.wf.prop_value c))
    rw [phraseClasses_eq] at hc ⊢
    exact this hc
  cases hd : (d.classes phraseClasses fun _ => false).newline with
  | true =>
    cases d with
    | bad bs => simp [Piece.classes, WSet.newline] at hd
    | char d =>
      refine ⟨d, rfl, ?_⟩
      simp only [Piece.classes, WSet.newline, Bool.or_eq_true] at hd
      rcases hd with (h | h) | h
      · exact .inr (.inr h)
      · exact .inl h
      · exact .inr (.inl h)
  | false =>
    have := joins_mark (ph := true) (left := (x.map (Piece.classes phraseClasses fun _ => false)).reverse)
      (right := (g ++ B.flatten).map (Piece.classes phraseClasses fun _ => false)) hd hm.2 hm.1
    simp only [phraseBreak, List.map_append, List.map_cons, List.map_nil, List.reverse_append, List.reverse_cons,
      List.reverse_nil, List.nil_append, List.cons_append] at hb this
    simp only [Piece.classes] at hb this
    rw [this] at hb
    simp at hb

/-- C20 for sentences, on arbitrary bytes: a sentence whose first piece is an Extend or Format character (ZWJ is one) is the
first one, or the piece before it is CR, LF or another separator. -/
theorem C20_sentences (data : Bytes) :
    ∃ ps t gs, Pieces data ps t ∧ defaultTokens .sentences data = .ok (tokenBytes t gs) ∧ gs.flatten = ps
      ∧ ∀ A c g B, gs = A ++ (.char c :: g) :: B → (sentenceClass c = .Extend ∨ sentenceClass c = .Format) →
        A = [] ∨ ∃ d, A.flatten.getLast? = some (.char d)
          ∧ (sentenceClass d = .CR ∨ sentenceClass d = .LF ∨ sentenceClass d = .Sep) := by
  obtain ⟨ps, t, gs, h0, h1, h2, h3, h4⟩ := C42_sentences_cut data
  refine ⟨ps, t, gs, h0, h1, h2, ?_⟩
  intro A c g B hAB hc
  by_cases hA : A = []
  · exact .inl hA
  right
  obtain ⟨x, d, hx, hb⟩ := piece_before h3 hAB hA
  rw [h4 _ (Piece.char c :: g ++ B.flatten) (by rw [← hx, ← h2, hAB]; simp)] at hb
  rw [hx, List.getLast?_concat]
  have hm : (sentenceClass c).ignorable = true := by rcases hc with h | h <;> rw [h] <;> rfl
  cases hd : (d.classes sentenceClass .Other).paraSep with
  | true =>
    cases d with
    | bad bs => simp [Piece.classes, SB.paraSep] at hd
    | char d =>
      refine ⟨d, rfl, ?_⟩
      revert hd
      cases h : sentenceClass d <;> simp [Piece.classes, SB.paraSep, h]
  | false =>
    have := sjoins_mark (left := (x.map (Piece.classes sentenceClass .Other)).reverse)
      (right := (g ++ B.flatten).map (Piece.classes sentenceClass .Other) ++ if t = [] then [] else [.Lower]) hd hm
    simp only [sentenceBreak, List.map_append, List.map_cons, List.map_nil, List.reverse_append, List.reverse_cons,
      List.reverse_nil, List.nil_append, List.cons_append] at hb this
    simp only [Piece.classes] at hb this
    rw [this] at hb
    simp at hb

-- marks (U+0301) and a soft hyphen join letters, spaces and stray bytes, but not newlines
example : defaultTokens .words [0x61, 0xCC, 0x81, 0x20, 0xC2, 0xAD, 0x80, 0xCC, 0x81, 0x0A, 0xCC, 0x81]
    = .ok [[0x61, 0xCC, 0x81], [0x20, 0xC2, 0xAD], [0x80, 0xCC, 0x81], [0x0A], [0xCC, 0x81]]
    ∧ defaultTokens .phrases [0x61, 0xCC, 0x81, 0x2C, 0xC2, 0xAD, 0x80, 0xCC, 0x81, 0x0A, 0xCC, 0x81]
    = .ok [[0x61, 0xCC, 0x81], [0x2C, 0xC2, 0xAD], [0x80, 0xCC, 0x81], [0x0A], [0xCC, 0x81]]
    ∧ defaultTokens .sentences [0x21, 0xCC, 0x81, 0x42, 0x0A, 0xCC, 0x81]
    = .ok [[0x21, 0xCC, 0x81], [0x42, 0x0A], [0xCC, 0x81]] := by decide +kernel

end Uax29
