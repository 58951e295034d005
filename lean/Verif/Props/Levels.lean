import Verif.Proofs.LevelsWithin
import Verif.Props.Graphemes
import Verif.Props.Words
import Verif.Props.Sentences
import Verif.Props.Unions
/-! # Properties C61 and C62: the tokens of one level and those of another -/
namespace Uax29
open Spec

local notation "gc" => graphemeClasses
local notation "wc" => wordClasses
local notation "sc" => sentenceClass

theorem graphemeBreak_of_wordBreak {a b : List Char} (h : wordBreak (a.map wc) (b.map wc) = true) :
    graphemeBreak (a.map gc) (b.map gc) = true ∨ WordCutsGrapheme a b := by
  rcases reverse_cases a with rfl | ⟨x, l, rfl⟩
  · exact .inl rfl
  cases b with
  | nil => exact .inl (by simp [graphemeBreak])
  | cons y b =>
    cases hg : graphemeJoins ((x :: l).map gc) ((y :: b).map gc) with
    | false =>
      left
      rw [graphemeBreak, ← List.map_reverse, List.reverse_reverse, hg]
      simp
    | true =>
      rcases words_of_graphemes hg with h1 | h1
      · rw [wordBreak, ← List.map_reverse, List.reverse_reverse, h1] at h
        simp at h
      · exact .inr h1

theorem graphemeBreak_of_sentenceBreak {a b : List Char} (h : sentenceBreak (a.map sc) (b.map sc) = true) :
    graphemeBreak (a.map gc) (b.map gc) = true ∨ SentenceCutsGrapheme a b := by
  rcases reverse_cases a with rfl | ⟨x, l, rfl⟩
  · exact .inl rfl
  cases b with
  | nil => exact .inl (by simp [graphemeBreak])
  | cons y b =>
    cases hg : graphemeJoins ((x :: l).map gc) ((y :: b).map gc) with
    | false =>
      left
      rw [graphemeBreak, ← List.map_reverse, List.reverse_reverse, hg]
      simp
    | true =>
      rcases sentences_of_graphemes hg with h1 | h1
      · rw [sentenceBreak, ← List.map_reverse, List.reverse_reverse, h1] at h
        simp at h
      · exact .inr h1

theorem wordBreak_of_sentenceBreak {a b : List Char} (h : sentenceBreak (a.map sc) (b.map sc) = true) :
    wordBreak (a.map wc) (b.map wc) = true ∨ SentenceCutsWord a b := by
  rcases reverse_cases a with rfl | ⟨x, l, rfl⟩
  · exact .inl rfl
  cases b with
  | nil => exact .inl (by simp [wordBreak])
  | cons y b =>
    cases hg : joins false ((x :: l).map wc) ((y :: b).map wc) with
    | false =>
      left
      rw [wordBreak, ← List.map_reverse, List.reverse_reverse, hg]
      simp
    | true =>
      rcases sentences_of_words hg with h1 | h1
      · rw [sentenceBreak, ← List.map_reverse, List.reverse_reverse, h1] at h
        simp at h
      · exact .inr h1

theorem wordBreak_of_phraseBreak {a b : List Char} (h : phraseBreak (a.map phraseClasses) (b.map phraseClasses) = true) :
    wordBreak (a.map wc) (b.map wc) = true := by
  rw [show phraseClasses = wc from funext C33_classes] at h
  unfold phraseBreak at h
  unfold wordBreak
  simp only [Bool.or_eq_true, Bool.not_eq_true'] at h ⊢
  rcases h with h | h
  · exact .inl h
  · refine .inr (Bool.eq_false_iff.mpr fun hj => ?_)
    rw [joins_mono hj] at h
    cases h

/-! ## the exact forms -/

theorem joins_nonempty {ph : Bool} {a b : List WSet} (h : joins ph a b = true) : a.isEmpty = false ∧ b.isEmpty = false := by
  cases a with
  | nil => cases h
  | cons x a =>
    cases b with
    | nil => cases h
    | cons y b => exact ⟨rfl, rfl⟩

theorem wordCuts_iff {a b : List Char} (h : wordBreak (a.map wc) (b.map wc) = true) :
    graphemeBreak (a.map gc) (b.map gc) = true ↔ ¬ WordCutsGrapheme a b := by
  refine ⟨fun hg hc => ?_, (graphemeBreak_of_wordBreak h).resolve_right⟩
  rw [hc.within] at hg
  cases hg

theorem sentenceCutsGrapheme_iff {a b : List Char} (h : sentenceBreak (a.map sc) (b.map sc) = true) :
    graphemeBreak (a.map gc) (b.map gc) = true ↔ ¬ SentenceCutsGrapheme a b := by
  refine ⟨fun hg hc => ?_, (graphemeBreak_of_sentenceBreak h).resolve_right⟩
  rw [hc.within] at hg
  cases hg

theorem sentenceCutsWord_iff {a b : List Char} (h : sentenceBreak (a.map sc) (b.map sc) = true) :
    wordBreak (a.map wc) (b.map wc) = true ↔ ¬ SentenceCutsWord a b := by
  refine ⟨fun hg hc => ?_, (wordBreak_of_sentenceBreak h).resolve_right⟩
  have h1 := hc.within
  have h2 := joins_nonempty h1
  rw [List.map_reverse] at h1 h2
  rw [wordBreak, h1, h2.2] at hg
  rw [List.isEmpty_reverse] at h2
  rw [h2.1] at hg
  cases hg

/-! ## C61: words, phrases and sentences against graphemes

The full statement is the one without `WordCutsGrapheme` and `SentenceCutsGrapheme`; the theorems `C61_…_fails` refute it. -/

/-- **C61** for words. Missing: the positions of `WordCutsGrapheme`; at these, and only at these, a boundary
is none of the smaller tokens. -/
theorem C61_words_partial (s : List Char) :
    ∃ gs ws : List (List Char), defaultTokens .graphemes (utf8 s) = .ok (gs.map utf8)
      ∧ defaultTokens .words (utf8 s) = .ok (ws.map utf8)
      ∧ (∀ a b, s = a ++ b → Boundary ws a → (Boundary gs a ↔ ¬ WordCutsGrapheme a b))
      ∧ ((∃ G : List (List (List Char)), G.flatten = gs ∧ G.map List.flatten = ws) ↔
        ∀ a b, s = a ++ b → Boundary ws a → ¬ WordCutsGrapheme a b) := by
  obtain ⟨gs, g1, g2, g3, g4⟩ := C08_conform s
  obtain ⟨ws, w1, w2, w3, w4⟩ := C09_conform s
  have key : ∀ a b, s = a ++ b → Boundary ws a → (Boundary gs a ↔ ¬ WordCutsGrapheme a b) := by
    intro a b hs ha
    rw [w4 a b hs] at ha
    rw [g4 a b hs]
    exact wordCuts_iff ha
  exact ⟨gs, ws, g1, w1, key, levels_iff w2 g2 g3 key⟩

/-- **C61** for phrases. Missing: the positions of `WordCutsGrapheme`; at these, and only at these, a boundary
is none of the smaller tokens. -/
theorem C61_phrases_partial (s : List Char) :
    ∃ gs ws : List (List Char), defaultTokens .graphemes (utf8 s) = .ok (gs.map utf8)
      ∧ defaultTokens .phrases (utf8 s) = .ok (ws.map utf8)
      ∧ (∀ a b, s = a ++ b → Boundary ws a → (Boundary gs a ↔ ¬ WordCutsGrapheme a b))
      ∧ ((∃ G : List (List (List Char)), G.flatten = gs ∧ G.map List.flatten = ws) ↔
        ∀ a b, s = a ++ b → Boundary ws a → ¬ WordCutsGrapheme a b) := by
  obtain ⟨gs, g1, g2, g3, g4⟩ := C08_conform s
  obtain ⟨ws, w1, w2, w3, w4⟩ := C11_conform s
  have key : ∀ a b, s = a ++ b → Boundary ws a → (Boundary gs a ↔ ¬ WordCutsGrapheme a b) := by
    intro a b hs ha
    rw [w4 a b hs] at ha
    rw [g4 a b hs]
    exact wordCuts_iff (wordBreak_of_phraseBreak ha)
  exact ⟨gs, ws, g1, w1, key, levels_iff w2 g2 g3 key⟩

/-- **C61** for sentences. Missing: the positions of `SentenceCutsGrapheme`; at these, and only at these, a boundary
is none of the smaller tokens. -/
theorem C61_sentences_partial (s : List Char) :
    ∃ gs ws : List (List Char), defaultTokens .graphemes (utf8 s) = .ok (gs.map utf8)
      ∧ defaultTokens .sentences (utf8 s) = .ok (ws.map utf8)
      ∧ (∀ a b, s = a ++ b → Boundary ws a → (Boundary gs a ↔ ¬ SentenceCutsGrapheme a b))
      ∧ ((∃ G : List (List (List Char)), G.flatten = gs ∧ G.map List.flatten = ws) ↔
        ∀ a b, s = a ++ b → Boundary ws a → ¬ SentenceCutsGrapheme a b) := by
  obtain ⟨gs, g1, g2, g3, g4⟩ := C08_conform s
  obtain ⟨ws, w1, w2, w3, w4⟩ := C10_conform s
  have key : ∀ a b, s = a ++ b → Boundary ws a → (Boundary gs a ↔ ¬ SentenceCutsGrapheme a b) := by
    intro a b hs ha
    rw [w4 a b hs] at ha
    rw [g4 a b hs]
    exact sentenceCutsGrapheme_iff ha
  exact ⟨gs, ws, g1, w1, key, levels_iff w2 g2 g3 key⟩

/-! ## C62: sentences against words -/

/-- **C62** for words. Missing: the positions of `SentenceCutsWord`; at these, and only at these, a boundary
is none of the smaller tokens. -/
theorem C62_words_partial (s : List Char) :
    ∃ gs ws : List (List Char), defaultTokens .words (utf8 s) = .ok (gs.map utf8)
      ∧ defaultTokens .sentences (utf8 s) = .ok (ws.map utf8)
      ∧ (∀ a b, s = a ++ b → Boundary ws a → (Boundary gs a ↔ ¬ SentenceCutsWord a b))
      ∧ ((∃ G : List (List (List Char)), G.flatten = gs ∧ G.map List.flatten = ws) ↔
        ∀ a b, s = a ++ b → Boundary ws a → ¬ SentenceCutsWord a b) := by
  obtain ⟨gs, g1, g2, g3, g4⟩ := C09_conform s
  obtain ⟨ws, w1, w2, w3, w4⟩ := C10_conform s
  have key : ∀ a b, s = a ++ b → Boundary ws a → (Boundary gs a ↔ ¬ SentenceCutsWord a b) := by
    intro a b hs ha
    rw [w4 a b hs] at ha
    rw [g4 a b hs]
    exact sentenceCutsWord_iff ha
  exact ⟨gs, ws, g1, w1, key, levels_iff w2 g2 g3 key⟩

theorem phraseBreak_of_sentenceBreak {a b : List Char} (h : sentenceBreak (a.map sc) (b.map sc) = true) :
    phraseBreak (a.map phraseClasses) (b.map phraseClasses) = true ∨ SentenceCutsPhrase a b := by
  rw [show phraseClasses = wc from funext C33_classes]
  rcases reverse_cases a with rfl | ⟨x, l, rfl⟩
  · exact .inl rfl
  cases b with
  | nil => exact .inl (by simp [phraseBreak])
  | cons y b =>
    cases hg : joins true ((x :: l).map wc) ((y :: b).map wc) with
    | false =>
      left
      rw [phraseBreak, ← List.map_reverse, List.reverse_reverse, hg]
      simp
    | true =>
      rcases sentences_of_phrases hg with h1 | h1
      · rw [sentenceBreak, ← List.map_reverse, List.reverse_reverse, h1] at h
        simp at h
      · exact .inr h1

theorem sentenceCutsPhrase_iff {a b : List Char} (h : sentenceBreak (a.map sc) (b.map sc) = true) :
    phraseBreak (a.map phraseClasses) (b.map phraseClasses) = true ↔ ¬ SentenceCutsPhrase a b := by
  refine ⟨fun hg hc => ?_, (phraseBreak_of_sentenceBreak h).resolve_right⟩
  rw [show phraseClasses = wc from funext C33_classes] at hg
  have h1 := hc.within
  have h2 := joins_nonempty h1
  rw [List.map_reverse] at h1 h2
  rw [phraseBreak, h1, h2.2] at hg
  rw [List.isEmpty_reverse] at h2
  rw [h2.1] at hg
  cases hg

/-- **C62** for phrases. Missing: the positions of `SentenceCutsPhrase`; at these, and only at these, a boundary
is none of the smaller tokens. -/
theorem C62_phrases_partial (s : List Char) :
    ∃ gs ws : List (List Char), defaultTokens .phrases (utf8 s) = .ok (gs.map utf8)
      ∧ defaultTokens .sentences (utf8 s) = .ok (ws.map utf8)
      ∧ (∀ a b, s = a ++ b → Boundary ws a → (Boundary gs a ↔ ¬ SentenceCutsPhrase a b))
      ∧ ((∃ G : List (List (List Char)), G.flatten = gs ∧ G.map List.flatten = ws) ↔
        ∀ a b, s = a ++ b → Boundary ws a → ¬ SentenceCutsPhrase a b) := by
  obtain ⟨gs, g1, g2, g3, g4⟩ := C11_conform s
  obtain ⟨ws, w1, w2, w3, w4⟩ := C10_conform s
  have key : ∀ a b, s = a ++ b → Boundary ws a → (Boundary gs a ↔ ¬ SentenceCutsPhrase a b) := by
    intro a b hs ha
    rw [w4 a b hs] at ha
    rw [g4 a b hs]
    exact sentenceCutsPhrase_iff ha
  exact ⟨gs, ws, g1, w1, key, levels_iff w2 g2 g3 key⟩

/-! ## texts in the Latin alphabet -/

theorem latin (c : Char) (h : c.toNat < 0x180) : graphemeClasses c .Prepend = false ∧ graphemeClasses c .InCBConsonant = false
    ∧ wc c .RegionalIndicator = false ∧ wc c .ZWJ = false ∧ graphemeClasses c .ZWJ = false
    ∧ ((wc c).ahLetter false = true → c ≠ '¸' → sc c = .Upper ∨ sc c = .Lower) ∧ ((wc c).ignorable = true → (sc c).ignorable = true) := by
  have key : ∀ n < 0x180, graphemeClasses (Char.ofNat n) .Prepend = false
    ∧ graphemeClasses (Char.ofNat n) .InCBConsonant = false
    ∧ wc (Char.ofNat n) .RegionalIndicator = false ∧ wc (Char.ofNat n) .ZWJ = false ∧ graphemeClasses (Char.ofNat n) .ZWJ = false
    ∧ ((wc (Char.ofNat n)).ahLetter false = true → Char.ofNat n ≠ '¸' → sc (Char.ofNat n) = .Upper ∨ sc (Char.ofNat n) = .Lower)
    ∧ ((wc (Char.ofNat n)).ignorable = true → (sc (Char.ofNat n)).ignorable = true) := by decide +kernel
  have := key c.toNat h
  rwa [Char.ofNat_toNat] at this

theorem latin_wordCuts {a b : List Char} (h : ∀ c ∈ a ++ b, c.toNat < 0x180) : ¬ WordCutsGrapheme a b := by
  intro hw
  cases hw with
  | saraAm a b x y _ hy =>
    have := h y (by simp)
    rcases hy with rfl | rfl <;> revert this <;> decide
  | prepend a b x y hx _ =>
    have := (latin x (h x (by simp))).1
    rw [hx] at this
    cases this
  | conjunct a m b c y hc hm _ hy _ =>
    have := (latin c (h c (by simp))).2.1
    rw [hc] at this
    cases this
  | flags a m rs b r y hr _ _ _ _ _ =>
    have := (latin r (h r (by simp))).2.2.1
    rw [hr] at this
    cases this

theorem latin_sentenceCutsGrapheme {a b : List Char} (h : ∀ c ∈ a ++ b, c.toNat < 0x180) : ¬ SentenceCutsGrapheme a b := by
  intro hw
  cases hw with
  | saraAm a b x y _ hy =>
    have := h y (by simp)
    rcases hy with rfl | rfl <;> revert this <;> decide
  | modifier a b x y _ hy =>
    have := h y (by simp)
    omega
  | abbreviation a b y _ =>
    have := h '܏' (by simp)
    revert this
    decide
  | exclamation a m b t z y _ _ hz _ =>
    have := (latin z (h z (by simp))).2.2.2.2.1
    rw [hz] at this
    cases this

theorem latin_sentenceCutsWord {a b : List Char} (h : ∀ c ∈ a ++ b, c.toNat < 0x180) (h' : '¸' ∉ a ++ b) : ¬ SentenceCutsWord a b := by
  intro hw
  cases hw with
  | stop a m m' b l t y hl ht hm hy hlow hup =>
    have hy' := ((latin y (h y (by simp))).2.2.2.2.2.1 hy (fun e => h' (by simp [e]))).resolve_right hlow
    have hl' := (latin l (h l (by simp))).2.2.2.2.2.1 hl (fun e => h' (by simp [e]))
    have := hup (fun i hi => (latin i (h i (by simp [hi]))).2.2.2.2.2.2 (hm i (by simp [hi]))) hy'
    exact hl'.elim this.1 this.2
  | armenian a m m' b l y _ _ _ =>
    have := h '։' (by simp)
    revert this
    decide
  | narrow a m b y _ _ =>
    have := h '\u202F' (by simp)
    revert this
    decide
  | zwj a b x y hx _ =>
    have := (latin x (h x (by simp))).2.2.2.1
    rw [hx] at this
    cases this
  | modifier a b x y _ hy =>
    have := h y (by simp)
    omega
  | abbreviation a m b y _ _ =>
    have := h '܏' (by simp)
    revert this
    decide
  | afterAbbreviation a m m' b t y _ _ _ =>
    have := h '܏' (by simp)
    revert this
    decide

/-- C61, on texts in ASCII, Latin-1 and Latin Extended-A it holds without exceptions: words, phrases and sentences are made up
of whole graphemes. -/
theorem C61_latin (s : List Char) (h : ∀ c ∈ s, c.toNat < 0x180) (k : Pkg) (hk : k ≠ .graphemes) :
    ∃ gs ws : List (List Char), defaultTokens .graphemes (utf8 s) = .ok (gs.map utf8)
      ∧ defaultTokens k (utf8 s) = .ok (ws.map utf8)
      ∧ ∃ G : List (List (List Char)), G.flatten = gs ∧ G.map List.flatten = ws := by
  have hc : ∀ a b, s = a ++ b → ¬ WordCutsGrapheme a b := fun a b hs => latin_wordCuts (by rw [← hs]; exact h)
  have hc' : ∀ a b, s = a ++ b → ¬ SentenceCutsGrapheme a b := fun a b hs => latin_sentenceCutsGrapheme (by rw [← hs]; exact h)
  cases k with
  | graphemes => exact absurd rfl hk
  | words =>
    obtain ⟨gs, ws, h1, h2, _, h3⟩ := C61_words_partial s
    exact ⟨gs, ws, h1, h2, h3.mpr fun a b hs _ => hc a b hs⟩
  | phrases =>
    obtain ⟨gs, ws, h1, h2, _, h3⟩ := C61_phrases_partial s
    exact ⟨gs, ws, h1, h2, h3.mpr fun a b hs _ => hc a b hs⟩
  | sentences =>
    obtain ⟨gs, ws, h1, h2, _, h3⟩ := C61_sentences_partial s
    exact ⟨gs, ws, h1, h2, h3.mpr fun a b hs _ => hc' a b hs⟩

/-- C62, on such texts without a separate cedilla sentences are made up of whole words, without exceptions. -/
theorem C62_latin (s : List Char) (h : ∀ c ∈ s, c.toNat < 0x180) (h' : '¸' ∉ s) :
    ∃ gs ws : List (List Char), defaultTokens .words (utf8 s) = .ok (gs.map utf8)
      ∧ defaultTokens .sentences (utf8 s) = .ok (ws.map utf8)
      ∧ ∃ G : List (List (List Char)), G.flatten = gs ∧ G.map List.flatten = ws := by
  obtain ⟨gs, ws, h1, h2, _, h3⟩ := C62_words_partial s
  exact ⟨gs, ws, h1, h2, h3.mpr fun a b hs _ => latin_sentenceCutsWord (by rw [← hs]; exact h) (by rw [← hs]; exact h')⟩

/-! ## the exceptions are real

Each text is given with its tokens of the two levels; a boundary of the second falls within a token of the first. -/

/-- A boundary of the tokens of one level falls within a token of another. -/
def Cuts (big small : Pkg) (s : List Char) : Prop :=
  ∃ gs ws : List Bytes, defaultTokens small (utf8 s) = .ok gs ∧ defaultTokens big (utf8 s) = .ok ws
    ∧ ∃ a, Boundary ws a ∧ ¬ Boundary gs a

theorem not_boundary {α : Type} {gs : List (List α)} {a : List α}
    (h : ∀ n < gs.length + 1, ((gs.take n).flatten).length ≠ a.length) : ¬ Boundary gs a := by
  rintro ⟨n, rfl⟩
  rcases Nat.lt_or_ge n (gs.length + 1) with hn | hn
  · exact h n hn rfl
  · exact h gs.length (by omega) (by rw [List.take_of_length_le (Nat.le_refl _), List.take_of_length_le (by omega)])

theorem cuts {big small : Pkg} {s : List Char} {gs ws : List Bytes} (n : Nat) (h1 : defaultTokens small (utf8 s) = .ok gs)
    (h2 : defaultTokens big (utf8 s) = .ok ws)
    (h3 : ∀ m < gs.length + 1, ((gs.take m).flatten).length ≠ ((ws.take n).flatten).length) : Cuts big small s :=
  ⟨gs, ws, h1, h2, _, ⟨n, rfl⟩, not_boundary h3⟩

/-- C61 is violated by words: before SARA AM, after Prepend, in conjuncts of Myanmar, and in flags. -/
theorem C61_words_fails : Cuts .words .graphemes ['ก', 'ำ'] ∧ Cuts .words .graphemes ['\u0600', ' ']
    ∧ Cuts .words .graphemes ['က', '္', 'က'] ∧ Cuts .words .graphemes ['🇦', '\u0301', '🇧', '🇨'] :=
  ⟨cuts (gs := [utf8 ['ก', 'ำ']]) (ws := [utf8 ['ก'], utf8 ['ำ']]) 1 (by decide +kernel) (by decide +kernel) (by decide +kernel),
    cuts (gs := [utf8 ['\u0600', ' ']]) (ws := [utf8 ['\u0600'], utf8 [' ']]) 1 (by decide +kernel) (by decide +kernel)
      (by decide +kernel),
    cuts (gs := [utf8 ['က', '္', 'က']]) (ws := [utf8 ['က', '္'], utf8 ['က']]) 1 (by decide +kernel) (by decide +kernel)
      (by decide +kernel),
    cuts (gs := [utf8 ['🇦', '\u0301'], utf8 ['🇧', '🇨']]) (ws := [utf8 ['🇦', '\u0301', '🇧'], utf8 ['🇨']]) 1 (by decide +kernel)
      (by decide +kernel) (by decide +kernel)⟩

/-- C61 is violated by phrases: before SARA AM, after Prepend, in conjuncts of Myanmar, and in flags. -/
theorem C61_phrases_fails : Cuts .phrases .graphemes ['ก', 'ำ'] ∧ Cuts .phrases .graphemes ['\u0600', ',']
    ∧ Cuts .phrases .graphemes ['က', '္', 'က'] ∧ Cuts .phrases .graphemes ['🇦', '\u0301', '🇧', '🇨'] :=
  ⟨cuts (gs := [utf8 ['ก', 'ำ']]) (ws := [utf8 ['ก'], utf8 ['ำ']]) 1 (by decide +kernel) (by decide +kernel) (by decide +kernel),
    cuts (gs := [utf8 ['\u0600', ',']]) (ws := [utf8 ['\u0600'], utf8 [',']]) 1 (by decide +kernel) (by decide +kernel)
      (by decide +kernel),
    cuts (gs := [utf8 ['က', '္', 'က']]) (ws := [utf8 ['က', '္'], utf8 ['က']]) 1 (by decide +kernel) (by decide +kernel)
      (by decide +kernel),
    cuts (gs := [utf8 ['🇦', '\u0301'], utf8 ['🇧', '🇨']]) (ws := [utf8 ['🇦', '\u0301', '🇧'], utf8 ['🇨']]) 1 (by decide +kernel)
      (by decide +kernel) (by decide +kernel)⟩

/-- C61 is violated by sentences: before SARA AM and an emoji modifier, after an abbreviation mark, and in an emoji sequence. -/
theorem C61_sentences_fails : Cuts .sentences .graphemes ['!', 'ำ'] ∧ Cuts .sentences .graphemes ['!', '🏻']
    ∧ Cuts .sentences .graphemes ['.', '܏', 'A'] ∧ Cuts .sentences .graphemes ['‼', '\u200D', '😀'] :=
  ⟨cuts (gs := [utf8 ['!', 'ำ']]) (ws := [utf8 ['!'], utf8 ['ำ']]) 1 (by decide +kernel) (by decide +kernel) (by decide +kernel),
    cuts (gs := [utf8 ['!', '🏻']]) (ws := [utf8 ['!'], utf8 ['🏻']]) 1 (by decide +kernel) (by decide +kernel)
      (by decide +kernel),
    cuts (gs := [utf8 ['.'], utf8 ['܏', 'A']]) (ws := [utf8 ['.', '܏'], utf8 ['A']]) 1 (by decide +kernel) (by decide +kernel)
      (by decide +kernel),
    cuts (gs := [utf8 ['‼', '\u200D', '😀']]) (ws := [utf8 ['‼', '\u200D'], utf8 ['😀']]) 1 (by decide +kernel)
      (by decide +kernel) (by decide +kernel)⟩

/-- C62 is violated by words: "a.א", "1։5", a narrow no-break space, an emoji after a joiner, an emoji modifier, and an
abbreviation mark; in Latin-1 by "¸.A". -/
theorem C62_words_fails : Cuts .sentences .words ['a', '.', 'א'] ∧ Cuts .sentences .words ['1', '։', '5']
    ∧ Cuts .sentences .words ['H', 'i', '.', '\u202F', 'Y', 'o'] ∧ Cuts .sentences .words ['!', '\u200D', '😀']
    ∧ Cuts .sentences .words ['!', '🏻'] ∧ Cuts .sentences .words ['!', '܏', 'A']
    ∧ Cuts .sentences .words ['¸', '.', 'A'] :=
  ⟨cuts (gs := [utf8 ['a', '.', 'א']]) (ws := [utf8 ['a', '.'], utf8 ['א']]) 1 (by decide +kernel) (by decide +kernel)
      (by decide +kernel),
    cuts (gs := [utf8 ['1', '։', '5']]) (ws := [utf8 ['1', '։'], utf8 ['5']]) 1 (by decide +kernel) (by decide +kernel)
      (by decide +kernel),
    cuts (gs := [utf8 ['H', 'i'], utf8 ['.'], utf8 ['\u202F', 'Y', 'o']])
      (ws := [utf8 ['H', 'i', '.', '\u202F'], utf8 ['Y', 'o']]) 1 (by decide +kernel) (by decide +kernel) (by decide +kernel),
    cuts (gs := [utf8 ['!', '\u200D', '😀']]) (ws := [utf8 ['!', '\u200D'], utf8 ['😀']]) 1 (by decide +kernel)
      (by decide +kernel) (by decide +kernel),
    cuts (gs := [utf8 ['!', '🏻']]) (ws := [utf8 ['!'], utf8 ['🏻']]) 1 (by decide +kernel) (by decide +kernel)
      (by decide +kernel),
    cuts (gs := [utf8 ['!'], utf8 ['܏', 'A']]) (ws := [utf8 ['!', '܏'], utf8 ['A']]) 1 (by decide +kernel) (by decide +kernel)
      (by decide +kernel),
    cuts (gs := [utf8 ['¸', '.', 'A']]) (ws := [utf8 ['¸', '.'], utf8 ['A']]) 1 (by decide +kernel) (by decide +kernel)
      (by decide +kernel)⟩

/-- C62 is violated by phrases, in common texts: a phrase begins with the space that ends the sentence before. -/
theorem C62_phrases_fails : Cuts .sentences .phrases "Hi. Yo".toList ∧ Cuts .sentences .phrases "a‼b".toList
    ∧ Cuts .sentences .phrases "😀.א".toList :=
  ⟨cuts (gs := [utf8 "Hi".toList, utf8 ".".toList, utf8 " Yo".toList]) (ws := [utf8 "Hi. ".toList, utf8 "Yo".toList]) 1
      (by decide +kernel) (by decide +kernel) (by decide +kernel),
    cuts (gs := [utf8 "a‼b".toList]) (ws := [utf8 "a‼".toList, utf8 "b".toList]) 1
      (by decide +kernel) (by decide +kernel) (by decide +kernel),
    cuts (gs := [utf8 "😀.א".toList]) (ws := [utf8 "😀.".toList, utf8 "א".toList]) 1
      (by decide +kernel) (by decide +kernel) (by decide +kernel)⟩

-- A text with no exceptions: two sentences, five words, seven graphemes.
example : ∀ c ∈ "Hé. Yo!".toList, c.toNat < 0x180 := by decide
example : defaultTokens .sentences (utf8 "Hé. Yo!".toList) = .ok [utf8 "Hé. ".toList, utf8 "Yo!".toList] := by decide +kernel
example : defaultTokens .words (utf8 "Hé. Yo!".toList)
    = .ok [utf8 "Hé".toList, utf8 ".".toList, utf8 " ".toList, utf8 "Yo".toList, utf8 "!".toList] := by decide +kernel
example : defaultTokens .graphemes (utf8 "Hé. Yo!".toList) = .ok ("Hé. Yo!".toList.map fun c => utf8 [c]) := by decide +kernel

end Uax29
