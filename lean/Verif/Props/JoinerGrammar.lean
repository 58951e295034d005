import Verif.Props.WordGrammar
/-! # Words with joiners are the longest matches of a grammar: C98, C99 -/
namespace Uax29
open Spec

/-- **C98** With any joiners the words of a text in UTF-8 are the division of the text into the longest parts that are one word
alone. -/
theorem C98_joiners_longest (j : Option Words.Joiners) (s : List Char) (ts : List (List Char)) :
    tokens .words j (utf8 s) = .ok (ts.map utf8)
      ↔ LongestMatches (fun u => tokens .words j (utf8 u) = .ok [utf8 u]) s ts := by
  have flat : ∀ (s : List Char) (ts : List (List Char)), tokens .words j (utf8 s) = .ok (ts.map utf8) → ts.flatten = s := by
    intro s ts h
    obtain ⟨us, k1, k2, -⟩ := C01_lossless .words j (utf8 s)
    rw [h] at k1
    rw [← Except.ok.inj k1, utf8_flatten] at k2
    exact utf8_inj k2
  have key : ∀ (ts : List (List Char)) (s : List Char), tokens .words j (utf8 s) = .ok (ts.map utf8) →
      LongestMatches (fun u => tokens .words j (utf8 u) = .ok [utf8 u]) s ts := by
    intro ts
    induction ts with
    | nil =>
      intro s h
      rw [← flat s [] h]
      exact .nil
    | cons t ts ih =>
      intro s h
      have hf := flat s _ h
      rw [List.flatten_cons] at hf
      subst hf
      obtain ⟨us, h1, h2⟩ := C17_joiners j (t ++ ts.flatten)
      rw [h] at h1
      have hrest := (C74_joiners j (utf8 t) (utf8 ts.flatten) (complete_utf8 t) [utf8 t] (ts.map utf8)
        (by rw [← utf8_append]; exact h) (by simp)).2
      refine .cons (h2 _ (by rw [← Except.ok.inj h1]; simp)) ?_ ?_ (ih _ hrest)
      · rintro rfl
        obtain ⟨us, k1, -, k3⟩ := C01_lossless .words j (utf8 ([] ++ ts.flatten))
        rw [h] at k1
        exact k3 [] (by rw [← Except.ok.inj k1]; simp [utf8]) rfl
      · intro u hu hpre
        rcases List.prefix_or_prefix_of_prefix hpre (List.prefix_append t ts.flatten) with h3 | ⟨r, hr⟩
        · exact h3
        · have hpre' : utf8 u <+: (utf8 t :: ts.map utf8).flatten := by
            obtain ⟨q, hq⟩ := hpre
            exact ⟨utf8 q, by rw [← utf8_append, hq, utf8_append, List.flatten_cons, utf8_flatten]⟩
          have h3 := (C98_joiners j _ [] (utf8 t) (ts.map utf8) h (utf8 u) hpre' (complete_utf8 u) hu).length_le
          rw [← hr, utf8_append, List.length_append] at h3
          have : utf8 r = utf8 [] := List.eq_nil_of_length_eq_zero (by omega)
          rw [← hr, utf8_inj this, List.append_nil]
          exact List.prefix_refl _
  refine ⟨key ts s, fun h => ?_⟩
  obtain ⟨vs, h2⟩ : ∃ vs : List (List Char), tokens .words j (utf8 s) = .ok (vs.map utf8) := by
    obtain ⟨us, h1, h2⟩ := C07_iterator .words j (utf8 s) ⟨s, rfl⟩
    have : ∃ vs : List (List Char), us = vs.map utf8 := by
      clear h1
      induction us with
      | nil => exact ⟨[], rfl⟩
      | cons u us ih =>
        obtain ⟨v, hv⟩ := h2 u (by simp)
        obtain ⟨vs, hvs⟩ := ih fun t ht => h2 t (by simp [ht])
        exact ⟨v :: vs, by rw [hv, hvs]; rfl⟩
    obtain ⟨vs, rfl⟩ := this
    exact ⟨vs, h1⟩
  rw [C97_unique h (key vs s h2), h2]

/-- The joiners are characters without a property, or punctuation that is joined anyhow. -/
def Punctuation (M : List Int) : Prop :=
  ∀ c : Char, (c.val.toNat : Int) ∈ M → ∀ g, wordClasses c g = true → WB.mid g = true

theorem withMiddle_exclusive {M : List Int} (hM : Punctuation M) (c : Char) : Exclusive (withMiddle M c) := by
  by_cases hc : (c.val.toNat : Int) ∈ M
  · have h : ∀ g, withMiddle M c g = true → WB.mid g = true := by
      intro g hg
      simp only [withMiddle, Bool.or_eq_true, Bool.and_eq_true, beq_iff_eq] at hg
      rcases hg with hg | ⟨rfl, -⟩
      · exact hM c hc g hg
      · rfl
    exact ⟨fun a b ha hb => .inr (.inr (.inr ⟨h a ha, h b hb⟩)), fun ha => by cases h _ ha⟩
  · have : withMiddle M c = wordClasses c := by
      funext g
      simp only [withMiddle, hc, decide_false, Bool.and_false, Bool.or_false]
    rw [this]
    exact wordClasses_exclusive c

/-- **C28** for the iterator, where no joiner is a space. -/
theorem iterator_middle {M : List Int} (hM : (0x20 : Int) ∉ M) (s : List Char) :
    ∃ ws : List (List Char), tokens .words (some ⟨some M, none⟩) (utf8 s) = .ok (ws.map utf8) ∧ ws.flatten = s ∧ (∀ w ∈ ws, w ≠ [])
      ∧ ∀ a b, s = a ++ b → (Boundary ws a ↔ wordBreak (a.map (withMiddle M)) (b.map (withMiddle M)) = true) := by
  let r : Scanner.Reader := [(utf8 s, some .eof)]
  have hr : (deliver 0 r).1 = utf8 s := rfl
  obtain ⟨ws, h1, h2, h3, h4⟩ := C28_middle M s r 0 ((utf8 s).length + 1) hr (by omega)
  obtain ⟨ts, k1, k2⟩ := C31_agree_partial (some ⟨some M, none⟩) (by rintro _ ⟨⟩; exact hM) r 0 ((utf8 s).length + 1) (by rw [hr]; omega)
  rw [h1] at k2
  rw [hr, ← (Prod.mk.inj (Except.ok.inj k2)).1] at k1
  exact ⟨ws, k1, h2, h3, h4⟩

/-- **C99** With middle joiners that are punctuation the words are the longest matches of the grammar in which the joiners are like
the full stop: between two letters or two digits. -/
theorem C99_middle (M : List Int) (hM : Punctuation M) (s : List Char) (ts : List (List Char)) :
    tokens .words (some ⟨some M, none⟩) (utf8 s) = .ok (ts.map utf8) ↔ LongestMatches (WordForm false (withMiddle M)) s ts := by
  have hsp : (0x20 : Int) ∉ M := by
    intro h
    have := hM ' ' h .WSegSpace (by decide +kernel)
    cases this
  rw [C98_joiners_longest, longestMatches_congr (one_token_iff (T := tokens .words (some ⟨some M, none⟩))
    (withMiddle_exclusive hM) (iterator_middle hsp))]

/-- **C99** A scanner with such joiners yields the longest matches of the grammar. -/
theorem C99_middle_scanner (M : List Int) (hM : Punctuation M) (s : List Char) (ts : List (List Char)) (r : Scanner.Reader) (n max : Nat)
    (hr : (deliver 0 r).1 = utf8 s) (hmax : (utf8 s).length < max) :
    Scanner.tokens (scanner .words (some ⟨some M, none⟩) r n max) = .ok (ts.map utf8, shownErr (deliver 0 r).2)
      ↔ LongestMatches (WordForm false (withMiddle M)) s ts := by
  have hsp : (0x20 : Int) ∉ M := by
    intro h
    have := hM ' ' h .WSegSpace (by decide +kernel)
    cases this
  obtain ⟨us, k1, k2⟩ := C31_agree_partial (some ⟨some M, none⟩) (by rintro _ ⟨⟩; exact hsp) r n max (by rw [hr]; exact hmax)
  rw [← C99_middle M hM, k2, ← hr, k1]
  simp

-- "-" and "@" in the middle of words, and a full stop, which is there anyhow
theorem punctuation_hyphen : Punctuation [0x2D, 0x40, 0x2E] := by
  intro c hc g
  have : c = '-' ∨ c = '@' ∨ c = '.' := by
    simp only [List.mem_cons, List.not_mem_nil, or_false] at hc
    rcases hc with h | h | h
    · exact .inl (Char.ext (UInt32.toNat_inj.mp (by exact_mod_cast h)))
    · exact .inr (.inl (Char.ext (UInt32.toNat_inj.mp (by exact_mod_cast h))))
    · exact .inr (.inr (Char.ext (UInt32.toNat_inj.mp (by exact_mod_cast h))))
  rcases this with rfl | rfl | rfl <;> cases g <;> decide +kernel
example : LongestMatches (WordForm false (withMiddle [0x2D, 0x40, 0x2E])) (chars "a-b@c.d 1-2 a-1")
    [chars "a-b@c.d", [' '], chars "1-2", [' '], ['a'], ['-'], ['1']] :=
  (C99_middle _ punctuation_hyphen _ _).mp (by decide +kernel)
-- without joiners "a-b" is no word
example : WordForm false (withMiddle [0x2D]) ['a', '-', 'b'] ∧ ¬ WordForm false wordClasses ['a', '-', 'b'] := by
  constructor
  · exact .pieces (.one (.run (.mid '-' [] 'b' [] (.one 'a' [] (.inl (.inl (.inl (by decide +kernel)))) (by simp [Marks]))
      (.inl ⟨.inl (by decide +kernel), .inr (.inl (by decide +kernel)), .inl (by decide +kernel)⟩) (by simp [Marks]) (by simp [Marks]))))
  · simp only [← C99_word]; decide +kernel
-- a letter as a joiner is no punctuation
example : ¬ Punctuation [0x61] := fun h => by
  have := h 'a' (by decide) .ALetter (by decide +kernel)
  cases this
-- the longest parts that are one word, with "#" at the start of words
example : LongestMatches (fun u => tokens .words (some ⟨none, some [0x23]⟩) (utf8 u) = .ok [utf8 u]) (chars "#a ##b")
    [chars "#a", [' '], ['#'], chars "#b"] := (C98_joiners_longest _ _ _).mp (by decide +kernel)

end Uax29
