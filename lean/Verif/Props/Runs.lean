import Verif.Props.EmojiWords
/-! # Runs of characters that are not divided: C96 -/
namespace Uax29
open Spec

/-- If all neighbours in `s` are joined in any context, then there is no boundary within `s`. -/
theorem run_inside {σ : Type} {f : Char → σ} {J : List σ → List σ → Bool} {s left right : List Char} {ts : List (List Char)}
    (h4 : ∀ a b, left ++ s ++ right = a ++ b → (Boundary ts a ↔
      ((a.map f).isEmpty || (b.map f).isEmpty || !J (a.map f).reverse (b.map f)) = true))
    (h : ∀ c ∈ s, ∀ d ∈ s, ∀ l r, J (f c :: l) (f d :: r) = true) :
    ∀ x y, s = x ++ y → x ≠ [] → y ≠ [] → ¬ Boundary ts (left ++ x) := by
  intro x y hxy hx hy
  obtain ⟨d, y, rfl⟩ := List.exists_cons_of_ne_nil hy
  have hl := List.dropLast_concat_getLast hx
  rw [h4 (left ++ x) (d :: y ++ right) (by simp [hxy])]
  have := h (x.getLast hx) (by rw [hxy]; simp) d (by rw [hxy]; simp) ((left ++ x.dropLast).map f).reverse ((y ++ right).map f)
  rw [← hl]
  simp only [List.map_append, List.map_cons, List.map_nil, List.reverse_append, List.reverse_cons, List.reverse_nil,
    List.nil_append, List.cons_append] at this ⊢
  rw [this]
  simp

/-- **C96** A run of letters, digits and connecting punctuation (like the underscore) is not divided by words, whatever is before
and after it. -/
theorem C96_words (s left right : List Char) (h : ∀ c ∈ s, wordClasses c .ALetter = true ∨ wordClasses c .HebrewLetter = true
      ∨ wordClasses c .Numeric = true ∨ wordClasses c .ExtendNumLet = true) :
    ∃ ts : List (List Char), defaultTokens .words (utf8 (left ++ s ++ right)) = .ok (ts.map utf8)
      ∧ ts.flatten = left ++ s ++ right ∧ ∀ x y, s = x ++ y → x ≠ [] → y ≠ [] → ¬ Boundary ts (left ++ x) := by
  obtain ⟨ts, h1, h2, h3, h4⟩ := C09_conform (left ++ s ++ right)
  have ok : ∀ c ∈ s, (wordClasses c).newline = false ∧ (wordClasses c).ignorable = false := by
    intro c hc
    have := Words.okValue.all (P := fun v => (wset v .ALetter = true ∨ wset v .HebrewLetter = true ∨ wset v .Numeric = true
      ∨ wset v .ExtendNumLet = true) → (wset v).newline = false ∧ (wset v).ignorable = false)
      (by decide +kernel) (Words.okValue_of (Words.wf.prop_value c))
    rw [← Words.wordClasses_eq] at this
    exact this (h c hc)
  refine ⟨ts, h1, h2, run_inside (J := joins false) (f := wordClasses) h4 fun c hc d hd l r => ?_⟩
  obtain ⟨c1, c2⟩ := ok c hc
  obtain ⟨d1, d2⟩ := ok d hd
  have hcr := cr_newline c1
  simp only [joins, c1, d1, d2, hcr, Bool.false_and, Bool.or_self, Bool.false_eq_true, if_false]
  split
  · rfl
  split
  · rfl
  rw [units_cons_solid c2]
  rcases h c hc with hc | hc | hc | hc <;> rcases h d hd with hd | hd | hd | hd <;>
    simp [unitJoins, WSet.alnum, WSet.ahLetter, hc, hd]

/-- A run of letters, digits, blanks and pictographs is not divided by phrases. -/
theorem C96_phrases (s left right : List Char) (h : ∀ c ∈ s, phraseClasses c .ALetter = true ∨ phraseClasses c .HebrewLetter = true
      ∨ phraseClasses c .Numeric = true ∨ phraseClasses c .WSegSpace = true ∨ phraseClasses c .ExtendedPictographic = true) :
    ∃ ts : List (List Char), defaultTokens .phrases (utf8 (left ++ s ++ right)) = .ok (ts.map utf8)
      ∧ ts.flatten = left ++ s ++ right ∧ ∀ x y, s = x ++ y → x ≠ [] → y ≠ [] → ¬ Boundary ts (left ++ x) := by
  obtain ⟨ts, h1, h2, h3, h4⟩ := C11_conform (left ++ s ++ right)
  have ok : ∀ c ∈ s, (phraseClasses c).newline = false ∧ (phraseClasses c).ignorable = false := by
    intro c hc
    have := Phrases.okValue.all (P := fun v => (pset v .ALetter = true ∨ pset v .HebrewLetter = true ∨ pset v .Numeric = true
      ∨ pset v .WSegSpace = true ∨ pset v .ExtendedPictographic = true) → (pset v).newline = false ∧ (pset v).ignorable = false)
      (by decide +kernel) (Phrases.okValue_of (Phrases.wf.prop_value c))
    rw [← phraseClasses_eq] at this
    exact this (h c hc)
  refine ⟨ts, h1, h2, run_inside (J := joins true) (f := phraseClasses) h4 fun c hc d hd l r => ?_⟩
  obtain ⟨c1, c2⟩ := ok c hc
  obtain ⟨d1, d2⟩ := ok d hd
  have hcr := cr_newline c1
  simp only [joins, c1, d1, d2, hcr, Bool.false_and, Bool.or_self, Bool.false_eq_true, if_false]
  split
  · rfl
  split
  · rfl
  rw [units_cons_solid c2]
  rcases h c hc with hc | hc | hc | hc | hc <;> rcases h d hd with hd | hd | hd | hd | hd <;>
    simp [unitJoins, WSet.alnum, WSet.ahLetter, hc, hd]

/-- A run of characters that are no terminators, closing characters, blanks, line ends or separators, marks or format characters
is not divided by sentences. -/
theorem C96_sentences (s left right : List Char) (h : ∀ c ∈ s, sentenceClass c ∉ [SB.STerm, .ATerm, .Close, .Sp, .CR, .LF, .Sep,
      .Extend, .Format]) :
    ∃ ts : List (List Char), defaultTokens .sentences (utf8 (left ++ s ++ right)) = .ok (ts.map utf8)
      ∧ ts.flatten = left ++ s ++ right ∧ ∀ x y, s = x ++ y → x ≠ [] → y ≠ [] → ¬ Boundary ts (left ++ x) := by
  obtain ⟨ts, h1, h2, h3, h4⟩ := C10_conform (left ++ s ++ right)
  refine ⟨ts, h1, h2, run_inside (J := sjoins) (f := sentenceClass) h4 fun c hc d _ l r => ?_⟩
  have hc := h c hc
  generalize sentenceClass c = a at hc
  generalize sentenceClass d = b
  have hu : sunits (a :: l) = a :: sunits l := by
    have hi : a.ignorable = false := by revert hc; cases a <;> simp [SB.ignorable]
    cases l with
    | nil => rfl
    | cons e l =>
      conv => lhs; rw [sunits]
      simp [hi]
  unfold sjoins sjoinsIf
  simp only
  split
  · rfl
  split
  · rename_i hp
    exact absurd hp (by revert hc; cases a <;> simp [SB.paraSep])
  split
  · rfl
  rw [hu]
  revert hc
  cases a <;> simp [sunitJoins, endsCloseSp, endsClose, SB.saTerm, SB.paraSep]

-- "x_1" is in one word, with a full stop and a digit before it; "ab 漢" is not a run for phrases, but "ab 1😀" is one
example : defaultTokens .words (utf8 "3.x_1y.".toList) = .ok [utf8 ['3'], utf8 ['.'], utf8 "x_1y".toList, utf8 ['.']]
    ∧ defaultTokens .phrases (utf8 "(ab 1😀 c)".toList) = .ok [utf8 ['('], utf8 "ab 1😀 c".toList, utf8 [')']]
    ∧ defaultTokens .phrases (utf8 "ab 漢".toList) = .ok [utf8 "ab ".toList, utf8 ['漢']]
    ∧ defaultTokens .sentences (utf8 "A. B,c$D".toList) = .ok [utf8 "A. ".toList, utf8 "B,c$D".toList] := by decide +kernel
example : (∀ c ∈ "x_1y".toList, wordClasses c .ALetter = true ∨ wordClasses c .HebrewLetter = true
      ∨ wordClasses c .Numeric = true ∨ wordClasses c .ExtendNumLet = true)
    ∧ (∀ c ∈ "ab 1😀 c".toList, phraseClasses c .ALetter = true ∨ phraseClasses c .HebrewLetter = true
      ∨ phraseClasses c .Numeric = true ∨ phraseClasses c .WSegSpace = true ∨ phraseClasses c .ExtendedPictographic = true)
    ∧ ∀ c ∈ "B,c$D".toList, sentenceClass c ∉ [SB.STerm, .ATerm, .Close, .Sp, .CR, .LF, .Sep, .Extend, .Format] := by
  decide +kernel

end Uax29
