import Verif.Proofs.WordGrammar
import Verif.Props.LongestTokens
import Verif.Props.Unions
import Verif.Model.Chars
/-! # Words and phrases are the longest matches of a grammar: C99 -/
namespace Uax29
open Spec

/-- All property values of the rules. -/
def allWB : List WB := [.CR, .LF, .Newline, .Extend, .ZWJ, .Format, .RegionalIndicator, .Katakana, .HebrewLetter, .ALetter,
  .SingleQuote, .DoubleQuote, .MidNumLet, .MidLetter, .MidNum, .Numeric, .ExtendNumLet, .WSegSpace, .ExtendedPictographic]

theorem mem_allWB (a : WB) : a ∈ allWB := by cases a <;> decide

theorem wordClasses_exclusive (c : Char) : Exclusive (wordClasses c) := by
  have := Words.okValue.all (P := fun v => ∀ a ∈ allWB, wset v a = true → ∀ b ∈ allWB, wset v b = true →
      (a = b ∨ a = .ExtendedPictographic ∨ b = .ExtendedPictographic)
      ∧ (a = .ExtendedPictographic → b = .ExtendedPictographic ∨ b = .ALetter))
    (by decide +kernel) (Words.okValue_of (Words.wf.prop_value c))
  rw [← Words.wordClasses_eq] at this
  exact ⟨fun a b ha hb => (this a (mem_allWB a) ha b (mem_allWB b) hb).1.imp id (·.imp id .inl),
    fun ha b hb => (this _ (mem_allWB _) ha b (mem_allWB b) hb).2 rfl⟩

theorem phraseClasses_exclusive (c : Char) : Exclusive (phraseClasses c) := by
  rw [C33_classes]; exact wordClasses_exclusive c

theorem one_token {α : Type} {ts : List (List α)} {t : List α} (ht : t ≠ []) (hf : ts.flatten = t) (hne : ∀ w ∈ ts, w ≠ []) :
    ts = [t] ↔ ∀ x y, t = x ++ y → x ≠ [] → y ≠ [] → ¬ Boundary ts x := by
  constructor
  · rintro rfl x y hxy hx hy
    rw [hxy]
    have := boundary_inside (x := x) (y := y) hx hy [] []
    simpa using this
  · intro h
    cases ts with
    | nil => exact absurd hf.symm ht
    | cons w ts =>
      cases ts with
      | nil => simpa using hf
      | cons v ts =>
        exfalso
        refine h w (v :: ts).flatten (by rw [← hf]; rfl) (hne w (by simp)) ?_ ?_
        · have := hne v (by simp)
          simp [this]
        · exact ⟨1, by simp⟩

theorem Spec.WordRun.ne_nil {ph : Bool} {cl : Char → WSet} {c : Char} {s : List Char} (h : WordRun ph cl c s) : s ≠ [] := by
  cases h <;> simp

theorem Spec.WordForm.ne_nil {ph : Bool} {cl : Char → WSet} {s : List Char} (h : WordForm ph cl s) : s ≠ [] := by
  cases h with
  | crlf | newline => simp
  | pieces h =>
    cases h with
    | one h =>
      cases h with
      | run h => exact h.ne_nil
      | blanks b m hne => simp [hne]
      | quote | flag | other => simp
    | more => simp

theorem one_token_iff {T : Bytes → Except Fault (List Bytes)} {ph : Bool} {cl : Char → WSet} (hx : ∀ c, Exclusive (cl c))
    (h : ∀ s, ∃ ts : List (List Char), T (utf8 s) = .ok (ts.map utf8) ∧ ts.flatten = s ∧ (∀ w ∈ ts, w ≠ [])
      ∧ ∀ a b, s = a ++ b → (Boundary ts a
        ↔ ((a.map cl).isEmpty || (b.map cl).isEmpty || !joins ph (a.map cl).reverse (b.map cl)) = true)) (t : List Char) :
    T (utf8 t) = .ok [utf8 t] ↔ WordForm ph cl t := by
  obtain ⟨ts, h1, h2, h3, h4⟩ := h t
  have e : T (utf8 t) = .ok [utf8 t] ↔ ts = [t] := by
    rw [h1]
    constructor
    · intro h
      exact (List.map_inj_right fun _ _ h => utf8_inj h).mp (show ts.map utf8 = [t].map utf8 from Except.ok.inj h)
    · rintro rfl
      rfl
  rw [e]
  by_cases ht : t = []
  · subst ht
    constructor
    · rintro rfl
      exact absurd rfl (h3 [] (by simp))
    · intro h
      exact absurd rfl h.ne_nil
  rw [one_token ht h2 h3, ← undivided_iff hx ht]
  constructor
  · intro h x y hxy hx0 hy0
    have := h x y hxy hx0 hy0
    rw [h4 x y hxy] at this
    simpa [hx0, hy0] using this
  · intro h x y hxy hx0 hy0
    rw [h4 x y hxy]
    simp [hx0, hy0, h x y hxy hx0 hy0]

theorem longestMatches_congr {α : Type} {R R' : List α → Prop} (h : ∀ u, R u ↔ R' u) {s : List α} {ts : List (List α)} :
    LongestMatches R s ts ↔ LongestMatches R' s ts := by
  have : R = R' := funext fun u => propext (h u)
  rw [this]

/-- **C99** A text is one word if and only if it has the form. -/
theorem C99_word (t : List Char) : defaultTokens .words (utf8 t) = .ok [utf8 t] ↔ WordForm false wordClasses t :=
  one_token_iff wordClasses_exclusive C09_conform t

/-- **C99** A text is one phrase if and only if it has the form. -/
theorem C99_phrase (t : List Char) : defaultTokens .phrases (utf8 t) = .ok [utf8 t] ↔ WordForm true phraseClasses t :=
  one_token_iff phraseClasses_exclusive C11_conform t

/-- **C99** The words of a text are the longest matches of the grammar, from left to right. -/
theorem C99_words (s : List Char) (ts : List (List Char)) :
    defaultTokens .words (utf8 s) = .ok (ts.map utf8) ↔ LongestMatches (WordForm false wordClasses) s ts := by
  rw [C98_longest, longestMatches_congr C99_word]

/-- **C99** The phrases of a text are the longest matches of the grammar, from left to right. -/
theorem C99_phrases (s : List Char) (ts : List (List Char)) :
    defaultTokens .phrases (utf8 s) = .ok (ts.map utf8) ↔ LongestMatches (WordForm true phraseClasses) s ts := by
  rw [C98_longest, longestMatches_congr C99_phrase]

instance (m : List Char) : Decidable (Marks wordClasses m) := inferInstanceAs (Decidable (∀ d ∈ m, _ ∨ _))
instance (ph : Bool) (c : Char) : Decidable (IsLetter ph wordClasses c) := inferInstanceAs (Decidable (_ ∨ _ ∨ _ ∧ _))
-- "can't" with an accent on the "a"
example : WordForm false wordClasses ['c', 'a', '\u0301', 'n', '\'', 't'] :=
  .pieces (.one (.run (.mid '\'' [] 't' [] (.next 'n' [] (.next 'a' ['\u0301'] (.one 'c' [] (.inl (.inl (by decide +kernel)))
    (by decide +kernel)) (.inl ⟨.inl (by decide +kernel), .inl (by decide +kernel)⟩) (by decide +kernel))
    (.inl ⟨.inl (by decide +kernel), .inl (by decide +kernel)⟩) (by decide +kernel))
    (.inl ⟨by decide +kernel, by decide +kernel, by decide +kernel⟩) (by decide +kernel) (by decide +kernel))))
-- two people with a ZWJ between them
example : WordForm false wordClasses ['👩', '🏽', '\u200d', '👨'] :=
  .pieces (.more (s := ['👩', '🏽', '\u200d']) '\u200d' '👨' [] (.one (.other '👩' ['🏽', '\u200d'] (by decide +kernel)
    (by decide +kernel))) rfl (by decide +kernel) (by decide +kernel) (.other '👨' [] (by decide +kernel) (by decide +kernel)))
-- "3.a" is no word, "3.1" is one; a Hebrew letter may have a single quote at the end, a Latin letter may not
example : ¬ WordForm false wordClasses ['3', '.', 'a'] ∧ WordForm false wordClasses ['3', '.', '1']
    ∧ WordForm false wordClasses ['א', '\''] ∧ ¬ WordForm false wordClasses ['a', '\''] := by
  simp only [← C99_word]; decide +kernel
-- a phrase goes over blanks, not over commas; the longest matches of a text
example : WordForm true phraseClasses (chars "the 3.1 üs") ∧ ¬ WordForm true phraseClasses (chars "a, b")
    ∧ ¬ WordForm false wordClasses (chars "a b") := by
  simp only [← C99_word, ← C99_phrase]; decide +kernel
example : LongestMatches (WordForm true phraseClasses) (chars "It's 3.1, no?") [chars "It's 3.1", [','], chars " no", ['?']] :=
  (C99_phrases _ _).mp (by decide +kernel)

end Uax29
