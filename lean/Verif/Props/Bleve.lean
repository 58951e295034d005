import Verif.Spec.Bleve
import Verif.Proofs.Bleve
import Verif.Proofs.Boundaries
import Verif.Props.Words
/-! # Properties C34 and C35: the Bleve functions -/
namespace Uax29
open Spec

theorem ideographic_eq (c : Char) : ideographic c = is (Words.trie.prop c) Words._BleveIdeographic := by
  unfold ideographic
  have := Words.wf.lookup_encode c []
  rw [List.append_nil] at this
  rw [this]

/-- C34, the tokens that BleveNumeric accepts: a single word of numeric characters. -/
theorem C34_numeric (token : Bytes) (hne : token ≠ []) (h : Words.bleveNumeric token = .ok true) :
    ∃ c s, token = utf8 (c :: s)
      ∧ (wordClasses c .Numeric || wordClasses c .ExtendNumLet) = true
      ∧ (∀ x ∈ c :: s, wordClasses x .Numeric || wordClasses x .ExtendNumLet || wordClasses x .MidNum
          || wordClasses x .MidNumLet || wordClasses x .SingleQuote || wordClasses x .Extend
          || wordClasses x .Format || wordClasses x .ZWJ)
      ∧ defaultTokens .words token = .ok [token] := by
  obtain ⟨l, t, hd⟩ := Words.wf.decodes token
  obtain ⟨rfl, x, r, rfl, h1, h2, h3⟩ := Words.bleveNumeric_true hne hd h
  obtain ⟨s, hs⟩ := Words.chunks_chars hd fun x hx => Words.ne_zero_of_is (h2 x hx)
  cases s with
  | nil => cases hs
  | cons c s =>
    simp only [List.map_cons, List.cons.injEq] at hs
    obtain ⟨rfl, rfl⟩ := hs
    have htok : token = utf8 (c :: s) := by
      rw [← hd.flatten, ← (Words.wf.decodes_utf8 (c :: s)).flatten]
      rfl
    have e : ∀ x g, wordClasses x g = is (Words.trie.prop x) (wbBit g) := by
      intro x g; rw [Words.wordClasses_eq]; rfl
    refine ⟨c, s, htok, ?_, ?_, ?_⟩
    · simp only [e, wbBit]
      rw [is_or] at h1
      exact h1
    · intro x hx
      have := h2 (Words.trie.prop x, String.utf8EncodeChar x) (by
        rw [← List.map_cons (f := fun c => (Words.trie.prop c, String.utf8EncodeChar c))]
        exact List.mem_map.mpr ⟨x, hx, rfl⟩)
      simp only [e, wbBit]
      simp only [is_or, Words._MidNumLetQ, Words._Ignore] at this
      simp only [Bool.or_eq_true] at this ⊢
      grind
    · obtain ⟨ws, hw1, hw2, hw3, hw4⟩ := C09_conform (c :: s)
      have : ws = [c :: s] := by
        refine boundary_one hw2 (by simp) hw3 ?_
        intro a b hab ha hb hbd
        rw [hw4 a b hab] at hbd
        obtain ⟨a0, a, rfl⟩ := List.exists_cons_of_ne_nil ha
        obtain ⟨b0, b, rfl⟩ := List.exists_cons_of_ne_nil hb
        simp only [List.cons_append, List.cons.injEq] at hab
        obtain ⟨rfl, rfl⟩ := hab
        have := h3.get (a.map Words.trie.prop) (Words.trie.prop b0) (b.map Words.trie.prop) (by simp [Function.comp_def])
        have hw : ∀ l : List Char, l.map wordClasses = (l.map Words.trie.prop).map wset := by
          intro l; simp [Words.wordClasses_eq]
        rw [hw, hw, wordBreak] at hbd
        simp only [List.map_cons, List.isEmpty_cons, Bool.false_or, Bool.not_eq_true', List.reverse_cons] at hbd
        rw [Words.J] at this
        simp only [List.map_append, List.map_reverse, List.map_cons, List.map_nil] at this
        rw [this] at hbd
        cases hbd
      rw [htok, hw1, this]
      rfl

/-- C34, BleveNumeric returns on every input. -/
theorem C34_total (token : Bytes) : ∃ b, Words.bleveNumeric token = .ok b := Words.bleveNumeric_total token

theorem numberTail_iff : ∀ (s : List Char) (c : Char),
    NumberTail c s ↔ Words.NumT (Words.trie.prop c) (s.map Words.trie.prop) := by
  have e : ∀ x g, wordClasses x g = is (Words.trie.prop x) (wbBit g) := by
    intro x g; rw [Words.wordClasses_eq]; rfl
  have e1 : ∀ x, digitOrConnector x = is (Words.trie.prop x) (Words._Numeric ||| Words._ExtendNumLet) := by
    intro x; rw [is_or]; simp only [digitOrConnector, e, wbBit]
  have e2 : ∀ x, separator x = is (Words.trie.prop x) (Words._MidNum ||| Words._MidNumLetQ) := by
    intro x; simp only [separator, e, wbBit, Words._MidNumLetQ, is_or, Bool.or_assoc]
  have e3 : ∀ x, ignored x = is (Words.trie.prop x) Words._Ignore := by
    intro x; simp only [ignored, e, wbBit, Words._Ignore, is_or]
  have e4 : ∀ x, wordClasses x .Numeric = is (Words.trie.prop x) Words._Numeric := fun x => e x _
  intro s c
  constructor
  · intro h
    induction h with
    | done => exact .done
    | next h1 _ ih => exact .next (by rw [← e1]; exact h1) ih
    | separated h1 h2 h3 h4 _ ih =>
      rw [List.map_cons, List.map_append, List.map_cons]
      refine .separated (by rw [← e4]; exact h1) (by rw [← e2]; exact h2) ?_ (by rw [← e4]; exact h4) ih
      intro x hx
      obtain ⟨y, hy, rfl⟩ := List.mem_map.mp hx
      rw [← e3]
      exact h3 y hy
  · generalize hp : Words.trie.prop c = p
    generalize hr : s.map Words.trie.prop = r
    intro h
    induction h generalizing c s with
    | done => rw [List.map_eq_nil_iff.mp hr]; exact .done
    | next h1 _ ih =>
      obtain ⟨x, s, rfl, rfl, rfl⟩ := List.map_eq_cons_iff.mp hr
      exact .next (by rw [e1]; exact h1) (ih s x rfl rfl)
    | separated h1 h2 h3 h4 _ ih =>
      obtain ⟨m, s, rfl, rfl, hs⟩ := List.map_eq_cons_iff.mp hr
      obtain ⟨ig, s', rfl, rfl, hs'⟩ := List.map_eq_append_iff.mp hs
      obtain ⟨d, s, rfl, rfl, rfl⟩ := List.map_eq_cons_iff.mp hs'
      subst hp
      exact .separated (by rw [e4]; exact h1) (by rw [e2]; exact h2)
        (fun x hx => by rw [e3]; exact h3 _ (List.mem_map.mpr ⟨x, hx, rfl⟩)) (by rw [e4]; exact h4) (ih s d rfl rfl)

/-- C34, exactly what BleveNumeric accepts: nothing, or a digit or connector with what may follow it in a
number. -/
theorem C34_accepts (token : Bytes) :
    Words.bleveNumeric token = .ok true ↔
      token = [] ∨ ∃ c s, token = utf8 (c :: s) ∧ digitOrConnector c = true ∧ NumberTail c s := by
  have e1 : ∀ x, digitOrConnector x = is (Words.trie.prop x) (Words._Numeric ||| Words._ExtendNumLet) := by
    intro x; rw [is_or]; simp only [digitOrConnector, Words.wordClasses_eq]; rfl
  constructor
  · intro h
    by_cases hne : token = []
    · exact .inl hne
    · right
      obtain ⟨c, s, rfl, -⟩ := C34_numeric token hne h
      have := (Words.bleveNumeric_iff (Words.wf.decodes_utf8 (c :: s))).mp h
      refine ⟨c, s, rfl, by rw [e1]; exact this.1, (numberTail_iff _ _).mpr ?_⟩
      simpa [Function.comp_def] using this.2
  · rintro (rfl | ⟨c, s, rfl, h1, h2⟩)
    · rfl
    · refine (Words.bleveNumeric_iff (Words.wf.decodes_utf8 (c :: s))).mpr ⟨by rw [← e1]; exact h1, ?_⟩
      have := (numberTail_iff _ _).mp h2
      simpa [Function.comp_def] using this

-- "1_,2" is not a number, "1,2_" is.
example : Words.bleveNumeric (utf8 "1_,2".toList) = .ok false := by decide +kernel
example : Words.bleveNumeric (utf8 "1,2_".toList) = .ok true := by decide +kernel
-- "1,234.5" is accepted; "1,", ",1", "1a", the empty first byte of an encoding are not.
example : Words.bleveNumeric (utf8 "1,234.5".toList) = .ok true := by decide +kernel
example : Words.bleveNumeric (utf8 "1,".toList) = .ok false := by decide +kernel
example : Words.bleveNumeric (utf8 ",1".toList) = .ok false := by decide +kernel
example : Words.bleveNumeric (utf8 "1a".toList) = .ok false := by decide +kernel
example : Words.bleveNumeric [0x31, 0xF0] = .ok false := by decide +kernel
-- An ignored character after a separator is passed over, "1" "," U+0301 "2"; after a digit it is not.
example : Words.bleveNumeric (utf8 ['1', ',', '́', '2']) = .ok true := by decide +kernel
example : Words.bleveNumeric (utf8 ['1', '́', '2']) = .ok false := by decide +kernel

/-- C35: BleveIdeographic returns on every input, and accepts exactly the empty token and an
ideographic character followed by ideographic, ExtendNumLet, Extend, Format and ZWJ characters. -/
theorem C35_ideographic (token : Bytes) :
    ∃ b, Words.bleveIdeographic token = .ok b ∧ (b = true ↔ token = [] ∨ ∃ c s, token = utf8 (c :: s)
      ∧ ideographic c = true
      ∧ ∀ x ∈ s, (ideographic x || wordClasses x .ExtendNumLet || wordClasses x .Extend || wordClasses x .Format
          || wordClasses x .ZWJ) = true) := by
  have e : ∀ x g, wordClasses x g = is (Words.trie.prop x) (wbBit g) := by
    intro x g; rw [Words.wordClasses_eq]; rfl
  have em : ∀ x, is (Words.trie.prop x) Words.ideoMask = (ideographic x || wordClasses x .ExtendNumLet
      || wordClasses x .Extend || wordClasses x .Format || wordClasses x .ZWJ) := by
    intro x
    rw [ideographic_eq]
    simp only [e, wbBit, is_or, Words._Ignore, Bool.or_assoc]
  obtain ⟨l, t, hd⟩ := Words.wf.decodes token
  refine ⟨_, Words.bleveIdeographic_eq hd, ?_⟩
  simp only [Bool.and_eq_true, List.isEmpty_iff]
  constructor
  · rintro ⟨⟨h1, h2⟩, rfl⟩
    cases l with
    | nil => left; simpa using hd.flatten.symm
    | cons x l =>
      right
      simp only [List.head?_cons, Option.all_some, List.tail_cons, List.all_eq_true] at h1 h2
      obtain ⟨s, hs⟩ := Words.chunks_chars hd fun y hy => by
        rcases List.mem_cons.mp hy with rfl | hy
        · exact Words.ne_zero_of_is h1
        · exact Words.ne_zero_of_is (h2 y hy)
      cases s with
      | nil => cases hs
      | cons c s =>
        simp only [List.map_cons, List.cons.injEq] at hs
        obtain ⟨rfl, rfl⟩ := hs
        refine ⟨c, s, ?_, ?_, ?_⟩
        · rw [← hd.flatten, ← (Words.wf.decodes_utf8 (c :: s)).flatten]
          rfl
        · rw [ideographic_eq]; exact h1
        · intro x hx
          rw [← em]
          exact h2 (Words.trie.prop x, String.utf8EncodeChar x) (List.mem_map.mpr ⟨x, hx, rfl⟩)
  · rintro (rfl | ⟨c, s, rfl, h1, h2⟩)
    · obtain ⟨rfl, rfl⟩ := hd.of_nil rfl
      exact ⟨⟨rfl, rfl⟩, rfl⟩
    · obtain ⟨rfl, rfl⟩ := hd.unique (Words.wf.decodes_utf8 (c :: s))
      refine ⟨⟨?_, ?_⟩, rfl⟩
      · simpa [ideographic_eq] using h1
      · simp only [List.map_cons, List.tail_cons, List.all_eq_true]
        intro x hx
        obtain ⟨y, hy, rfl⟩ := List.mem_map.mp hx
        rw [em]
        exact h2 y hy

-- The Kanji, the Hiragana and the Katakana are ideographic, Latin letters and Hangul are not.
example : (['漢', 'ひ', 'カ', 'a', '각'].map ideographic) = [true, true, true, false, false] := by decide +kernel
example : Words.bleveIdeographic (utf8 ['漢', '́', '_', '字']) = .ok true := by decide +kernel
example : Words.bleveIdeographic (utf8 ['漢', 'a']) = .ok false := by decide +kernel
example : Words.bleveIdeographic [0xE6, 0xBC, 0xA2, 0xE6, 0xBC] = .ok false := by decide +kernel

end Uax29
