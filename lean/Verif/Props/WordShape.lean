import Verif.Spec.Shapes
import Verif.Props.Transparent
import Verif.Props.GenTestText
import Verif.Props.Packages
/-! # What words are made of: C94 -/
namespace Uax29
open Spec

theorem wordMark_iff {c : Char} : WordMark c ↔ (wordClasses c).ignorable = true := by
  simp [WordMark, WSet.ignorable, or_assoc]

theorem Spec.WordMark.newline {c : Char} (h : WordMark c) : (wordClasses c).newline = false := by
  have := Words.okValue.all (P := fun v => (wset v).ignorable = true → (wset v).newline = false)
    (by decide +kernel) (Words.okValue_of (Words.wf.prop_value c))
  rw [wordMark_iff, Words.wordClasses_eq] at h
  rw [Words.wordClasses_eq]
  exact this h

theorem joins_inner {a b : WSet} {left right : List WSet} (h : joins false (a :: left) (b :: right) = true)
    (hi : b.ignorable = false) (hz : ¬ (a .ZWJ = true ∧ b .ExtendedPictographic = true))
    (hn : a.newline = false ∨ b.newline = false) :
    a.newline = false ∧ b.newline = false ∧ ((a .WSegSpace = true ∧ b .WSegSpace = true)
      ∨ unitJoins false (units (a :: left)) b (right.dropWhile (·.ignorable)).head? = true) := by
  have h3 : ¬ (a .CR && b .LF) = true := by
    intro h'
    rw [Bool.and_eq_true] at h'
    rcases hn with hn | hn <;> simp [WSet.newline, h'.1, h'.2] at hn
  rw [joins, if_neg h3] at h
  split at h
  · cases h
  rename_i hn'
  simp only [Bool.or_eq_true, not_or, Bool.not_eq_true] at hn'
  refine ⟨hn'.1, hn'.2, ?_⟩
  rw [if_neg (by simpa using hz)] at h
  split at h
  · rename_i hs
    left; simpa using hs
  · rw [if_neg (by simp [hi])] at h
    exact .inr h

/-- A word, taken on its own. -/
def WordAlone (t : List Char) : Prop :=
  ∀ x y, t = x ++ y → x ≠ [] → y ≠ [] → joins false (x.map wordClasses).reverse (y.map wordClasses) = true

theorem WordAlone.inner {t x y : List Char} {c : Char} (h : WordAlone t) (hz : ¬ HasEmojiJoin t) (ht : t = x ++ c :: y)
    (hx : x ≠ []) (hi : ¬ WordMark c)
    (hn : (∀ x' p, x = x' ++ [p] → (wordClasses p).newline = false) ∨ (wordClasses c).newline = false) :
    ∃ x' p, x = x' ++ [p] ∧ (wordClasses p).newline = false ∧ (wordClasses c).newline = false
      ∧ ((wordClasses p .WSegSpace = true ∧ wordClasses c .WSegSpace = true)
        ∨ unitJoins false (units (x.map wordClasses).reverse) (wordClasses c)
          ((y.map wordClasses).dropWhile (·.ignorable)).head? = true) := by
  have hl := List.dropLast_concat_getLast hx
  have h1 := h x (c :: y) ht hx (by simp)
  generalize x.getLast hx = p at *
  generalize x.dropLast = x' at *
  subst hl
  refine ⟨x', p, rfl, ?_⟩
  rw [wordMark_iff, Bool.not_eq_true] at hi
  simp only [List.map_append, List.map_cons, List.map_nil, List.reverse_append, List.reverse_cons, List.reverse_nil,
    List.nil_append, List.cons_append] at h1 ⊢
  refine joins_inner h1 hi (fun hh => hz ⟨x', p, c, y, by simp [ht], hh⟩) ?_
  rcases hn with hn | hn
  · exact .inl (hn x' p rfl)
  · exact .inr hn

theorem units_solid {c : Char} (hc : ¬ WordMark c) (hn : (wordClasses c).newline = false) (x : List Char) :
    ∀ (m : List Char), (∀ d ∈ m, WordMark d) →
    units ((x ++ c :: m).map wordClasses).reverse = wordClasses c :: units (x.map wordClasses).reverse := by
  intro m hm
  rw [wordMark_iff, Bool.not_eq_true] at hc
  have := units_insert (xs := (m.map wordClasses).reverse) (left := (x.map wordClasses).reverse) (c := wordClasses c) (by
    intro w hw
    rw [List.mem_reverse] at hw
    obtain ⟨d, hd, rfl⟩ := List.mem_map.mp hw
    exact ⟨wordMark_iff.mp (hm d hd), (hm d hd).newline⟩) hn []
  simp only [List.map_append, List.map_cons, List.reverse_append, List.reverse_cons, List.append_assoc,
    List.singleton_append, List.nil_append] at this ⊢
  rw [this, units_cons_solid hc]

/-- What follows a character and its marks within a word. -/
theorem WordAlone.follow {t x y : List Char} {c : Char} (h : WordAlone t) (hz : ¬ HasEmojiJoin t) (ht : t = x ++ c :: y)
    (hi : ¬ WordMark c) (hn : (wordClasses c).newline = false) :
    (∀ d ∈ y, WordMark d) ∨ ∃ m d z, y = m ++ d :: z ∧ (∀ d ∈ m, WordMark d) ∧ ¬ WordMark d ∧ (wordClasses d).newline = false ∧
      ((m = [] ∧ wordClasses c .WSegSpace = true ∧ wordClasses d .WSegSpace = true)
      ∨ unitJoins false (wordClasses c :: units (x.map wordClasses).reverse) (wordClasses d)
          ((z.map wordClasses).dropWhile (·.ignorable)).head? = true) := by
  by_cases hy : ∀ d ∈ y, WordMark d
  · exact .inl hy
  right
  -- the first that is no mark
  have : ∃ m d z, y = m ++ d :: z ∧ (∀ d ∈ m, WordMark d) ∧ ¬ WordMark d := by
    clear ht
    induction y with
    | nil => exact absurd (by simp) hy
    | cons e y ih =>
      by_cases he : WordMark e
      · obtain ⟨m, d, z, h1, h2, h3⟩ := ih (fun hh => hy (by
          intro d hd
          rcases List.mem_cons.mp hd with rfl | hd
          · exact he
          · exact hh d hd))
        refine ⟨e :: m, d, z, by rw [h1]; rfl, ?_, h3⟩
        intro d hd
        rcases List.mem_cons.mp hd with rfl | hd
        · exact he
        · exact h2 d hd
      · exact ⟨[], e, y, rfl, by simp, he⟩
  obtain ⟨m, d, z, h1, h2, h3⟩ := this
  have hp : ∀ x' p, x ++ c :: m = x' ++ [p] → (wordClasses p).newline = false ∧ (m = [] → p = c) ∧ (m ≠ [] → WordMark p) := by
    intro x' p hh
    rcases List.eq_nil_or_concat m with rfl | ⟨m', q, hm⟩
    · have := (List.append_inj' hh rfl).2
      simp only [List.cons.injEq, and_true] at this
      subst this
      exact ⟨hn, fun _ => rfl, fun h => absurd rfl h⟩
    · rw [List.concat_eq_append] at hm
      subst hm
      rw [← List.cons_append, ← List.append_assoc] at hh
      have := (List.append_inj' hh rfl).2
      simp only [List.cons.injEq, and_true] at this
      subst this
      have hq := h2 q (by simp)
      exact ⟨hq.newline, fun h => absurd h (by simp), fun _ => hq⟩
  obtain ⟨x', p, k1, k2, k3, k4⟩ := h.inner hz (x := x ++ c :: m) (c := d) (y := z) (by rw [ht, h1]; simp) (by simp) h3
    (.inl fun x' p hh => (hp x' p hh).1)
  refine ⟨m, d, z, h1, h2, h3, k3, ?_⟩
  rcases k4 with ⟨k4, k5⟩ | k4
  · left
    by_cases hm : m = []
    · exact ⟨hm, by rw [← (hp x' p k1).2.1 hm]; exact k4, k5⟩
    · have := (hp x' p k1).2.2 hm
      have e := Words.okValue.all (P := fun v => (wset v).ignorable = true → wset v .WSegSpace = false)
        (by decide +kernel) (Words.okValue_of (Words.wf.prop_value p))
      rw [← Words.wordClasses_eq] at e
      rw [e (wordMark_iff.mp this)] at k4
      cases k4
  · right
    rw [units_solid hi hn x m h2] at k4
    exact k4

/-- The unit before is a character, with marks. -/
theorem units_before {P : WSet → Bool} : ∀ {x : List Char}, (units (x.map wordClasses).reverse).head?.any P = true →
    EndsWith (fun c => P (wordClasses c) = true) x := by
  intro x
  rw [← List.map_reverse]
  generalize hr : x.reverse = r
  have hx : x = r.reverse := by rw [← hr, List.reverse_reverse]
  subst hx
  clear hr
  induction r with
  | nil => intro h; simp [units] at h
  | cons a l ih =>
    intro h
    rw [List.map_cons, units.eq_def] at h
    cases l with
    | nil =>
      simp only [List.map_nil, List.head?_cons, Option.any_some] at h
      exact ⟨[], a, [], by simp, h, by simp⟩
    | cons c l =>
      simp only [List.map_cons] at h
      split at h
      · rename_i hi
        rw [Bool.and_eq_true] at hi
        obtain ⟨x', e, m, h1, h2, h3⟩ := ih h
        refine ⟨x', e, m ++ [a], by rw [List.reverse_cons, h1]; simp, h2, ?_⟩
        intro d hd
        rcases List.mem_append.mp hd with hd | hd
        · exact h3 d hd
        · rw [List.mem_singleton] at hd
          subst hd
          exact wordMark_iff.mpr hi.1
      · simp only [List.head?_cons, Option.any_some] at h
        exact ⟨(c :: l).reverse, a, [], by simp, h, by simp⟩

theorem units_after {P : WSet → Bool} : ∀ {y : List Char}, ((y.map wordClasses).dropWhile (·.ignorable)).head?.any P = true →
    StartsWith (fun c => P (wordClasses c) = true) y
  | [], h => by simp at h
  | c :: y, h => by
    rw [List.map_cons, List.dropWhile_cons] at h
    split at h
    · rename_i hi
      obtain ⟨m, d, z, h1, h2, h3⟩ := units_after h
      refine ⟨c :: m, d, z, by rw [h1]; rfl, h2, ?_⟩
      intro e he
      rcases List.mem_cons.mp he with rfl | he
      · exact wordMark_iff.mpr hi
      · exact h3 e he
    · simp only [List.head?_cons, Option.any_some] at h
      exact ⟨[], c, y, rfl, h, by simp⟩

theorem word_alone (s : List Char) :
    ∃ ts : List (List Char), defaultTokens .words (utf8 s) = .ok (ts.map utf8) ∧ ts.flatten = s ∧ ∀ t ∈ ts, WordAlone t := by
  obtain ⟨ts, h1, h2, h3, h4⟩ := C09_conform s
  refine ⟨ts, h1, h2, fun t ht => ?_⟩
  obtain ⟨ts', k1, k2⟩ := C17_atomic .words (utf8 s)
  rw [h1] at k1
  have k3 := k2 (utf8 t) (by rw [← Except.ok.inj k1]; exact List.mem_map_of_mem ht)
  obtain ⟨us, u1, u2, u3, u4⟩ := C09_conform t
  rw [k3] at u1
  have hu : us = [t] := by
    have := Except.ok.inj u1
    have := (List.map_inj_right fun _ _ h => utf8_inj h).mp (show [t].map utf8 = us.map utf8 from this)
    exact this.symm
  intro x y hxy hx hy
  have hb : ¬ Boundary us x := by
    rw [hu, hxy]
    have := boundary_inside (x := x) (y := y) hx hy [] []
    simpa using this
  rw [u4 x y hxy] at hb
  simpa [wordBreak, hx, hy] using hb

/-! ## The classes -/

theorem unitJoins_plain_right {left : List WSet} {b : WSet} {next : Option WSet} (h : ∀ w, w ≠ .ExtendedPictographic → b w = false) :
    unitJoins false left b next = false := by
  have h' : b .ALetter = false ∧ b .HebrewLetter = false ∧ b .Numeric = false ∧ b .MidLetter = false ∧ b .MidNumLet = false
    ∧ b .SingleQuote = false ∧ b .DoubleQuote = false ∧ b .MidNum = false ∧ b .Katakana = false ∧ b .ExtendNumLet = false
    ∧ b .RegionalIndicator = false := by
    refine ⟨?_, ?_, ?_, ?_, ?_, ?_, ?_, ?_, ?_, ?_, ?_⟩ <;> exact h _ (by decide)
  obtain ⟨h1, h2, h3, h4, h5, h6, h7, h8, h9, h10, h11⟩ := h'
  simp [unitJoins, WSet.alnum, WSet.ahLetter, WSet.midLetter, WSet.midNum, WSet.midNumLetQ, h1, h2, h3, h4, h5, h6, h7, h8, h9,
    h10, h11]

/-- Nothing is joined to a character without these classes, unless it is punctuation within a word. -/
theorem unitJoins_plain_left {a : WSet} {left : List WSet} {b : WSet} {next : Option WSet} (h1 : a .ALetter = false)
    (h2 : a .HebrewLetter = false) (h3 : a .Numeric = false) (h4 : a .Katakana = false) (h5 : a .ExtendNumLet = false)
    (h6 : a .RegionalIndicator = false)
    (h7 : left = [] ∨ (a.midLetter = false ∧ a .DoubleQuote = false ∧ a.midNum = false)) :
    unitJoins false (a :: left) b next = false := by
  rcases h7 with rfl | ⟨h7, h8, h9⟩
  · simp [unitJoins, WSet.alnum, WSet.ahLetter, h1, h2, h3, h4, h5, h6]
  · simp [unitJoins, WSet.alnum, WSet.ahLetter, h1, h2, h3, h4, h5, h6, h7, h8, h9]

theorem wordSpace_classes {c : Char} (h : wordClasses c .WSegSpace = true) : ∀ w, w ≠ .WSegSpace → wordClasses c w = false := by
  have := Words.okValue.all (P := fun v => wset v .WSegSpace = true → (wset v .CR || wset v .LF || wset v .Newline
      || wset v .Extend || wset v .ZWJ || wset v .Format || wset v .RegionalIndicator || wset v .Katakana
      || wset v .HebrewLetter || wset v .ALetter || wset v .SingleQuote || wset v .DoubleQuote || wset v .MidNumLet
      || wset v .MidLetter || wset v .MidNum || wset v .Numeric || wset v .ExtendNumLet || wset v .ExtendedPictographic) = false)
    (by decide +kernel) (Words.okValue_of (Words.wf.prop_value c))
  rw [← Words.wordClasses_eq] at this
  have := this h
  simp only [Bool.or_eq_false_iff, and_assoc] at this
  intro w hw
  cases w <;> first | exact absurd rfl hw | simp [this]

theorem wordMid_classes {c : Char} (h : WordMid c) : (wordClasses c).newline = false ∧ ¬ WordMark c
    ∧ wordClasses c .ALetter = false ∧ wordClasses c .HebrewLetter = false ∧ wordClasses c .Numeric = false
    ∧ wordClasses c .Katakana = false ∧ wordClasses c .ExtendNumLet = false ∧ wordClasses c .RegionalIndicator = false
    ∧ wordClasses c .WSegSpace = false := by
  have := Words.okValue.all (P := fun v => (wset v .MidLetter = true ∨ wset v .MidNum = true ∨ wset v .MidNumLet = true
      ∨ wset v .SingleQuote = true ∨ wset v .DoubleQuote = true) → ((wset v).newline || (wset v).ignorable
      || wset v .ALetter || wset v .HebrewLetter || wset v .Numeric || wset v .Katakana || wset v .ExtendNumLet
      || wset v .RegionalIndicator || wset v .WSegSpace) = false)
    (by decide +kernel) (Words.okValue_of (Words.wf.prop_value c))
  rw [← Words.wordClasses_eq] at this
  have := this h
  simp only [Bool.or_eq_false_iff, and_assoc] at this
  rw [wordMark_iff, Bool.not_eq_true]
  exact this

theorem wordFlag_classes {c : Char} (h : wordClasses c .RegionalIndicator = true) : (wordClasses c).newline = false ∧ ¬ WordMark c
    ∧ wordClasses c .ALetter = false ∧ wordClasses c .HebrewLetter = false ∧ wordClasses c .Numeric = false
    ∧ wordClasses c .Katakana = false ∧ wordClasses c .ExtendNumLet = false ∧ wordClasses c .WSegSpace = false
    ∧ (wordClasses c).midLetter = false ∧ wordClasses c .DoubleQuote = false ∧ (wordClasses c).midNum = false := by
  have := Words.okValue.all (P := fun v => wset v .RegionalIndicator = true → ((wset v).newline || (wset v).ignorable
      || wset v .ALetter || wset v .HebrewLetter || wset v .Numeric || wset v .Katakana || wset v .ExtendNumLet
      || wset v .WSegSpace || (wset v).midLetter || wset v .DoubleQuote || (wset v).midNum) = false)
    (by decide +kernel) (Words.okValue_of (Words.wf.prop_value c))
  rw [← Words.wordClasses_eq] at this
  have := this h
  simp only [Bool.or_eq_false_iff, and_assoc] at this
  rw [wordMark_iff, Bool.not_eq_true]
  exact this

/-! ## C94 -/

/-- A character without properties (or a pictograph) is a word of its own, with marks after it. -/
theorem WordAlone.plain {t x y : List Char} {c : Char} (h : WordAlone t) (hz : ¬ HasEmojiJoin t) (ht : t = x ++ c :: y)
    (hc : ∀ w, w ≠ .ExtendedPictographic → wordClasses c w = false) : x = [] ∧ ∀ d ∈ y, WordMark d := by
  have hm : ¬ WordMark c := by simp [WordMark, hc]
  have hn : (wordClasses c).newline = false := by simp [WSet.newline, hc]
  constructor
  · apply Classical.byContradiction
    intro hx
    obtain ⟨x', p, -, -, -, k | k⟩ := h.inner hz ht hx hm (.inr hn)
    · rw [hc _ (by decide)] at k
      cases k.2
    · rw [unitJoins_plain_right hc] at k
      cases k
  · rcases h.follow hz ht hm hn with k | ⟨m, d, z, -, -, -, -, ⟨-, k, -⟩ | k⟩
    · exact k
    · rw [hc _ (by decide)] at k
      cases k
    · rw [unitJoins_plain_left (hc _ (by decide)) (hc _ (by decide)) (hc _ (by decide)) (hc _ (by decide)) (hc _ (by decide))
        (hc _ (by decide)) (.inr (by simp [WSet.midLetter, WSet.midNum, WSet.midNumLetQ, hc]))] at k
      cases k

/-- Blanks are only with blanks. -/
theorem WordAlone.space_left {t : List Char} (h : WordAlone t) (hz : ¬ HasEmojiJoin t) : ∀ (n : Nat) (x : List Char) (c : Char)
    (y : List Char), x.length = n → t = x ++ c :: y → wordClasses c .WSegSpace = true → ∀ d ∈ x, wordClasses d .WSegSpace = true := by
  intro n
  induction n with
  | zero => intro x c y hn; rw [List.length_eq_zero_iff.mp hn]; simp
  | succ n ih =>
    intro x c y hn ht hc
    have hs := wordSpace_classes hc
    obtain ⟨x', p, hx, -, -, ⟨k, -⟩ | k⟩ := h.inner hz ht (by rintro rfl; cases hn) (by simp [WordMark, hs])
      (.inr (by simp [WSet.newline, hs]))
    · subst hx
      intro d hd
      rcases List.mem_append.mp hd with hd | hd
      · exact ih x' p (c :: y) (by simpa using hn) (by rw [ht]; simp) k d hd
      · rw [List.mem_singleton.mp hd]
        exact k
    · have e : unitJoins false (units (x.map wordClasses).reverse) (wordClasses c)
          ((y.map wordClasses).dropWhile (·.ignorable)).head? = false := by
        simp [unitJoins, WSet.alnum, WSet.ahLetter, WSet.midLetter, WSet.midNum, WSet.midNumLetQ, hs]
      rw [e] at k
      cases k

theorem WordAlone.space_right {t : List Char} (h : WordAlone t) (hz : ¬ HasEmojiJoin t) : ∀ (y x : List Char) (c : Char),
    t = x ++ c :: y → wordClasses c .WSegSpace = true →
    ∃ b m, y = b ++ m ∧ (∀ d ∈ b, wordClasses d .WSegSpace = true) ∧ ∀ d ∈ m, WordMark d := by
  intro y
  induction y with
  | nil => intro x c _ _; exact ⟨[], [], rfl, by simp, by simp⟩
  | cons e y ih =>
    intro x c ht hc
    have hs := wordSpace_classes hc
    rcases h.follow hz ht (by simp [WordMark, hs]) (by simp [WSet.newline, hs]) with k | ⟨m, d, z, k1, -, -, -, ⟨rfl, -, k⟩ | k⟩
    · exact ⟨[], _, rfl, by simp, k⟩
    · simp only [List.nil_append, List.cons.injEq] at k1
      obtain ⟨rfl, rfl⟩ := k1
      obtain ⟨b, m, h1, h2, h3⟩ := ih (x ++ [c]) e (by rw [ht]; simp) k
      refine ⟨e :: b, m, by rw [h1]; rfl, ?_, h3⟩
      intro d hd
      rcases List.mem_cons.mp hd with rfl | hd
      · exact k
      · exact h2 d hd
    · rw [unitJoins_plain_left (hs _ (by decide)) (hs _ (by decide)) (hs _ (by decide)) (hs _ (by decide)) (hs _ (by decide))
        (hs _ (by decide)) (.inr (by simp [WSet.midLetter, WSet.midNum, WSet.midNumLetQ, hs]))] at k
      cases k

theorem WordAlone.mid {t x y : List Char} {c : Char} (h : WordAlone t) (hz : ¬ HasEmojiJoin t) (ht : t = x ++ c :: y)
    (hc : WordMid c) : (x = [] ∧ ∀ d ∈ y, WordMark d) ∨ MidPlace x c y := by
  obtain ⟨h1, h2, h3, h4, h5, h6, h7, h8, h9⟩ := wordMid_classes hc
  by_cases hx : x = []
  · subst hx
    left
    refine ⟨rfl, ?_⟩
    rcases h.follow hz ht h2 h1 with k | ⟨m, d, z, -, -, -, -, ⟨-, k, -⟩ | k⟩
    · exact k
    · rw [h9] at k
      cases k
    · rw [unitJoins_plain_left h3 h4 h5 h6 h7 h8 (.inl (by simp [units]))] at k
      cases k
  · right
    obtain ⟨x', p, -, -, -, k | k⟩ := h.inner hz ht hx h2 (.inr h1)
    · rw [h9] at k
      cases k.2
    · have ea : ∀ {l : List Char}, EndsWith (fun d => (wordClasses d).ahLetter false = true) l →
          EndsWith (fun d => wordClasses d .ALetter = true ∨ wordClasses d .HebrewLetter = true) l := by
        rintro l ⟨a, b, c, k1, k2, k3⟩
        exact ⟨a, b, c, k1, by simpa [WSet.ahLetter] using k2, k3⟩
      have sa : ∀ {l : List Char}, StartsWith (fun d => (wordClasses d).ahLetter false = true) l →
          StartsWith (fun d => wordClasses d .ALetter = true ∨ wordClasses d .HebrewLetter = true) l := by
        rintro l ⟨a, b, c, k1, k2, k3⟩
        exact ⟨a, b, c, k1, by simpa [WSet.ahLetter] using k2, k3⟩
      have e1 : (wordClasses c).alnum false = false := by simp [WSet.alnum, WSet.ahLetter, h3, h4, h5]
      have e2 : (wordClasses c).ahLetter false = false := by simp [WSet.ahLetter, h3, h4]
      unfold unitJoins at k
      simp only [e1, e2, h4, h5, h6, h7, h8, Bool.and_false, Bool.or_false, Bool.false_or, Bool.or_eq_true, Bool.and_eq_true]
        at k
      rcases k with ((⟨⟨k1, k2⟩, k3⟩ | ⟨k1, k2⟩) | ⟨⟨k1, k2⟩, k3⟩) | ⟨⟨k1, k2⟩, k3⟩
      · exact .inl ⟨by simpa [WSet.midLetter, WSet.midNumLetQ] using k2, ea (units_before k1), sa (units_after k3)⟩
      · exact .inr (.inr (.inl ⟨k2, units_before k1⟩))
      · exact .inr (.inr (.inr ⟨k2, units_before k1, units_after k3⟩))
      · exact .inr (.inl ⟨by simpa [WSet.midNum, WSet.midNumLetQ] using k2, units_before k1, units_after k3⟩)

/-- Regional indicators are only with marks and at most one other. -/
theorem WordAlone.flag {t : List Char} (h : WordAlone t) (hz : ¬ HasEmojiJoin t) :
    ∀ (n : Nat) (x : List Char) (c : Char) (y : List Char), x.length ≤ n → t = x ++ c :: y →
    wordClasses c .RegionalIndicator = true → ∃ e m, (∀ d ∈ m, WordMark d) ∧ wordClasses e .RegionalIndicator = true
      ∧ (t = e :: m ∨ ∃ e' m', (∀ d ∈ m', WordMark d) ∧ wordClasses e' .RegionalIndicator = true ∧ t = e :: (m ++ e' :: m')) := by
  -- the first one
  have first : ∀ e r, t = e :: r → wordClasses e .RegionalIndicator = true → ∃ e m, (∀ d ∈ m, WordMark d)
      ∧ wordClasses e .RegionalIndicator = true
      ∧ (t = e :: m ∨ ∃ e' m', (∀ d ∈ m', WordMark d) ∧ wordClasses e' .RegionalIndicator = true ∧ t = e :: (m ++ e' :: m')) := by
    intro e r ht he
    obtain ⟨h1, h2, h3, h4, h5, h6, h7, h8, h9, h10, h11⟩ := wordFlag_classes he
    rcases h.follow hz (x := []) ht h2 h1 with k | ⟨m, d, z, k1, k2, k3, k4, ⟨-, k, -⟩ | k⟩
    · exact ⟨e, r, k, he, .inl ht⟩
    · rw [h8] at k
      cases k
    · have hd : wordClasses d .RegionalIndicator = true := by
        simp [unitJoins, units, WSet.alnum, WSet.ahLetter, h3, h4, h5, h6, h7] at k
        exact k.2
      obtain ⟨d1, d2, d3, d4, d5, d6, d7, d8, d9, d10, d11⟩ := wordFlag_classes hd
      refine ⟨e, m, k2, he, .inr ⟨d, z, ?_, hd, by rw [ht, k1]⟩⟩
      rcases h.follow hz (x := e :: m) (c := d) (y := z) (by rw [ht, k1]; rfl) d2 d1 with q | ⟨m', d', z', -, -, -, -, ⟨-, q, -⟩ | q⟩
      · exact q
      · rw [d8] at q
        cases q
      · exfalso
        have hu := units_solid h2 h1 [] m k2
        rw [List.nil_append] at hu
        rw [hu] at q
        simp [unitJoins, units, WSet.alnum, WSet.ahLetter, h3, h4, h5, d3, d4, d5, d6, d7, d9, d10, d11, he, hd] at q
  intro n
  induction n with
  | zero =>
    intro x c y hn ht hc
    have : x = [] := by simpa using hn
    subst this
    exact first c y ht hc
  | succ n ih =>
    intro x c y hn ht hc
    by_cases hx : x = []
    · subst hx
      exact first c y ht hc
    obtain ⟨h1, h2, h3, h4, h5, h6, h7, h8, h9, h10, h11⟩ := wordFlag_classes hc
    obtain ⟨x', p, -, -, -, k | k⟩ := h.inner hz ht hx h2 (.inr h1)
    · rw [h8] at k
      cases k.2
    · have hb : (units (x.map wordClasses).reverse).head?.any (· .RegionalIndicator) = true := by
        have e : (wordClasses c).alnum false = false := by simp [WSet.alnum, WSet.ahLetter, h3, h4, h5]
        have e2 : (wordClasses c).ahLetter false = false := by simp [WSet.ahLetter, h3, h4]
        have e3 : wordClasses c .SingleQuote = false := by
          simp only [WSet.midLetter, WSet.midNumLetQ, Bool.or_eq_false_iff] at h9
          exact h9.2.2
        unfold unitJoins at k
        simp only [e, e2, e3, h4, h5, h6, h7, h9, h10, h11, Bool.and_false, Bool.or_false, Bool.false_or, Bool.false_and,
          Bool.and_eq_true, decide_eq_true_eq] at k
        revert k
        cases units (x.map wordClasses).reverse with
        | nil => simp
        | cons u us =>
          intro k
          cases hu : u .RegionalIndicator with
          | true => simp [hu]
          | false => simp [hu] at k
      obtain ⟨a, e, m, q1, q2, -⟩ := units_before (P := fun w => w .RegionalIndicator) hb
      refine ih a e (m ++ c :: y) ?_ (by rw [ht, q1]; simp) q2
      have := congrArg List.length q1
      simp only [List.length_append, List.length_cons] at this
      omega

/-- **C94** What words look like. Let a word have no ZWJ with a pictograph after it. If it has a character without properties, or
a pictograph, then it is this character and marks after it. If it has a blank, then it is blanks and marks after them. If it has a
regional indicator, then it is one or two of them, with marks. Punctuation is a word with marks after it, or it is between
letters, between digits, or a quotation mark with Hebrew letters. -/
theorem C94_words (s : List Char) :
    ∃ ts : List (List Char), defaultTokens .words (utf8 s) = .ok (ts.map utf8) ∧ ts.flatten = s
      ∧ ∀ t ∈ ts, ¬ HasEmojiJoin t → ∀ x c y, t = x ++ c :: y →
        ((∀ w, w ≠ .ExtendedPictographic → wordClasses c w = false) → x = [] ∧ ∀ d ∈ y, WordMark d)
        ∧ (wordClasses c .WSegSpace = true → (∀ d ∈ x, wordClasses d .WSegSpace = true)
          ∧ ∃ b m, y = b ++ m ∧ (∀ d ∈ b, wordClasses d .WSegSpace = true) ∧ ∀ d ∈ m, WordMark d)
        ∧ (wordClasses c .RegionalIndicator = true → ∃ e m, (∀ d ∈ m, WordMark d) ∧ wordClasses e .RegionalIndicator = true
          ∧ (t = e :: m ∨ ∃ e' m', (∀ d ∈ m', WordMark d) ∧ wordClasses e' .RegionalIndicator = true ∧ t = e :: (m ++ e' :: m')))
        ∧ (WordMid c → (x = [] ∧ ∀ d ∈ y, WordMark d) ∨ MidPlace x c y) := by
  obtain ⟨ts, h1, h2, h3⟩ := word_alone s
  refine ⟨ts, h1, h2, fun t ht hz x c y hxy => ⟨(h3 t ht).plain hz hxy, fun hc => ⟨?_, ?_⟩, ?_, (h3 t ht).mid hz hxy⟩⟩
  · exact (h3 t ht).space_left hz _ x c y rfl hxy hc
  · exact (h3 t ht).space_right hz y x c hxy hc
  · exact (h3 t ht).flag hz _ x c y (Nat.le_refl _) hxy

-- an ideograph, a dollar sign and a pictograph have no such properties; "can't" and "3,4" have punctuation in them
example : (∀ c ∈ ['漢', '$', '😀'], ∀ w ∈ [WB.CR, .LF, .Newline, .Extend, .ZWJ, .Format, .RegionalIndicator, .Katakana,
      .HebrewLetter, .ALetter, .SingleQuote, .DoubleQuote, .MidNumLet, .MidLetter, .MidNum, .Numeric, .ExtendNumLet, .WSegSpace],
      wordClasses c w = false)
    ∧ wordClasses '\'' .SingleQuote = true ∧ wordClasses ',' .MidNum = true ∧ wordClasses ':' .MidLetter = true := by
  decide +kernel
example : defaultTokens .words (utf8 "漢字 can't$ 3,4.".toList) = .ok [utf8 ['漢'], utf8 ['字'], utf8 [' '], utf8 "can't".toList,
    utf8 ['$'], utf8 [' '], utf8 "3,4".toList, utf8 ['.']] := by decide +kernel
-- the condition is needed: the pictograph Ⓜ is also a letter, and joins what is before the ZWJ with a letter after it
example : defaultTokens .words (utf8 ['$', '\u200d', 'Ⓜ', 'a']) = .ok [utf8 ['$', '\u200d', 'Ⓜ', 'a']]
    ∧ HasEmojiJoin ['$', '\u200d', 'Ⓜ', 'a'] :=
  ⟨by decide +kernel, ['$'], '\u200d', 'Ⓜ', ['a'], rfl, by decide +kernel, by decide +kernel⟩

end Uax29
