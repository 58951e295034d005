import Verif.Props.Clusters
import Verif.Props.Transparent
/-! # Flags as phrases, emoji as words and phrases: C21, C22 -/
namespace Uax29
open Spec

/-! ## Flags -/

theorem phrases_indicator {c : Char} (hc : regionalIndicator c) : ∀ g, phraseClasses c g = decide (g = .RegionalIndicator) := by
  rw [phraseClasses_eq]
  have := forall_indicators (P := fun c => Phrases.trie.prop c = Phrases._RegionalIndicator) (by decide +kernel) hc
  rw [this]
  intro g
  cases g <;> decide

/-- C21: regional indicators pair up from the left, as phrases. -/
theorem C21_phrases (s : List Char) (hs : ∀ c ∈ s, regionalIndicator c) :
    defaultTokens .phrases (utf8 s) = .ok ((pairs s).map utf8) := by
  obtain ⟨ts, h1, h2, h3, h4⟩ := C11_conform s
  rw [h1, pairs_unique h2 h3]
  intro a b hab ha hb
  rw [h4 a b hab, phraseBreak]
  obtain ⟨d, b, rfl⟩ := List.exists_cons_of_ne_nil hb
  have hd := phrases_indicator (hs d (by simp [hab]))
  have hunits : ∀ l : List Char, (∀ c ∈ l, regionalIndicator c) → units (l.map phraseClasses) = l.map phraseClasses := by
    intro l
    induction l with
    | nil => intro _; rfl
    | cons c l ih =>
      intro hl
      have hc := phrases_indicator (hl c (by simp))
      rw [List.map_cons, units_cons_solid (by simp [WSet.ignorable, hc]), ih fun c hc => hl c (List.mem_cons_of_mem _ hc)]
  have hjoin : joins true (a.map phraseClasses).reverse ((d :: b).map phraseClasses) = decide (a.length % 2 = 1) := by
    have hrev : ∀ c ∈ a.reverse, regionalIndicator c := fun c hc => hs c (by simp [hab, List.mem_reverse.mp hc])
    have hlen : ((a.reverse.map phraseClasses).takeWhile (· .RegionalIndicator)).length = a.length := by
      have : (a.reverse.map phraseClasses).takeWhile (· .RegionalIndicator) = a.reverse.map phraseClasses := by
        refine takeWhile_all fun x hx => ?_
        obtain ⟨c, hc, rfl⟩ := List.mem_map.mp hx
        simp [phrases_indicator (hrev c hc)]
      rw [this]; simp
    have hu := hunits a.reverse hrev
    rw [← List.map_reverse]
    obtain ⟨c, l, hl⟩ := List.exists_cons_of_ne_nil (l := a.reverse) (by simpa using ha)
    have hc := phrases_indicator (hrev c (by rw [hl]; simp))
    rw [hl] at hlen hu ⊢
    simp only [List.map_cons] at hlen hu ⊢
    have h2 : ∀ f : WSet → Bool, (∀ c, regionalIndicator c → f (phraseClasses c) = false) →
        (l.map phraseClasses).head?.any f = false := by
      intro f hf
      cases l with
      | nil => rfl
      | cons e l => exact hf e (hrev e (by rw [hl]; simp))
    rw [joins, hu]
    simp only [unitJoins, hlen, List.head?_cons, Option.any_some, List.tail_cons]
    rw [h2 (· .HebrewLetter) (fun c hc => by simp [phrases_indicator hc]),
      h2 (· .Numeric) (fun c hc => by simp [phrases_indicator hc]),
      h2 (·.ahLetter true) (fun c hc => by simp [WSet.ahLetter, phrases_indicator hc])]
    simp [hc, hd, WSet.newline, WSet.ignorable, WSet.alnum, WSet.ahLetter, WSet.midLetter, WSet.midNum, WSet.midNumLetQ]
  rw [hjoin]
  simp [ha]

-- two flags and half a flag
example : defaultTokens .phrases (utf8 ['🇩', '🇪', '🇫', '🇷', '🇩'])
    = .ok [utf8 ['🇩', '🇪'], utf8 ['🇫', '🇷'], utf8 ['🇩']] := by decide +kernel

/-! ## Emoji -/

/-- WB3c and WB4 join two neighbours, whatever is around them. -/
def Tied (f : Char → WSet) (c d : Char) : Prop :=
  (f c).newline = false ∧ (f d).newline = false ∧ ((f d).ignorable = true ∨ f c .ZWJ = true ∧ f d .ExtendedPictographic = true)

theorem tied_joins {f : Char → WSet} {c d : Char} (h : Tied f c d) (ph : Bool) (left right : List WSet) :
    joins ph (f c :: left) (f d :: right) = true := by
  obtain ⟨h1, h2, h3 | ⟨h3, h4⟩⟩ := h
  · exact joins_mark h1 h2 h3
  · simp [joins, h1, h2, h3, h4, cr_newline h1]

/-- A text whose neighbours are tied has no boundary within it, in any text. -/
theorem tied_inside {f : Char → WSet} {ph : Bool} {s left right : List Char} {ts : List (List Char)}
    (h4 : ∀ a b, left ++ s ++ right = a ++ b → (Boundary ts a ↔
      ((a.map f).isEmpty || (b.map f).isEmpty || !joins ph (a.map f).reverse (b.map f)) = true))
    (h : Chain (Tied f) s) : ∀ x y, s = x ++ y → x ≠ [] → y ≠ [] → ¬ Boundary ts (left ++ x) := by
  intro x y hxy hx hy
  obtain ⟨d, y, rfl⟩ := List.exists_cons_of_ne_nil hy
  have hl := List.dropLast_concat_getLast hx
  rw [h4 (left ++ x) (d :: y ++ right) (by simp [hxy])]
  rw [← hl] at hxy ⊢
  have := chain_get h (x := x.dropLast) (c := x.getLast hx) (d := d) (y := y) (by rw [hxy]; simp)
  have := tied_joins this ph ((left ++ x.dropLast).map f).reverse ((y ++ right).map f)
  simp only [List.map_append, List.map_cons, List.map_nil, List.reverse_append, List.reverse_cons, List.reverse_nil,
    List.nil_append, List.cons_append] at this ⊢
  rw [this]
  simp

theorem chain_zwj {f : Char → WSet} (hz : (f '\u200d').newline = false ∧ f '\u200d' .ZWJ = true) :
    ∀ (l : List (Char × List Char)), (∀ e ∈ l, (f e.1 .ExtendedPictographic = true ∧ (f e.1).newline = false)
      ∧ ∀ x ∈ e.2, (f x).ignorable = true ∧ (f x).newline = false) →
    Chain (Tied f) (zwjSequence l) ∧ ∀ c, f c .ZWJ = true → (f c).newline = false → Chain (Tied f) (c :: zwjSequence l)
  | [], _ => ⟨trivial, fun _ _ _ => trivial⟩
  | (p, ext) :: l, h => by
    obtain ⟨⟨h1, h2⟩, h3⟩ := h (p, ext) (by simp)
    have hzi : (f '\u200d').ignorable = true := by simp [WSet.ignorable, hz.2]
    -- marks after a character, and then what follows
    have run : ∀ (ext : List Char) (c : Char) (rest : List Char), (f c).newline = false →
        (∀ x ∈ ext, (f x).ignorable = true ∧ (f x).newline = false) →
        (∀ e, (f e).newline = false → Chain (Tied f) (e :: rest)) → Chain (Tied f) (c :: (ext ++ rest)) := by
      intro ext
      induction ext with
      | nil => intro c rest hc _ hr; exact hr c hc
      | cons x ext ih =>
        intro c rest hc hx hr
        obtain ⟨k1, k2⟩ := hx x (by simp)
        exact ⟨⟨hc, k2, .inl k1⟩, ih x rest k2 (fun y hy => hx y (by simp [hy])) hr⟩
    have key : Chain (Tied f) (zwjSequence ((p, ext) :: l)) ∧ ∃ s, zwjSequence ((p, ext) :: l) = p :: s := by
      cases l with
      | nil =>
        refine ⟨?_, ext, rfl⟩
        have := run ext p [] h2 h3 (fun _ _ => trivial)
        rwa [List.append_nil] at this
      | cons e l =>
        have e1 : zwjSequence ((p, ext) :: e :: l) = p :: (ext ++ '\u200d' :: zwjSequence (e :: l)) := by
          rw [zwjSequence]
          · rfl
          · intro h; cases h
        rw [e1]
        refine ⟨run ext p _ h2 h3 fun c hc => ⟨⟨hc, hz.1, .inl hzi⟩, ?_⟩, _, rfl⟩
        exact (chain_zwj hz (e :: l) fun x hx => h x (by simp only [List.mem_cons] at hx ⊢; exact .inr hx)).2 _ hz.2 hz.1
    obtain ⟨k1, s, k2⟩ := key
    refine ⟨k1, fun c hc hn => ?_⟩
    rw [k2] at k1 ⊢
    exact ⟨⟨hn, h2, .inr ⟨hc, h1⟩⟩, k1⟩

theorem zwjSequence_ne_nil {l : List (Char × List Char)} (h : l ≠ []) : zwjSequence l ≠ [] := by
  match l, h with
  | [(p, ext)], _ => simp [zwjSequence]
  | (p, ext) :: e :: l, _ =>
    rw [zwjSequence]
    · simp
    · intro h; cases h

theorem Words.pictograph_newline {c : Char} (h : wordClasses c .ExtendedPictographic = true) : (wordClasses c).newline = false := by
  have := okValue.all (P := fun v => wset v .ExtendedPictographic = true → (wset v).newline = false)
    (by decide +kernel) (okValue_of (wf.prop_value c))
  rw [wordClasses_eq] at h ⊢
  exact this h

theorem Words.chain_emoji (l : List (Char × List Char))
    (h : ∀ e ∈ l, wordClasses e.1 .ExtendedPictographic = true ∧ ∀ x ∈ e.2, wordClasses x .Extend = true) :
    Chain (Tied wordClasses) (zwjSequence l) := by
  refine (chain_zwj (by decide +kernel) l fun e he => ?_).1
  obtain ⟨h1, h2⟩ := h e he
  refine ⟨⟨h1, pictograph_newline h1⟩, fun x hx => ?_⟩
  obtain ⟨k1, k2, -⟩ := mark_classes (.inl (h2 x hx))
  exact ⟨k1, k2⟩

/-- C22 for words: pictographs, each followed by any number of Extend characters, joined by ZWJ, are one word, -/
theorem C22_words (l : List (Char × List Char)) (hl : l ≠ [])
    (h : ∀ e ∈ l, wordClasses e.1 .ExtendedPictographic = true ∧ ∀ x ∈ e.2, wordClasses x .Extend = true) :
    defaultTokens .words (utf8 (zwjSequence l)) = .ok [utf8 (zwjSequence l)] := by
  obtain ⟨ts, h1, h2, h3, h4⟩ := C09_conform (zwjSequence l)
  have : ts = [zwjSequence l] := by
    refine boundary_one h2 (zwjSequence_ne_nil hl) h3 ?_
    have := tied_inside (ph := false) (f := wordClasses) (left := []) (right := []) (ts := ts) (s := zwjSequence l)
      (by rw [List.nil_append, List.append_nil]; exact h4) (Words.chain_emoji l h)
    simpa using this
  rw [h1, this]
  rfl

/-- and no boundary is within them in any text. -/
theorem C22_words_context (l : List (Char × List Char))
    (h : ∀ e ∈ l, wordClasses e.1 .ExtendedPictographic = true ∧ ∀ x ∈ e.2, wordClasses x .Extend = true)
    (left right : List Char) :
    ∃ ts : List (List Char), defaultTokens .words (utf8 (left ++ zwjSequence l ++ right)) = .ok (ts.map utf8)
      ∧ ts.flatten = left ++ zwjSequence l ++ right
      ∧ ∀ x y, zwjSequence l = x ++ y → x ≠ [] → y ≠ [] → ¬ Boundary ts (left ++ x) := by
  obtain ⟨ts, h1, h2, h3, h4⟩ := C09_conform (left ++ zwjSequence l ++ right)
  exact ⟨ts, h1, h2, tied_inside (ph := false) h4 (Words.chain_emoji l h)⟩

theorem Phrases.pictograph_newline {c : Char} (h : phraseClasses c .ExtendedPictographic = true) : (phraseClasses c).newline = false := by
  have := okValue.all (P := fun v => pset v .ExtendedPictographic = true → (pset v).newline = false)
    (by decide +kernel) (okValue_of (wf.prop_value c))
  rw [phraseClasses_eq] at h ⊢
  exact this h

theorem Phrases.chain_emoji (l : List (Char × List Char))
    (h : ∀ e ∈ l, phraseClasses e.1 .ExtendedPictographic = true ∧ ∀ x ∈ e.2, phraseClasses x .Extend = true) :
    Chain (Tied phraseClasses) (zwjSequence l) := by
  refine (chain_zwj (by decide +kernel) l fun e he => ?_).1
  obtain ⟨h1, h2⟩ := h e he
  refine ⟨⟨h1, pictograph_newline h1⟩, fun x hx => ?_⟩
  obtain ⟨k1, k2, -⟩ := mark_classes (.inl (h2 x hx))
  exact ⟨k1, k2⟩

/-- C22 for phrases: pictographs, each followed by any number of Extend characters, joined by ZWJ, are one phrase, -/
theorem C22_phrases (l : List (Char × List Char)) (hl : l ≠ [])
    (h : ∀ e ∈ l, phraseClasses e.1 .ExtendedPictographic = true ∧ ∀ x ∈ e.2, phraseClasses x .Extend = true) :
    defaultTokens .phrases (utf8 (zwjSequence l)) = .ok [utf8 (zwjSequence l)] := by
  obtain ⟨ts, h1, h2, h3, h4⟩ := C11_conform (zwjSequence l)
  have : ts = [zwjSequence l] := by
    refine boundary_one h2 (zwjSequence_ne_nil hl) h3 ?_
    have := tied_inside (ph := true) (f := phraseClasses) (left := []) (right := []) (ts := ts) (s := zwjSequence l)
      (by rw [List.nil_append, List.append_nil]; exact h4) (Phrases.chain_emoji l h)
    simpa using this
  rw [h1, this]
  rfl

/-- and no boundary is within them in any text. -/
theorem C22_phrases_context (l : List (Char × List Char))
    (h : ∀ e ∈ l, phraseClasses e.1 .ExtendedPictographic = true ∧ ∀ x ∈ e.2, phraseClasses x .Extend = true)
    (left right : List Char) :
    ∃ ts : List (List Char), defaultTokens .phrases (utf8 (left ++ zwjSequence l ++ right)) = .ok (ts.map utf8)
      ∧ ts.flatten = left ++ zwjSequence l ++ right
      ∧ ∀ x y, zwjSequence l = x ++ y → x ≠ [] → y ≠ [] → ¬ Boundary ts (left ++ x) := by
  obtain ⟨ts, h1, h2, h3, h4⟩ := C11_conform (left ++ zwjSequence l ++ right)
  exact ⟨ts, h1, h2, tied_inside (ph := true) h4 (Phrases.chain_emoji l h)⟩

-- woman with skin tone, ZWJ, heart with variation selector, ZWJ, man; without the ZWJ two words, but one phrase
example : ∀ e ∈ [('👩', ['🏽']), ('❤', ['️']), ('👨', [])],
    (wordClasses e.1 .ExtendedPictographic = true ∧ ∀ x ∈ e.2, wordClasses x .Extend = true)
    ∧ (phraseClasses e.1 .ExtendedPictographic = true ∧ ∀ x ∈ e.2, phraseClasses x .Extend = true) := by decide +kernel
example : defaultTokens .words (utf8 ['👩', '👨']) = .ok [utf8 ['👩'], utf8 ['👨']]
    ∧ defaultTokens .phrases (utf8 ['👩', '👨']) = .ok [utf8 ['👩', '👨']] := by decide +kernel

end Uax29
