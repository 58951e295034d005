import Verif.Spec.Clusters
import Verif.Proofs.Boundaries
import Verif.Proofs.Pages
import Verif.Props.LineEnds
/-! # Marks, flags, emoji, Hangul and ASCII: C20, C21, C22, C23, C40 -/
namespace Uax29
open Spec

/-! ## Marks -/

/-- **C20** A grapheme that starts with an Extend, ZWJ or SpacingMark character is the first one, or the
character before it is a control character or line end. -/
theorem C20_marks (s : List Char) :
    ∃ ts : List (List Char), defaultTokens .graphemes (utf8 s) = .ok (ts.map utf8) ∧ ts.flatten = s
      ∧ ∀ A c t B, ts = A ++ (c :: t) :: B →
        (graphemeClasses c .Extend = true ∨ graphemeClasses c .ZWJ = true ∨ graphemeClasses c .SpacingMark = true) →
        A = [] ∨ ∃ d, A.flatten.getLast? = some d
          ∧ (graphemeClasses d .Control = true ∨ graphemeClasses d .CR = true ∨ graphemeClasses d .LF = true) := by
  obtain ⟨ts, h1, h2, h3, h4⟩ := C08_conform s
  refine ⟨ts, h1, h2, ?_⟩
  intro A c t B hAB hc
  by_cases hA : A = []
  · exact .inl hA
  right
  have hne : A.flatten ≠ [] := flatten_ne_nil (fun g hg => h3 g (by rw [hAB]; simp [hg])) hA
  have hlast := List.dropLast_concat_getLast hne
  refine ⟨A.flatten.getLast hne, List.getLast?_eq_some_getLast hne, ?_⟩
  have hb := boundary_before A ((c :: t) :: B)
  rw [← hAB, ← hlast, h4 _ (c :: t ++ B.flatten) (by rw [hlast, ← h2, hAB]; simp), List.cons_append,
    graphemeBreak_pair] at hb
  generalize A.flatten.getLast hne = d at *
  have hmark : (graphemeClasses c).control = false := by
    have := Graphemes.okValue.all (P := fun v => (gset v .Extend = true ∨ gset v .ZWJ = true ∨ gset v .SpacingMark = true) →
      (gset v).control = false) (by decide +kernel) (Graphemes.okValue_of (Graphemes.wf.prop_value c))
    rw [graphemeClasses_eq] at hc ⊢
    exact this hc
  cases hd : (graphemeClasses d).control with
  | true =>
    simp only [GSet.control, Bool.or_eq_true] at hd
    rcases hd with (h | h) | h
    · exact .inl h
    · exact .inr (.inl h)
    · exact .inr (.inr h)
  | false =>
    rw [graphemeJoins] at hb
    split at hb
    · simp at hb
    · rw [hd, hmark] at hb
      rcases hc with h | h | h <;> simp [h] at hb

-- an accent after a letter, at the start, and after a line end
example : defaultTokens .graphemes (utf8 ['́', 'e', '́', '\n', '́'])
    = .ok [utf8 ['́'], utf8 ['e', '́'], utf8 ['\n'], utf8 ['́']] := by decide +kernel

/-! ## Texts that are one grapheme in any context -/

/-- In any context, all positions within `s` join. -/
def OneCluster (s : List Char) : Prop :=
  ∀ left right x d y, s = x ++ d :: y → x ≠ [] →
    graphemeJoins ((left ++ x).map graphemeClasses).reverse ((d :: y ++ right).map graphemeClasses) = true

/-- There is no grapheme boundary within a solid text, whatever comes before and after it. -/
theorem OneCluster.inside {s : List Char} (h : OneCluster s) (left right : List Char) :
    ∃ ts : List (List Char), defaultTokens .graphemes (utf8 (left ++ s ++ right)) = .ok (ts.map utf8)
      ∧ ts.flatten = left ++ s ++ right
      ∧ ∀ x y, s = x ++ y → x ≠ [] → y ≠ [] → ¬ Boundary ts (left ++ x) := by
  obtain ⟨ts, h1, h2, h3, h4⟩ := C08_conform (left ++ s ++ right)
  refine ⟨ts, h1, h2, ?_⟩
  intro x y hxy hx hy
  obtain ⟨d, y, rfl⟩ := List.exists_cons_of_ne_nil hy
  rw [h4 (left ++ x) (d :: y ++ right) (by simp [hxy]), graphemeBreak, h left right x d y hxy hx]
  simp [hx]

/-- A solid text is one grapheme. -/
theorem OneCluster.one {s : List Char} (h : OneCluster s) (hs : s ≠ []) :
    defaultTokens .graphemes (utf8 s) = .ok [utf8 s] := by
  obtain ⟨ts, h1, h2, h3, h4⟩ := C08_conform s
  have : ts = [s] := by
    refine boundary_one h2 hs h3 ?_
    intro x y hxy hx hy
    obtain ⟨d, y, rfl⟩ := List.exists_cons_of_ne_nil hy
    have := h [] [] x d y hxy hx
    rw [List.nil_append, List.append_nil] at this
    rw [h4 x (d :: y) hxy, graphemeBreak, this]
    simp [hx]
  rw [h1, this]
  rfl

/-! ## Emoji -/

/-- All positions from the start of `s` on join, after `left`. -/
def AllJoin : List Char → List Char → List Char → Prop
  | _, [], _ => True
  | left, d :: y, right =>
    graphemeJoins (left.map graphemeClasses) ((d :: y ++ right).map graphemeClasses) = true ∧ AllJoin (d :: left) y right

theorem AllJoin.append : ∀ {s t left right : List Char}, AllJoin left s (t ++ right) →
    AllJoin (s.reverse ++ left) t right → AllJoin left (s ++ t) right
  | [], _, _, _, _, h => h
  | d :: s, t, left, right, h1, h2 => by
    refine ⟨by simpa using h1.1, AllJoin.append h1.2 (by simpa using h2)⟩

theorem AllJoin.get : ∀ {s left right : List Char}, AllJoin left s right → ∀ x d y, s = x ++ d :: y →
    graphemeJoins ((x.reverse ++ left).map graphemeClasses) ((d :: y ++ right).map graphemeClasses) = true
  | [], _, _, _, x, d, y, h => by simp at h
  | c :: s, left, right, h, [], d, y, hx => by
    simp only [List.nil_append, List.cons.injEq] at hx
    obtain ⟨rfl, rfl⟩ := hx
    exact h.1
  | c :: s, left, right, h, e :: x, d, y, hx => by
    simp only [List.cons_append, List.cons.injEq] at hx
    obtain ⟨rfl, rfl⟩ := hx
    have := h.2.get x d y rfl
    simpa using this

theorem OneCluster.of_allJoin {c : Char} {s : List Char} (h : ∀ left right, AllJoin (c :: left) s right) : OneCluster (c :: s) := by
  intro left right x d y hx hne
  obtain ⟨e, x, rfl⟩ := List.exists_cons_of_ne_nil hne
  simp only [List.cons_append, List.cons.injEq] at hx
  obtain ⟨rfl, rfl⟩ := hx
  have := (h left.reverse right).get x d y rfl
  rw [← List.map_reverse]
  simpa using this

/-- Extend and ZWJ characters are joined to what is not a control character. -/
theorem joins_extend {a d : GSet} (left right : List GSet) (ha : a.control = false) (hd : d.control = false)
    (h : d .Extend = true ∨ d .ZWJ = true) : graphemeJoins (a :: left) (d :: right) = true := by
  rw [graphemeJoins]
  split
  · rfl
  · rw [ha, hd]
    rcases h with h | h <;> simp [h]

theorem extend_not_control {c : Char} (h : graphemeClasses c .Extend = true) : (graphemeClasses c).control = false := by
  rw [graphemeClasses_eq] at h ⊢
  exact Graphemes.okValue.all (P := fun v => gset v .Extend = true → (gset v).control = false) (by decide +kernel)
    (Graphemes.okValue_of (Graphemes.wf.prop_value c)) h

theorem pictograph_not_control {c : Char} (h : graphemeClasses c .ExtendedPictographic = true) :
    (graphemeClasses c).control = false := by
  rw [graphemeClasses_eq] at h ⊢
  exact Graphemes.okValue.all (P := fun v => gset v .ExtendedPictographic = true → (gset v).control = false)
    (by decide +kernel) (Graphemes.okValue_of (Graphemes.wf.prop_value c)) h

theorem pictograph_not_extend {c : Char} (h : graphemeClasses c .ExtendedPictographic = true) :
    graphemeClasses c .Extend = false := by
  rw [graphemeClasses_eq] at h ⊢
  exact Graphemes.okValue.all (P := fun v => gset v .ExtendedPictographic = true → gset v .Extend = false)
    (by decide +kernel) (Graphemes.okValue_of (Graphemes.wf.prop_value c)) h

theorem zwj_class : graphemeClasses '‍' .ZWJ = true ∧ (graphemeClasses '‍').control = false := by decide +kernel

/-- After a character that is not a control character, Extend characters and ZWJ are joined. -/
theorem allJoin_extend : ∀ (ext : List Char) (a : Char) (left right : List Char), (graphemeClasses a).control = false →
    (∀ e ∈ ext, graphemeClasses e .Extend = true ∨ e = '‍') → AllJoin (a :: left) ext right
  | [], _, _, _, _, _ => trivial
  | e :: ext, a, left, right, ha, he => by
    have h1 : (graphemeClasses e).control = false ∧ (graphemeClasses e .Extend = true ∨ graphemeClasses e .ZWJ = true) := by
      rcases he e (by simp) with h | rfl
      · exact ⟨extend_not_control h, .inl h⟩
      · exact ⟨zwj_class.2, .inr zwj_class.1⟩
    exact ⟨joins_extend _ _ ha h1.1 h1.2, allJoin_extend ext e _ _ h1.1 fun x hx => he x (List.mem_cons_of_mem _ hx)⟩

theorem allJoin_zwj : ∀ (l : List (Char × List Char)) (p : Char) (ext left right : List Char),
    (∀ e ∈ (p, ext) :: l, graphemeClasses e.1 .ExtendedPictographic = true
      ∧ ∀ x ∈ e.2, graphemeClasses x .Extend = true) →
    ∃ s, zwjSequence ((p, ext) :: l) = p :: s ∧ AllJoin (p :: left) s right
  | [], p, ext, left, right, h =>
    ⟨ext, rfl, allJoin_extend _ _ _ _ (pictograph_not_control (h (p, ext) (by simp)).1)
      fun e he => .inl ((h (p, ext) (by simp)).2 e he)⟩
  | (p', ext') :: l, p, ext, left, right, h => by
    obtain ⟨hp, hext⟩ := h (p, ext) (by simp)
    obtain ⟨hp', _⟩ := h (p', ext') (by simp)
    obtain ⟨s, hs, hj⟩ := allJoin_zwj l p' ext' ('‍' :: (ext.reverse ++ p :: left)) right
      (fun e he => h e (List.mem_cons_of_mem _ he))
    have hz : zwjSequence ((p, ext) :: (p', ext') :: l) = p :: ((ext ++ ['‍']) ++ (p' :: s)) := by
      rw [← hs, zwjSequence]
      · simp
      · intro h; cases h
    refine ⟨_, hz, ?_⟩
    have h1 : AllJoin (p :: left) (ext ++ ['‍']) ((p' :: s) ++ right) := by
      refine allJoin_extend _ _ _ _ (pictograph_not_control hp) ?_
      intro e he
      rcases List.mem_append.mp he with he | he
      · exact .inl (hext e he)
      · exact .inr (List.mem_singleton.mp he)
    refine h1.append ⟨?_, ?_⟩
    · have hpz : pictographZwj (((ext ++ ['‍']).reverse ++ p :: left).map graphemeClasses) = true := by
        have he : (ext.reverse.map graphemeClasses).dropWhile (· .Extend) = [] := by
          refine dropWhile_all fun x hx => ?_
          obtain ⟨c, hc, rfl⟩ := List.mem_map.mp hx
          exact hext c (List.mem_reverse.mp hc)
        rw [List.reverse_append, List.append_assoc]
        simp only [List.reverse_singleton, List.singleton_append, List.map_cons, List.map_append, pictographZwj,
          List.head?_cons, Option.any_some, zwj_class.1, Bool.true_and, List.tail_cons]
        rw [List.dropWhile_append, he]
        simp [pictograph_not_extend hp, hp]
      obtain ⟨L, hL⟩ : ∃ L, (ext ++ ['‍']).reverse ++ p :: left = '‍' :: L := ⟨ext.reverse ++ p :: left, by simp⟩
      rw [hL] at hpz ⊢
      simp only [List.map_cons, List.cons_append] at hpz ⊢
      rw [graphemeJoins]
      split
      · rfl
      · rw [if_neg (by simp [zwj_class.2, pictograph_not_control hp']), hpz, hp']
        simp
    · simpa using hj

/-- **C22** Pictographs, each followed by any number of Extend characters, joined by ZWJ, are one
grapheme, -/
theorem C22_emoji (l : List (Char × List Char)) (hl : l ≠ [])
    (h : ∀ e ∈ l, graphemeClasses e.1 .ExtendedPictographic = true ∧ ∀ x ∈ e.2, graphemeClasses x .Extend = true) :
    defaultTokens .graphemes (utf8 (zwjSequence l)) = .ok [utf8 (zwjSequence l)] := by
  obtain ⟨⟨p, ext⟩, l, rfl⟩ := List.exists_cons_of_ne_nil hl
  obtain ⟨s, hs, _⟩ := allJoin_zwj l p ext [] [] h
  refine OneCluster.one ?_ (by simp [hs])
  rw [hs]
  refine OneCluster.of_allJoin fun left right => ?_
  obtain ⟨s', hs', hj⟩ := allJoin_zwj l p ext left right h
  rw [hs] at hs'
  cases hs'
  exact hj

/-- and no boundary is within them in any text. -/
theorem C22_context (l : List (Char × List Char))
    (h : ∀ e ∈ l, graphemeClasses e.1 .ExtendedPictographic = true ∧ ∀ x ∈ e.2, graphemeClasses x .Extend = true)
    (left right : List Char) :
    ∃ ts : List (List Char), defaultTokens .graphemes (utf8 (left ++ zwjSequence l ++ right)) = .ok (ts.map utf8)
      ∧ ts.flatten = left ++ zwjSequence l ++ right
      ∧ ∀ x y, zwjSequence l = x ++ y → x ≠ [] → y ≠ [] → ¬ Boundary ts (left ++ x) := by
  refine OneCluster.inside ?_ left right
  cases l with
  | nil => intro left right x d y hx; simp [zwjSequence] at hx
  | cons e l =>
    obtain ⟨p, ext⟩ := e
    obtain ⟨s, hs, _⟩ := allJoin_zwj l p ext [] [] h
    rw [hs]
    refine OneCluster.of_allJoin fun left right => ?_
    obtain ⟨s', hs', hj⟩ := allJoin_zwj l p ext left right h
    rw [hs] at hs'
    cases hs'
    exact hj

-- woman with skin tone, ZWJ, heart with variation selector, ZWJ, man
example : zwjSequence [('👩', ['🏽']), ('❤', ['️']), ('👨', [])] = ['👩', '🏽', '‍', '❤', '️', '‍', '👨'] := by
  decide
example : ∀ e ∈ [('👩', ['🏽']), ('❤', ['️']), ('👨', [])],
    graphemeClasses e.1 .ExtendedPictographic = true ∧ ∀ x ∈ e.2, graphemeClasses x .Extend = true := by decide +kernel
-- without the ZWJ they are two
example : defaultTokens .graphemes (utf8 ['👩', '👨']) = .ok [utf8 ['👩'], utf8 ['👨']] := by decide +kernel

/-! ## Flags -/

theorem pairs_flatten {α : Type} : ∀ l : List α, (pairs l).flatten = l
  | [] => rfl
  | [_] => rfl
  | a :: b :: l => by simp [pairs, pairs_flatten l]

theorem pairs_ne_nil {α : Type} : ∀ l : List α, ∀ g ∈ pairs l, g ≠ []
  | [] => by simp [pairs]
  | [_] => by simp [pairs]
  | a :: b :: l => by
    intro g hg
    rcases List.mem_cons.mp hg with rfl | hg
    · simp
    · exact pairs_ne_nil l g hg

theorem pairs_boundary {α : Type} : ∀ (l a b : List α), l = a ++ b →
    (Boundary (pairs l) a ↔ a.length % 2 = 0 ∨ b = [])
  | [], a, b, h => by
    have := List.append_eq_nil_iff.mp h.symm
    simp [this.1, boundary_nil]
  | [x], a, b, h => by
    cases a with
    | nil => simp [boundary_nil]
    | cons y a =>
      simp only [List.cons_append, List.cons.injEq] at h
      have h2 := List.append_eq_nil_iff.mp h.2.symm
      simp only [h2.1, h2.2, or_true, iff_true]
      rw [← h.1]
      exact ⟨1, rfl⟩
  | x :: y :: l, a, b, h => by
    rw [pairs, boundary_cons]
    match a, h with
    | [], _ => simp
    | [_], h =>
      simp only [List.cons_append, List.nil_append, List.cons.injEq] at h
      simp [← h.2]
    | a1 :: a2 :: a, h =>
      simp only [List.cons_append, List.cons.injEq] at h
      obtain ⟨rfl, rfl, h⟩ := h
      have := pairs_boundary l a b h
      rw [show (x :: y :: a).length % 2 = a.length % 2 by simp only [List.length_cons]; omega, ← this]
      constructor
      · rintro (h | ⟨a', h, h2⟩)
        · simp at h
        · simp at h; exact h ▸ h2
      · intro h
        exact .inr ⟨a, rfl, h⟩

/-- The tokens are pairs if there is a boundary at every other position. -/
theorem pairs_unique {ts : List (List Char)} {s : List Char} (h2 : ts.flatten = s) (h3 : ∀ t ∈ ts, t ≠ [])
    (h : ∀ a b, s = a ++ b → a ≠ [] → b ≠ [] → (Boundary ts a ↔ a.length % 2 = 0)) : ts = pairs s := by
  refine boundary_unique (by rw [h2, pairs_flatten]) h3 (pairs_ne_nil s) ?_
  intro a b hab
  rw [h2] at hab
  rw [pairs_boundary s a b hab]
  by_cases ha : a = []
  · simp [ha, boundary_nil]
  by_cases hb : b = []
  · simp only [hb, or_true, iff_true]
    rw [show a = ts.flatten by rw [h2, hab, hb, List.append_nil]]
    exact ⟨ts.length, by simp⟩
  · rw [h a b hab ha hb]
    simp [hb]

theorem forall_indicators {P : Char → Prop} [DecidablePred P]
    (h : ∀ n ∈ List.range 26, P (Char.ofNat (0x1F1E6 + n))) {c : Char} (hc : regionalIndicator c) : P c := by
  obtain ⟨h1, h2⟩ := hc
  have := h (c.toNat - 0x1F1E6) (List.mem_range.mpr (by omega))
  rwa [show 0x1F1E6 + (c.toNat - 0x1F1E6) = c.toNat by omega, Char.ofNat_toNat] at this

theorem graphemes_indicator {c : Char} (hc : regionalIndicator c) : ∀ g, graphemeClasses c g = decide (g = .RegionalIndicator) := by
  rw [graphemeClasses_eq]
  have := forall_indicators (P := fun c => Graphemes.trie.prop c = Graphemes._RegionalIndicator) (by decide +kernel) hc
  rw [this]
  intro g
  cases g <;> decide

theorem words_indicator {c : Char} (hc : regionalIndicator c) : ∀ g, wordClasses c g = decide (g = .RegionalIndicator) := by
  rw [Words.wordClasses_eq]
  have := forall_indicators (P := fun c => Words.trie.prop c = Words._RegionalIndicator) (by decide +kernel) hc
  rw [this]
  intro g
  cases g <;> decide

/-- **C21** Regional indicators pair up from the left, as graphemes -/
theorem C21_graphemes (s : List Char) (hs : ∀ c ∈ s, regionalIndicator c) :
    defaultTokens .graphemes (utf8 s) = .ok ((pairs s).map utf8) := by
  obtain ⟨ts, h1, h2, h3, h4⟩ := C08_conform s
  rw [h1, pairs_unique h2 h3]
  intro a b hab ha hb
  rw [h4 a b hab, graphemeBreak]
  have hleft : ((a.map graphemeClasses).reverse.takeWhile (· .RegionalIndicator)).length = a.length := by
    have : (a.map graphemeClasses).reverse.takeWhile (· .RegionalIndicator) = (a.map graphemeClasses).reverse := by
      refine takeWhile_all fun x hx => ?_
      rw [List.mem_reverse] at hx
      obtain ⟨c, hc, rfl⟩ := List.mem_map.mp hx
      simp [graphemes_indicator (hs c (by simp [hab, hc]))]
    rw [this]; simp
  have hodd : oddIndicators (a.map graphemeClasses).reverse = decide (a.length % 2 = 1) := by
    rw [oddIndicators, hleft]
  have hconj : conjunct (a.map graphemeClasses).reverse = false := by
    obtain ⟨c, l, hl⟩ := List.exists_cons_of_ne_nil (l := a.reverse) (by simpa using ha)
    rw [← List.map_reverse, hl]
    have hc := graphemes_indicator (hs c (by
      have : c ∈ a.reverse := by rw [hl]; simp
      simp [hab, List.mem_reverse.mp this]))
    simp [conjunct, hc]
  have hpict : pictographZwj (a.map graphemeClasses).reverse = false := by
    obtain ⟨c, l, hl⟩ := List.exists_cons_of_ne_nil (l := a.reverse) (by simpa using ha)
    rw [← List.map_reverse, hl]
    have hc := graphemes_indicator (hs c (by
      have : c ∈ a.reverse := by rw [hl]; simp
      simp [hab, List.mem_reverse.mp this]))
    simp [pictographZwj, hc]
  obtain ⟨d, b, rfl⟩ := List.exists_cons_of_ne_nil hb
  have hd := graphemes_indicator (hs d (by simp [hab]))
  have hjoin : graphemeJoins (a.map graphemeClasses).reverse ((d :: b).map graphemeClasses) = decide (a.length % 2 = 1) := by
    obtain ⟨c, l, hl⟩ := List.exists_cons_of_ne_nil (l := a.reverse) (by simpa using ha)
    rw [← List.map_reverse] at hodd hconj hpict ⊢
    have hc := graphemes_indicator (hs c (by
      have : c ∈ a.reverse := by rw [hl]; simp
      simp [hab, List.mem_reverse.mp this]))
    rw [hl] at hodd hconj hpict ⊢
    simp only [List.map_cons] at hodd hconj hpict ⊢
    rw [graphemeJoins, hodd, hconj, hpict]
    simp [hc, hd, GSet.control]
  rw [hjoin]
  simp [ha]

/-- and as words. -/
theorem C21_words (s : List Char) (hs : ∀ c ∈ s, regionalIndicator c) :
    defaultTokens .words (utf8 s) = .ok ((pairs s).map utf8) := by
  obtain ⟨ts, h1, h2, h3, h4⟩ := C09_conform s
  rw [h1, pairs_unique h2 h3]
  intro a b hab ha hb
  rw [h4 a b hab, wordBreak]
  obtain ⟨d, b, rfl⟩ := List.exists_cons_of_ne_nil hb
  have hd := words_indicator (hs d (by simp [hab]))
  have hunits : ∀ l : List Char, (∀ c ∈ l, regionalIndicator c) → units (l.map wordClasses) = l.map wordClasses := by
    intro l
    induction l with
    | nil => intro _; rfl
    | cons c l ih =>
      intro hl
      have hc := words_indicator (hl c (by simp))
      rw [List.map_cons, units_cons_solid (by simp [WSet.ignorable, hc]), ih fun c hc => hl c (List.mem_cons_of_mem _ hc)]
  have hjoin : joins false (a.map wordClasses).reverse ((d :: b).map wordClasses) = decide (a.length % 2 = 1) := by
    have hrev : ∀ c ∈ a.reverse, regionalIndicator c := fun c hc => hs c (by simp [hab, List.mem_reverse.mp hc])
    have hlen : ((a.reverse.map wordClasses).takeWhile (· .RegionalIndicator)).length = a.length := by
      have : (a.reverse.map wordClasses).takeWhile (· .RegionalIndicator) = a.reverse.map wordClasses := by
        refine takeWhile_all fun x hx => ?_
        obtain ⟨c, hc, rfl⟩ := List.mem_map.mp hx
        simp [words_indicator (hrev c hc)]
      rw [this]; simp
    have hu := hunits a.reverse hrev
    rw [← List.map_reverse]
    obtain ⟨c, l, hl⟩ := List.exists_cons_of_ne_nil (l := a.reverse) (by simpa using ha)
    have hc := words_indicator (hrev c (by rw [hl]; simp))
    rw [hl] at hlen hu ⊢
    simp only [List.map_cons] at hlen hu ⊢
    have h2 : ∀ f : WSet → Bool, (∀ c, regionalIndicator c → f (wordClasses c) = false) →
        (l.map wordClasses).head?.any f = false := by
      intro f hf
      cases l with
      | nil => rfl
      | cons e l => exact hf e (hrev e (by rw [hl]; simp))
    rw [joins, hu]
    simp only [unitJoins, hlen, List.head?_cons, Option.any_some, List.tail_cons]
    rw [h2 (· .HebrewLetter) (fun c hc => by simp [words_indicator hc]),
      h2 (· .Numeric) (fun c hc => by simp [words_indicator hc]),
      h2 (·.ahLetter false) (fun c hc => by simp [WSet.ahLetter, words_indicator hc])]
    simp [hc, hd, WSet.newline, WSet.ignorable, WSet.alnum, WSet.ahLetter, WSet.midLetter, WSet.midNum, WSet.midNumLetQ]
  rw [hjoin]
  simp [ha]

-- the flags of Germany and France, and half a flag
example : defaultTokens .graphemes (utf8 ['🇩', '🇪', '🇫', '🇷', '🇩'])
    = .ok [utf8 ['🇩', '🇪'], utf8 ['🇫', '🇷'], utf8 ['🇩']] := by decide +kernel
example : regionalIndicator '🇩' := ⟨by decide, by decide⟩

/-! ## Hangul -/

/-- Each pair of neighbours is in the relation. -/
def Chain (R : Char → Char → Prop) : List Char → Prop
  | a :: b :: l => R a b ∧ Chain R (b :: l)
  | _ => True

theorem chain_all {R : Char → Char → Prop} : ∀ {l : List Char}, (∀ c ∈ l, ∀ d ∈ l, R c d) → Chain R l
  | [], _ => trivial
  | [_], _ => trivial
  | a :: b :: l, h => ⟨h a (by simp) b (by simp),
    chain_all fun c hc d hd => h c (List.mem_cons_of_mem _ hc) d (List.mem_cons_of_mem _ hd)⟩

theorem chain_append {R : Char → Char → Prop} : ∀ {l r : List Char}, Chain R l → Chain R r →
    (∀ c d, l.getLast? = some c → r.head? = some d → R c d) → Chain R (l ++ r)
  | [], _, _, hr, _ => hr
  | [a], [], _, _, _ => trivial
  | [a], b :: r, _, hr, h => ⟨h a b rfl rfl, hr⟩
  | a :: b :: l, r, hl, hr, h => ⟨hl.1, chain_append hl.2 hr fun c d hc hd => h c d (by simpa using hc) hd⟩

theorem chain_get {R : Char → Char → Prop} : ∀ {l x y : List Char} {c d : Char}, Chain R l → l = x ++ c :: d :: y → R c d
  | _, [], _, _, _, h, rfl => h.1
  | _, [_], _, _, _, h, rfl => chain_get (x := []) h.2 rfl
  | _, _ :: b :: x, _, _, _, h, rfl => chain_get (x := b :: x) h.2 rfl

/-- Joined in any context by GB6, GB7 or GB8. -/
def HangulPair (c d : Char) : Prop :=
  (graphemeClasses c).control = false ∧ (graphemeClasses d).control = false ∧
  ((graphemeClasses c .L = true ∧ (graphemeClasses d .L = true ∨ graphemeClasses d .V = true ∨ graphemeClasses d .LV = true
      ∨ graphemeClasses d .LVT = true))
    ∨ ((graphemeClasses c .LV = true ∨ graphemeClasses c .V = true) ∧ (graphemeClasses d .V = true ∨ graphemeClasses d .T = true))
    ∨ ((graphemeClasses c .LVT = true ∨ graphemeClasses c .T = true) ∧ graphemeClasses d .T = true))

theorem OneCluster.of_chain {s : List Char} (h : Chain HangulPair s) : OneCluster s := by
  intro left right x d y hx hne
  have hlast := List.dropLast_concat_getLast hne
  generalize x.getLast hne = c at *
  have hp : HangulPair c d := chain_get h (x := x.dropLast) (c := c) (d := d) (y := y) (by
    rw [hx]
    conv => lhs; rw [← hlast]
    simp)
  rw [← hlast]
  simp only [← List.map_reverse, List.reverse_append, List.reverse_singleton, List.map_cons, List.cons_append]
  obtain ⟨h1, h2, h3⟩ := hp
  rw [graphemeJoins]
  split
  · rfl
  · rw [if_neg (by simp [h1, h2])]
    rcases h3 with ⟨h, h' | h' | h' | h'⟩ | ⟨h | h, h' | h'⟩ | ⟨h | h, h'⟩ <;> simp [h, h']

theorem getLast?_append_ne {l r : List Char} (h : r ≠ []) : (l ++ r).getLast? = r.getLast? := by
  obtain ⟨x, hx⟩ : ∃ x, r.getLast? = some x := ⟨_, List.getLast?_eq_some_getLast h⟩
  simp [List.getLast?_append, hx]

theorem hangul_not_control {c : Char} (h : graphemeClasses c .L = true ∨ graphemeClasses c .V = true
    ∨ graphemeClasses c .T = true ∨ graphemeClasses c .LV = true ∨ graphemeClasses c .LVT = true) :
    (graphemeClasses c).control = false := by
  rw [graphemeClasses_eq] at h ⊢
  exact Graphemes.okValue.all (P := fun v => (gset v .L = true ∨ gset v .V = true ∨ gset v .T = true ∨ gset v .LV = true
    ∨ gset v .LVT = true) → (gset v).control = false) (by decide +kernel)
    (Graphemes.okValue_of (Graphemes.wf.prop_value c)) h

theorem Spec.Hangul.chain {s : List Char} (h : Hangul graphemeClasses s) : Chain HangulPair s ∧ s ≠ [] := by
  have nL : ∀ {c}, graphemeClasses c .L = true → (graphemeClasses c).control = false :=
    fun h => hangul_not_control (.inl h)
  have nV : ∀ {c}, graphemeClasses c .V = true → (graphemeClasses c).control = false :=
    fun h => hangul_not_control (.inr (.inl h))
  have nT : ∀ {c}, graphemeClasses c .T = true → (graphemeClasses c).control = false :=
    fun h => hangul_not_control (.inr (.inr (.inl h)))
  have nLV : ∀ {c}, graphemeClasses c .LV = true → (graphemeClasses c).control = false :=
    fun h => hangul_not_control (.inr (.inr (.inr (.inl h))))
  have nLVT : ∀ {c}, graphemeClasses c .LVT = true → (graphemeClasses c).control = false :=
    fun h => hangul_not_control (.inr (.inr (.inr (.inr h))))
  have cL : ∀ {l : List Char}, (∀ c ∈ l, graphemeClasses c .L = true) → Chain HangulPair l :=
    fun h => chain_all fun c hc d hd => ⟨nL (h c hc), nL (h d hd), .inl ⟨h c hc, .inl (h d hd)⟩⟩
  have cV : ∀ {l : List Char}, (∀ c ∈ l, graphemeClasses c .V = true) → Chain HangulPair l :=
    fun h => chain_all fun c hc d hd => ⟨nV (h c hc), nV (h d hd), .inr (.inl ⟨.inr (h c hc), .inl (h d hd)⟩)⟩
  have cT : ∀ {l : List Char}, (∀ c ∈ l, graphemeClasses c .T = true) → Chain HangulPair l :=
    fun h => chain_all fun c hc d hd => ⟨nT (h c hc), nT (h d hd), .inr (.inr ⟨.inr (h c hc), h d hd⟩)⟩
  cases h with
  | vowels l v t hl hv ht hne =>
    refine ⟨?_, by simp [hne]⟩
    refine chain_append (chain_append (cL hl) (cV hv) ?_) (cT ht) ?_
    · intro c d hc hd
      have hc := hl c (List.mem_of_getLast? hc)
      have hd := hv d (List.mem_of_head? hd)
      exact ⟨nL hc, nV hd, .inl ⟨hc, .inr (.inl hd)⟩⟩
    · intro c d hc hd
      rw [getLast?_append_ne hne] at hc
      have hc := hv c (List.mem_of_getLast? hc)
      have hd := ht d (List.mem_of_head? hd)
      exact ⟨nV hc, nT hd, .inr (.inl ⟨.inr hc, .inr hd⟩)⟩
  | lv l v t x hl hx hv ht =>
    refine ⟨?_, by simp⟩
    have hmem : ∀ c ∈ x :: v, graphemeClasses c .LV = true ∨ graphemeClasses c .V = true := by
      intro c hc
      rcases List.mem_cons.mp hc with rfl | hc
      · exact .inl hx
      · exact .inr (hv c hc)
    refine chain_append (chain_append (cL hl) (chain_append (l := [x]) trivial (cV hv) ?_) ?_) (cT ht) ?_
    · intro c d hc hd
      simp only [List.getLast?_singleton, Option.some.injEq] at hc
      subst hc
      have hd := hv d (List.mem_of_head? hd)
      exact ⟨nLV hx, nV hd, .inr (.inl ⟨.inl hx, .inl hd⟩)⟩
    · intro c d hc hd
      have hc := hl c (List.mem_of_getLast? hc)
      simp only [List.head?_cons, Option.some.injEq] at hd
      subst hd
      exact ⟨nL hc, nLV hx, .inl ⟨hc, .inr (.inr (.inl hx))⟩⟩
    · intro c d hc hd
      rw [getLast?_append_ne (by simp)] at hc
      have hc := hmem c (List.mem_of_getLast? hc)
      have hd := ht d (List.mem_of_head? hd)
      rcases hc with hc | hc
      · exact ⟨nLV hc, nT hd, .inr (.inl ⟨.inl hc, .inr hd⟩)⟩
      · exact ⟨nV hc, nT hd, .inr (.inl ⟨.inr hc, .inr hd⟩)⟩
  | lvt l t x hl hx ht =>
    refine ⟨?_, by simp⟩
    refine chain_append (cL hl) (chain_append (l := [x]) trivial (cT ht) ?_) ?_
    · intro c d hc hd
      simp only [List.getLast?_singleton, Option.some.injEq] at hc
      subst hc
      have hd := ht d (List.mem_of_head? hd)
      exact ⟨nLVT hx, nT hd, .inr (.inr ⟨.inl hx, hd⟩)⟩
    · intro c d hc hd
      have hc := hl c (List.mem_of_getLast? hc)
      simp only [List.head?_cons, Option.some.injEq] at hd
      subst hd
      exact ⟨nL hc, nLVT hx, .inl ⟨hc, .inr (.inr (.inr hx))⟩⟩
  | leading l hl hne => exact ⟨cL hl, hne⟩
  | trailing t ht hne => exact ⟨cT ht, hne⟩

/-- **C23** A Hangul syllable block is one grapheme, -/
theorem C23_hangul (s : List Char) (h : Hangul graphemeClasses s) :
    defaultTokens .graphemes (utf8 s) = .ok [utf8 s] := (OneCluster.of_chain h.chain.1).one h.chain.2

/-- it has no boundary within it in any text, -/
theorem C23_context (s : List Char) (h : Hangul graphemeClasses s) (left right : List Char) :
    ∃ ts : List (List Char), defaultTokens .graphemes (utf8 (left ++ s ++ right)) = .ok (ts.map utf8)
      ∧ ts.flatten = left ++ s ++ right
      ∧ ∀ x y, s = x ++ y → x ≠ [] → y ≠ [] → ¬ Boundary ts (left ++ x) :=
  (OneCluster.of_chain h.chain.1).inside left right

/-- The entries from number `n` on are right for precomposed syllables. -/
def syllablesFrom (n : Nat) : List Nat → Bool
  | [] => true
  | v :: l => (decide (11172 ≤ n) || v == if n % 28 = 0 then Graphemes._LV else Graphemes._LVT) && syllablesFrom (n + 1) l

theorem syllablesFrom_get : ∀ {l : List Nat} {n i v : Nat}, syllablesFrom n l = true → l[i]? = some v → n + i < 11172 →
    v = if (n + i) % 28 = 0 then Graphemes._LV else Graphemes._LVT
  | [], _, _, _, _, h, _ => by simp at h
  | w :: l, n, 0, v, h, hv, hn => by
    simp only [List.getElem?_cons_zero, Option.some.injEq] at hv
    subst hv
    simp only [syllablesFrom, Bool.and_eq_true, Bool.or_eq_true, decide_eq_true_eq, beq_iff_eq] at h
    rcases h.1 with h1 | h1
    · omega
    · exact h1
  | w :: l, n, i + 1, v, h, hv, hn => by
    simp only [syllablesFrom, Bool.and_eq_true] at h
    have := syllablesFrom_get h.2 (by simpa using hv) (by omega)
    rwa [show n + 1 + i = n + (i + 1) by omega] at this

theorem syllables : (List.range 175).all (fun k =>
    let b := Graphemes.trie.block (Graphemes.trie.page (688 + k))
    b.length == 64 && syllablesFrom (k * 64) b) = true := by decide +kernel

/-- and a precomposed syllable is an LV if `(c - 0xAC00) mod 28` is 0, and an LVT otherwise. -/
theorem C23_precomposed (c : Char) (h1 : 0xAC00 ≤ c.toNat) (h2 : c.toNat ≤ 0xD7A3) :
    ∀ g, graphemeClasses c g = decide (g = if (c.toNat - 0xAC00) % 28 = 0 then .LV else .LVT) := by
  have hc : c.toNat = c.val.toNat := rfl
  rw [hc] at h1 h2 ⊢
  rw [graphemeClasses_eq, Graphemes.wf.prop_page, entry_block _ (Nat.mod_lt _ (by decide))]
  have h := List.all_eq_true.mp syllables (c.val.toNat / 64 - 688) (List.mem_range.mpr (by omega))
  simp only [Bool.and_eq_true, beq_iff_eq] at h
  rw [show 688 + (c.val.toNat / 64 - 688) = c.val.toNat / 64 by omega] at h
  obtain ⟨h3, h4⟩ := h
  generalize Graphemes.trie.block (Graphemes.trie.page (c.val.toNat / 64)) = b at *
  have hlt : c.val.toNat % 64 < b.length := by rw [h3]; exact Nat.mod_lt _ (by decide)
  have hget := List.getElem?_eq_getElem hlt
  have := syllablesFrom_get h4 hget (by omega)
  rw [hget, Option.getD_some, this, show (c.val.toNat / 64 - 688) * 64 + c.val.toNat % 64 = c.val.toNat - 0xAC00 by omega]
  intro g
  split <;> cases g <;> decide

-- leading consonants, a precomposed syllable and trailing consonants
example : Hangul graphemeClasses ['ᄀ', 'ᄀ', '가', 'ᅡ', 'ᆨ'] :=
  .lv ['ᄀ', 'ᄀ'] ['ᅡ'] ['ᆨ'] '가' (by decide +kernel) (by decide +kernel) (by decide +kernel) (by decide +kernel)
example : defaultTokens .graphemes (utf8 ['ᄀ', 'ᄀ', '가', 'ᅡ', 'ᆨ']) = .ok [utf8 ['ᄀ', 'ᄀ', '가', 'ᅡ', 'ᆨ']] := by
  decide +kernel
-- two syllables
example : defaultTokens .graphemes (utf8 ['각', '가']) = .ok [utf8 ['각'], utf8 ['가']] := by decide +kernel

/-! ## ASCII -/

theorem asciiGraphemes_flatten : ∀ l : List UInt8, (asciiGraphemes l).flatten = l
  | [] => rfl
  | [_] => rfl
  | a :: b :: l => by
    rw [asciiGraphemes]
    split
    · simp [asciiGraphemes_flatten l]
    · simp [asciiGraphemes_flatten (b :: l)]

/-- The rules between ASCII characters. -/
theorem ascii_joins (a b : UInt8) (ha : a < 0x80) (hb : b < 0x80) (left right : List Nat) :
    Graphemes.J (Graphemes.trie.ascii a :: left) (Graphemes.trie.ascii b :: right) = decide (a = 0x0D ∧ b = 0x0A) := by
  have h : ∀ a : UInt8, a < 0x80 → gset (Graphemes.trie.ascii a) .CR = decide (a = 0x0D)
      ∧ gset (Graphemes.trie.ascii a) .LF = decide (a = 0x0A)
      ∧ ∀ g ∈ [GB.Extend, .ZWJ, .RegionalIndicator, .Prepend, .SpacingMark, .L, .V, .T, .LV, .LVT, .InCBConsonant,
          .InCBExtend, .InCBLinker], gset (Graphemes.trie.ascii a) g = false := by
    intro a ha
    have := forall_uint8 (P := fun a => decide (0x80 ≤ a) || decide (gset (Graphemes.trie.ascii a) .CR = decide (a = 0x0D)
      ∧ gset (Graphemes.trie.ascii a) .LF = decide (a = 0x0A)
      ∧ ∀ g ∈ [GB.Extend, .ZWJ, .RegionalIndicator, .Prepend, .SpacingMark, .L, .V, .T, .LV, .LVT, .InCBConsonant,
          .InCBExtend, .InCBLinker], gset (Graphemes.trie.ascii a) g = false)) (by decide +kernel) a
    simp only [Bool.or_eq_true, decide_eq_true_eq] at this
    rcases this with h' | h'
    · exact absurd ha (UInt8.not_lt.mpr h')
    · exact h'
  obtain ⟨a1, _, a3⟩ := h a ha
  obtain ⟨_, b2, b3⟩ := h b hb
  simp only [List.forall_mem_cons] at a3 b3
  rw [Graphemes.J, List.map_cons, List.map_cons, graphemeJoins, a1, b2]
  by_cases hab : a = 0x0D ∧ b = 0x0A
  · rw [if_pos (by simp [hab.1, hab.2]), decide_eq_true hab]
  · rw [if_neg (by simpa using hab), decide_eq_false hab]
    split
    · rfl
    · simp [a3, b3, conjunct, pictographZwj]

theorem ascii_adv (a : UInt8) (ha : a < 0x80) (rest : Bytes) (hr : ∀ b ∈ rest, b < 0x80) :
    splitAdv Graphemes.splitFunc (a :: rest) = if a = 0x0D ∧ rest.head? = some 0x0A then 2 else 1 := by
  have hdec := Graphemes.wf.decodes_ascii (.nil : Decodes Graphemes.trie [] [] []) (a :: rest) (by
    intro x hx
    rcases List.mem_cons.mp hx with rfl | hx
    · exact UInt8.lt_iff_toNat_lt.mp ha
    · exact UInt8.lt_iff_toNat_lt.mp (hr x hx))
  rw [List.append_nil, List.append_nil] at hdec
  have := Graphemes.follows _ _ _ (by simp) hdec
  rw [this]
  have hmap : ∀ l : Bytes, ((l.map fun b => (Graphemes.trie.ascii b, [b])).map Prod.fst) = l.map Graphemes.trie.ascii := by
    intro l; rw [List.map_map]; rfl
  have hf : firstChunks Prod.fst Prod.fst Graphemes.J ((a :: rest).map fun b => (Graphemes.trie.ascii b, [b]))
      = if a = 0x0D ∧ rest.head? = some 0x0A then 2 else 1 := by
    rw [List.map_cons, firstChunks, hmap]
    match rest, hr with
    | [], _ => simp [grow]
    | [b], hr =>
      simp only [List.map_cons, List.map_nil, grow, ascii_joins a b ha (hr b (by simp))]
      by_cases hab : a = 0x0D ∧ b = 0x0A <;> simp [hab]
    | b :: c :: rest, hr =>
      simp only [List.map_cons, grow, ascii_joins a b ha (hr b (by simp)),
        ascii_joins b c (hr b (by simp)) (hr c (by simp))]
      by_cases hab : a = 0x0D ∧ b = 0x0A
      · have : ¬ (b = 0x0D ∧ c = 0x0A) := by rintro ⟨h, _⟩; rw [hab.2] at h; cases h
        simp [hab]
      · simp [hab]
  simp only [hf]
  rw [← List.map_take, bytes_ascii, List.length_take]
  by_cases hab : a = 0x0D ∧ rest.head? = some 0x0A
  · cases rest with
    | nil => simp at hab
    | cons b rest => simp only [hab, and_self, if_true]; simp
  · simp only [if_neg hab]; simp

/-- **C40** The graphemes of ASCII text are its bytes, except that each CR LF is one grapheme. -/
theorem C40_ascii (data : Bytes) (h : ∀ b ∈ data, b < 0x80) :
    defaultTokens .graphemes data = .ok (asciiGraphemes data) := by
  rw [graphemes_segs]
  congr 1
  have hg := goodAdv_of_good Graphemes.splitFunc_good
  fun_induction asciiGraphemes data with
  | case1 => exact segs_nil _
  | case2 a =>
    rw [hg.segs_cons (by simp), ascii_adv a (h a (by simp)) [] (by simp)]
    simp [segs_nil]
  | case3 a b l hab ih =>
    rw [hg.segs_cons (by simp), ascii_adv a (h a (by simp)) (b :: l) (fun x hx => h x (List.mem_cons_of_mem _ hx)),
      if_pos (by simpa using hab)]
    simp only [List.take_succ_cons, List.take_zero, List.drop_succ_cons, List.drop_zero]
    rw [ih fun x hx => h x (List.mem_cons_of_mem _ (List.mem_cons_of_mem _ hx))]
  | case4 a b l hab ih =>
    rw [hg.segs_cons (by simp), ascii_adv a (h a (by simp)) (b :: l) (fun x hx => h x (List.mem_cons_of_mem _ hx)),
      if_neg (by simpa using hab)]
    simp only [List.take_succ_cons, List.take_zero, List.drop_succ_cons, List.drop_zero]
    rw [ih fun x hx => h x (List.mem_cons_of_mem _ hx)]

example : asciiGraphemes [0x61, 0x0D, 0x0A, 0x0A, 0x0D] = [[0x61], [0x0D, 0x0A], [0x0A], [0x0D]] := by decide +kernel

end Uax29
