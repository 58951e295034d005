import Verif.Proofs.Boundaries
import Verif.Proofs.Pages
import Verif.Props.Graphemes
import Verif.Props.Words
import Verif.Props.Phrases
import Verif.Props.Sentences
/-! # Line ends and control characters: C19 -/
namespace Uax29
open Spec

/-! ## The characters CR and LF are the only ones with their class -/

theorem Graphemes.cr_only {c : Char} (h : graphemeClasses c .CR = true) : c = '\r' := by
  rw [graphemeClasses_eq] at h
  refine forall_ascii (P := fun c => gset (trie.prop c) .CR = true → c = '\r') (by decide +kernel) ?_ h
  exact wf.prop_low (q := fun v => gset v .CR) (by decide) (by decide +kernel) h

theorem Graphemes.lf_only {c : Char} (h : graphemeClasses c .LF = true) : c = '\n' := by
  rw [graphemeClasses_eq] at h
  refine forall_ascii (P := fun c => gset (trie.prop c) .LF = true → c = '\n') (by decide +kernel) ?_ h
  exact wf.prop_low (q := fun v => gset v .LF) (by decide) (by decide +kernel) h

theorem Words.cr_only {c : Char} (h : wordClasses c .CR = true) : c = '\r' := by
  rw [wordClasses_eq] at h
  refine forall_ascii (P := fun c => wset (trie.prop c) .CR = true → c = '\r') (by decide +kernel) ?_ h
  exact wf.prop_low (q := fun v => wset v .CR) (by decide) (by decide +kernel) h

theorem Words.lf_only {c : Char} (h : wordClasses c .LF = true) : c = '\n' := by
  rw [wordClasses_eq] at h
  refine forall_ascii (P := fun c => wset (trie.prop c) .LF = true → c = '\n') (by decide +kernel) ?_ h
  exact wf.prop_low (q := fun v => wset v .LF) (by decide) (by decide +kernel) h

theorem Phrases.cr_only {c : Char} (h : phraseClasses c .CR = true) : c = '\r' := by
  rw [phraseClasses_eq] at h
  refine forall_ascii (P := fun c => pset (trie.prop c) .CR = true → c = '\r') (by decide +kernel) ?_ h
  exact wf.prop_low (q := fun v => pset v .CR) (by decide) (by decide +kernel) h

theorem Phrases.lf_only {c : Char} (h : phraseClasses c .LF = true) : c = '\n' := by
  rw [phraseClasses_eq] at h
  refine forall_ascii (P := fun c => pset (trie.prop c) .LF = true → c = '\n') (by decide +kernel) ?_ h
  exact wf.prop_low (q := fun v => pset v .LF) (by decide) (by decide +kernel) h

theorem Sentences.cr_only {c : Char} (h : sentenceClass c = .CR) : c = '\r' := by
  rw [sentenceClass_eq] at h
  refine forall_ascii (P := fun c => sclass (trie.prop c) = .CR → c = '\r') (by decide +kernel) ?_ h
  exact wf.prop_low (q := fun v => decide (sclass v = .CR)) (by decide) (by decide +kernel) (decide_eq_true h)

theorem Sentences.lf_only {c : Char} (h : sentenceClass c = .LF) : c = '\n' := by
  rw [sentenceClass_eq] at h
  refine forall_ascii (P := fun c => sclass (trie.prop c) = .LF → c = '\n') (by decide +kernel) ?_ h
  exact wf.prop_low (q := fun v => decide (sclass v = .LF)) (by decide) (by decide +kernel) (decide_eq_true h)

/-! ## Line ends -/

/-- In each pair of neighbours the first is CR and the second LF, or none is a control. -/
def Calm (ctl : Char → Prop) (t : List Char) : Prop :=
  ∀ x c d y, t = x ++ c :: d :: y → (c = '\r' ∧ d = '\n') ∨ (¬ ctl c ∧ ¬ ctl d)

theorem calm_alone {ctl : Char → Prop} (hcr : ctl '\r') (hlf : ctl '\n') : ∀ {t : List Char}, Calm ctl t →
    (∃ c, t = [c]) ∨ t = ['\r', '\n'] ∨ ∀ c ∈ t, ¬ ctl c
  | [], _ => by simp
  | [c], _ => by simp
  | c :: d :: t, h => by
    have h1 := h [] c d t rfl
    have htail : Calm ctl (d :: t) := by
      intro x c' d' y hx
      exact h (c :: x) c' d' y (by rw [hx]; rfl)
    rcases h1 with ⟨rfl, rfl⟩ | ⟨h1, h2⟩
    · right; left
      cases t with
      | nil => rfl
      | cons e t =>
        rcases htail [] '\n' e t rfl with ⟨h3, _⟩ | ⟨h3, _⟩
        · cases h3
        · exact absurd hlf h3
    · right; right
      rcases calm_alone hcr hlf htail with ⟨c', h3⟩ | h3 | h3
      · simp only [List.cons.injEq] at h3
        obtain ⟨rfl, rfl⟩ := h3
        intro x hx
        simp only [List.mem_cons, List.not_mem_nil, or_false] at hx
        rcases hx with rfl | rfl
        · exact h1
        · exact h2
      · simp only [List.cons.injEq] at h3
        rw [h3.1] at h2
        exact absurd hcr h2
      · intro x hx
        rcases List.mem_cons.mp hx with rfl | hx
        · exact h1
        · exact h3 x hx

theorem lines_alone {ctl : Char → Prop} (hcr : ctl '\r') (hlf : ctl '\n') {ts : List (List Char)}
    (hb : ∀ a c d b, ts.flatten = (a ++ [c]) ++ d :: b → (ctl c ∨ ctl d) → ¬ (c = '\r' ∧ d = '\n') →
      Boundary ts (a ++ [c])) :
    ∀ t ∈ ts, ∀ c ∈ t, ctl c → t = [c] ∨ t = ['\r', '\n'] := by
  intro t ht c hc hctl
  obtain ⟨A, B, rfl⟩ := List.append_of_mem ht
  have hcalm : Calm ctl t := by
    intro x c d y hx
    apply Classical.byContradiction
    intro hn
    have := hb (A.flatten ++ x) c d (y ++ B.flatten) (by simp [hx]) (by
      apply Classical.byContradiction
      intro h
      exact hn (.inr ⟨fun h1 => h (.inl h1), fun h1 => h (.inr h1)⟩)) (fun h => hn (.inl h))
    have h2 := boundary_inside (x := x ++ [c]) (y := d :: y) (by simp) (by simp) B A
    rw [show (x ++ [c]) ++ d :: y = t by simp [hx]] at h2
    rw [List.append_assoc] at this
    exact h2 this
  rcases calm_alone hcr hlf hcalm with ⟨c', h⟩ | h | h
  · rw [h, List.mem_singleton] at hc
    left; rw [h, hc]
  · exact .inr h
  · exact absurd hctl (h c hc)

theorem graphemeBreak_pair (a : List Char) (c d : Char) (b : List Char) :
    graphemeBreak ((a ++ [c]).map graphemeClasses) ((d :: b).map graphemeClasses)
      = !graphemeJoins (graphemeClasses c :: (a.map graphemeClasses).reverse) (graphemeClasses d :: b.map graphemeClasses) := by
  simp [graphemeBreak]

theorem wordBreak_pair (f : Char → WSet) (a : List Char) (c d : Char) (b : List Char) :
    wordBreak ((a ++ [c]).map f) ((d :: b).map f)
      = !joins false (f c :: (a.map f).reverse) (f d :: b.map f) := by
  simp [wordBreak]

theorem phraseBreak_pair (f : Char → WSet) (a : List Char) (c d : Char) (b : List Char) :
    phraseBreak ((a ++ [c]).map f) ((d :: b).map f)
      = !joins true (f c :: (a.map f).reverse) (f d :: b.map f) := by
  simp [phraseBreak]

/-- **C19** A CR LF pair is never separated. -/
theorem C19_pair (p : Pkg) (s : List Char) :
    ∃ ts : List (List Char), defaultTokens p (utf8 s) = .ok (ts.map utf8) ∧ ts.flatten = s
      ∧ ∀ a b, s = a ++ '\r' :: '\n' :: b → ¬ Boundary ts (a ++ ['\r']) := by
  cases p with
  | graphemes =>
    obtain ⟨ts, h1, h2, _, h4⟩ := C08_conform s
    refine ⟨ts, h1, h2, fun a b hab => ?_⟩
    rw [h4 (a ++ ['\r']) ('\n' :: b) (by simp [hab]), graphemeBreak_pair]
    have k1 : graphemeClasses '\r' .CR = true := by decide +kernel
    have k2 : graphemeClasses '\n' .LF = true := by decide +kernel
    simp [graphemeJoins, k1, k2]
  | words =>
    obtain ⟨ts, h1, h2, _, h4⟩ := C09_conform s
    refine ⟨ts, h1, h2, fun a b hab => ?_⟩
    rw [h4 (a ++ ['\r']) ('\n' :: b) (by simp [hab]), wordBreak_pair]
    have k1 : wordClasses '\r' .CR = true := by decide +kernel
    have k2 : wordClasses '\n' .LF = true := by decide +kernel
    simp [joins, k1, k2]
  | phrases =>
    obtain ⟨ts, h1, h2, _, h4⟩ := C11_conform s
    refine ⟨ts, h1, h2, fun a b hab => ?_⟩
    rw [h4 (a ++ ['\r']) ('\n' :: b) (by simp [hab]), phraseBreak_pair]
    have k1 : phraseClasses '\r' .CR = true := by decide +kernel
    have k2 : phraseClasses '\n' .LF = true := by decide +kernel
    simp [joins, k1, k2]
  | sentences =>
    obtain ⟨ts, h1, h2, _, h4⟩ := C10_conform s
    refine ⟨ts, h1, h2, fun a b hab => ?_⟩
    rw [h4 (a ++ ['\r']) ('\n' :: b) (by simp [hab])]
    have k1 : sentenceClass '\r' = .CR := by decide +kernel
    have k2 : sentenceClass '\n' = .LF := by decide +kernel
    simp [sentenceBreak, sjoins, sjoinsIf, k1, k2]

/-- **C19** A grapheme that contains a control character, CR or LF is just that character, or CR LF. -/
theorem C19_graphemes (s : List Char) :
    ∃ ts : List (List Char), defaultTokens .graphemes (utf8 s) = .ok (ts.map utf8) ∧ ts.flatten = s
      ∧ ∀ t ∈ ts, ∀ c ∈ t, (c = '\r' ∨ c = '\n' ∨ graphemeClasses c .Control = true) → t = [c] ∨ t = ['\r', '\n'] := by
  obtain ⟨ts, h1, h2, _, h4⟩ := C08_conform s
  refine ⟨ts, h1, h2, ?_⟩
  have k1 : graphemeClasses '\r' .CR = true := by decide +kernel
  have k2 : graphemeClasses '\n' .LF = true := by decide +kernel
  have := lines_alone (ctl := fun c => (graphemeClasses c).control = true) (ts := ts)
    (by simp [GSet.control, k1]) (by simp [GSet.control, k2]) (by
      intro a c d b hab hctl hn
      rw [h4 (a ++ [c]) (d :: b) (by rw [← h2, hab]), graphemeBreak_pair]
      have h3 : (graphemeClasses c .CR && graphemeClasses d .LF) = false := by
        cases h5 : (graphemeClasses c .CR && graphemeClasses d .LF)
        · rfl
        · rw [Bool.and_eq_true] at h5
          exact absurd ⟨Graphemes.cr_only h5.1, Graphemes.lf_only h5.2⟩ hn
      rw [graphemeJoins, h3, if_neg (by simp), if_pos (by simpa using hctl)]
      rfl)
  intro t ht c hc h
  refine this t ht c hc ?_
  rcases h with rfl | rfl | h
  · simp [GSet.control, k1]
  · simp [GSet.control, k2]
  · simp [GSet.control, h]

example : defaultTokens .graphemes (utf8 ['a', '\r', '\n', '\n', '\r', '́', '\u0001', '́'])
    = .ok [utf8 ['a'], utf8 ['\r', '\n'], utf8 ['\n'], utf8 ['\r'], utf8 ['́'], utf8 ['\u0001'], utf8 ['́']] := by
  decide +kernel

/-- **C19** A word that contains CR, LF or another newline is just that character, or CR LF. -/
theorem C19_words (s : List Char) :
    ∃ ts : List (List Char), defaultTokens .words (utf8 s) = .ok (ts.map utf8) ∧ ts.flatten = s
      ∧ ∀ t ∈ ts, ∀ c ∈ t, (c = '\r' ∨ c = '\n' ∨ wordClasses c .Newline = true) → t = [c] ∨ t = ['\r', '\n'] := by
  obtain ⟨ts, h1, h2, _, h4⟩ := C09_conform s
  refine ⟨ts, h1, h2, ?_⟩
  have k1 : wordClasses '\r' .CR = true := by decide +kernel
  have k2 : wordClasses '\n' .LF = true := by decide +kernel
  have := lines_alone (ctl := fun c => (wordClasses c).newline = true) (ts := ts)
    (by simp [WSet.newline, k1]) (by simp [WSet.newline, k2]) (by
      intro a c d b hab hctl hn
      rw [h4 (a ++ [c]) (d :: b) (by rw [← h2, hab]), wordBreak_pair]
      have h3 : (wordClasses c .CR && wordClasses d .LF) = false := by
        cases h5 : (wordClasses c .CR && wordClasses d .LF)
        · rfl
        · rw [Bool.and_eq_true] at h5
          exact absurd ⟨Words.cr_only h5.1, Words.lf_only h5.2⟩ hn
      rw [joins, h3, if_neg (by simp), if_pos (by simpa using hctl)]
      rfl)
  intro t ht c hc h
  refine this t ht c hc ?_
  rcases h with rfl | rfl | h
  · simp [WSet.newline, k1]
  · simp [WSet.newline, k2]
  · simp [WSet.newline, h]

example : defaultTokens .words (utf8 ['a', '\r', '\n', '\n', '\r', '́', 'a', ' ', 'a'])
    = .ok [utf8 ['a'], utf8 ['\r', '\n'], utf8 ['\n'], utf8 ['\r'], utf8 ['́'], utf8 ['a'], utf8 [' '], utf8 ['a']] := by
  decide +kernel

/-- The same holds for phrases. -/
theorem C19_phrases (s : List Char) :
    ∃ ts : List (List Char), defaultTokens .phrases (utf8 s) = .ok (ts.map utf8) ∧ ts.flatten = s
      ∧ ∀ t ∈ ts, ∀ c ∈ t, (c = '\r' ∨ c = '\n' ∨ phraseClasses c .Newline = true) → t = [c] ∨ t = ['\r', '\n'] := by
  obtain ⟨ts, h1, h2, _, h4⟩ := C11_conform s
  refine ⟨ts, h1, h2, ?_⟩
  have k1 : phraseClasses '\r' .CR = true := by decide +kernel
  have k2 : phraseClasses '\n' .LF = true := by decide +kernel
  have := lines_alone (ctl := fun c => (phraseClasses c).newline = true) (ts := ts)
    (by simp [WSet.newline, k1]) (by simp [WSet.newline, k2]) (by
      intro a c d b hab hctl hn
      rw [h4 (a ++ [c]) (d :: b) (by rw [← h2, hab]), phraseBreak_pair]
      have h3 : (phraseClasses c .CR && phraseClasses d .LF) = false := by
        cases h5 : (phraseClasses c .CR && phraseClasses d .LF)
        · rfl
        · rw [Bool.and_eq_true] at h5
          exact absurd ⟨Phrases.cr_only h5.1, Phrases.lf_only h5.2⟩ hn
      rw [joins, h3, if_neg (by simp), if_pos (by simpa using hctl)]
      rfl)
  intro t ht c hc h
  refine this t ht c hc ?_
  rcases h with rfl | rfl | h
  · simp [WSet.newline, k1]
  · simp [WSet.newline, k2]
  · simp [WSet.newline, h]

/-- A sentence ends with its first CR LF, CR, LF or other separator. -/
theorem C19_sentences (s : List Char) :
    ∃ ts : List (List Char), defaultTokens .sentences (utf8 s) = .ok (ts.map utf8) ∧ ts.flatten = s
      ∧ ∀ t ∈ ts, ∀ x c y, t = x ++ c :: y → (c = '\r' ∨ c = '\n' ∨ sentenceClass c = .Sep) →
        y = [] ∨ (c = '\r' ∧ y = ['\n']) := by
  obtain ⟨ts, h1, h2, _, h4⟩ := C10_conform s
  refine ⟨ts, h1, h2, ?_⟩
  have k1 : sentenceClass '\r' = .CR := by decide +kernel
  have k2 : sentenceClass '\n' = .LF := by decide +kernel
  have key : ∀ A t B x c d y, ts = A ++ t :: B → t = x ++ c :: d :: y → (sentenceClass c).paraSep = true →
      c = '\r' ∧ d = '\n' := by
    intro A t B x c d y hAB hx hc
    apply Classical.byContradiction
    intro hn
    have h6 := boundary_inside (x := x ++ [c]) (y := d :: y) (by simp) (by simp) B A
    rw [show (x ++ [c]) ++ d :: y = t by simp [hx], ← hAB] at h6
    refine h6 ?_
    rw [h4 _ (d :: y ++ B.flatten) (by rw [← h2, hAB]; simp [hx])]
    have h3 : ¬ (sentenceClass c = .CR ∧ sentenceClass d = .LF) :=
      fun h5 => hn ⟨Sentences.cr_only h5.1, Sentences.lf_only h5.2⟩
    simp [sentenceBreak, sjoins, sjoinsIf, h3, hc]
  intro t ht x c y hx hc
  obtain ⟨A, B, hAB⟩ := List.append_of_mem ht
  have hc' : (sentenceClass c).paraSep = true := by
    rcases hc with rfl | rfl | h
    · rw [k1]; rfl
    · rw [k2]; rfl
    · rw [h]; rfl
  cases y with
  | nil => exact .inl rfl
  | cons d y =>
    right
    obtain ⟨rfl, rfl⟩ := key A t B x c d y hAB hx hc'
    refine ⟨rfl, ?_⟩
    cases y with
    | nil => rfl
    | cons e y =>
      have := key A t B (x ++ ['\r']) '\n' e y hAB (by simp [hx]) (by rw [k2]; rfl)
      cases this.1

example : defaultTokens .sentences (utf8 ['a', '\r', '\n', 'b', '\n', '\r', 'c'])
    = .ok [utf8 ['a', '\r', '\n'], utf8 ['b', '\n'], utf8 ['\r'], utf8 ['c']] := by decide +kernel

end Uax29
