import Verif.Props.RunLength
import Verif.Props.GenTestText
/-! # C102: the kinds of characters that may be repeated, exactly -/
set_option maxRecDepth 20000
namespace Uax29
open Spec

theorem Spec.Stretches.twice {K : Type} {cl : Char → K} {forms : K → Bool} {c : Char} (h : forms (cl c) = true) :
    Stretches cl forms (twice c) := by
  intro d
  unfold Spec.twice
  by_cases e : d = c
  · subst e; exact .inr ⟨h, by simp, by simp⟩
  · exact .inl (by simp [e])

theorem expand_twice (c : Char) : expand (twice c) [c] = [c, c] := by simp [expand, twice]

/-- A token in which a repetition makes a boundary. -/
theorem repeat_divides {p : Pkg} {f : Char → List Char} {K : Type} {J : List K → List K → Bool} {cl : Char → K}
    (h : ∀ s : List Char, ∃ ts : List (List Char), defaultTokens p (utf8 s) = .ok (ts.map utf8)
        ∧ ts.flatten = s ∧ (∀ w ∈ ts, w ≠ [])
        ∧ ∀ x y, s = x ++ y → (Boundary ts x ↔ breakOf J (x.map cl) (y.map cl) = true))
    (all : ∀ s, ∃ ts : List (List Char), defaultTokens p (utf8 s) = .ok (ts.map utf8) ∧ ts.flatten = s
      ∧ defaultTokens p (utf8 (expand f s)) = .ok (ts.map fun t => utf8 (expand f t)))
    {s a b : List Char} (hs : ∀ x y, s = x ++ y → x ≠ [] → y ≠ [] → J (x.map cl).reverse (y.map cl) = true)
    (hab : expand f s = a ++ b) (ha : a ≠ []) (hb : b ≠ []) : J (a.map cl).reverse (b.map cl) = true := by
  obtain ⟨ts, h0, h1, h2⟩ := all s
  obtain ⟨us, k0, k1, k2, k3⟩ := h s
  obtain ⟨vs, l0, l1, l2, l3⟩ := h (expand f s)
  have inj : ∀ {x y : List (List Char)}, x.map utf8 = y.map utf8 → x = y :=
    fun e => (List.map_inj_right fun _ _ => utf8_inj).mp e
  have e1 : ts = us := inj (by rw [k0] at h0; exact (Except.ok.inj h0).symm)
  subst e1
  have e2 : vs = ts.map (expand f) := inj (by rw [l0] at h2; rw [Except.ok.inj h2, List.map_map]; rfl)
  subst e2
  -- the text is one token
  have one : ts = [s] := by
    match ts, k1, k2, k3 with
    | [], k1, k2, k3 =>
      exfalso
      have : s = [] := k1.symm
      subst this
      have : a = [] := (List.append_eq_nil_iff.mp hab.symm).1
      exact ha this
    | [t], k1, k2, k3 => rw [← k1]; simp
    | t :: u :: ts, k1, k2, k3 =>
      exfalso
      have n1 := k2 t (by simp)
      have n2 := k2 u (by simp)
      have e : s = t ++ (u :: ts).flatten := by rw [← k1]; rfl
      have n3 : (u :: ts).flatten ≠ [] := by simp [n2]
      have := (k3 t _ e).mp ⟨1, by simp⟩
      simp only [breakOf, Bool.or_eq_true, List.isEmpty_iff, List.map_eq_nil_iff, n1, n3, false_or,
        hs _ _ e n1 n3] at this
      simp at this
  subst one
  by_cases hJ : J (a.map cl).reverse (b.map cl) = true
  · exact hJ
  · exfalso
    obtain ⟨n, hn⟩ := (l3 a b hab).mpr (by simp [breakOf, hJ])
    cases n with
    | zero => exact ha (by simpa using hn.symm)
    | succ n =>
      have : expand f s = a := by simpa using hn
      rw [this] at hab
      exact hb (by simpa using hab.symm)

theorem one_part {α : Type} {c : α} {x y : List α} (e : [c] = x ++ y) (hx : x ≠ []) (hy : y ≠ []) : False := by
  have := congrArg List.length e
  have := List.length_pos_iff.mpr hx
  have := List.length_pos_iff.mpr hy
  simp at *
  omega

theorem two_parts {α : Type} {c d : α} {x y : List α} (e : [c, d] = x ++ y) (hx : x ≠ []) (hy : y ≠ []) :
    x = [c] ∧ y = [d] := by
  match x, y with
  | [], _ => exact absurd rfl hx
  | _, [] => exact absurd rfl hy
  | [x], y => simp at e; simp [e]
  | x :: x' :: xs, y :: ys => exact absurd (congrArg List.length e) (by simp)

theorem three_parts {α : Type} {c d k : α} {x y : List α} (e : [c, d, k] = x ++ y) (hx : x ≠ []) (hy : y ≠ []) :
    (x = [c] ∧ y = [d, k]) ∨ (x = [c, d] ∧ y = [k]) := by
  match x with
  | [] => exact absurd rfl hx
  | [x] => simp at e; simp [e]
  | [x, x'] => simp at e; simp [e]
  | x :: x' :: x'' :: xs =>
    have h1 := congrArg List.length e
    have h2 := List.length_pos_iff.mpr hy
    simp only [List.length_append, List.length_cons, List.length_nil] at h1
    omega

/-- C102: a character may be written twice (in every text, at all its places) with the same words
exactly if it is of one of these kinds, -/
theorem C102_words_exact (c : Char) : (wordClasses c).forms false = true ↔
    ∀ s, ∃ ts : List (List Char), defaultTokens .words (utf8 s) = .ok (ts.map utf8) ∧ ts.flatten = s
      ∧ defaultTokens .words (utf8 (expand (twice c) s)) = .ok (ts.map fun t => utf8 (expand (twice c) t)) := by
  refine ⟨fun h => C102_words _ (.twice h), fun h => ?_⟩
  have k := fun {s a b} => repeat_divides (s := s) (a := a) (b := b) C09_conform h
  have h1 := k (s := [c]) (a := [c]) (b := [c]) (fun x y e hx hy => (one_part e hx hy).elim) (expand_twice c)
    (by simp) (by simp)
  have h2 := k (s := [c, c]) (a := [c, c]) (b := [c, c])
    (fun x y e hx hy => by obtain ⟨rfl, rfl⟩ := two_parts e hx hy; exact h1) (by simp [expand, twice]) (by simp) (by simp)
  have := classes_none (fun _ w _ => !w.forms false && joins false [w] [w] && joins false [w, w] [w, w]) (by decide +kernel) c
  simp only [List.map_cons, List.map_nil, List.reverse_cons, List.reverse_nil, List.nil_append, List.cons_append] at h1 h2
  simpa [h1, h2] using this

/-- the same for phrases, -/
theorem C102_phrases_exact (c : Char) : (phraseClasses c).forms true = true ↔
    ∀ s, ∃ ts : List (List Char), defaultTokens .phrases (utf8 s) = .ok (ts.map utf8) ∧ ts.flatten = s
      ∧ defaultTokens .phrases (utf8 (expand (twice c) s)) = .ok (ts.map fun t => utf8 (expand (twice c) t)) := by
  refine ⟨fun h => C102_phrases _ (.twice h), fun h => ?_⟩
  have hc := C11_conform
  rw [show phraseClasses = wordClasses from funext C33_classes] at hc ⊢
  have k := fun {s a b} => repeat_divides (s := s) (a := a) (b := b) hc h
  have h1 := k (s := [c]) (a := [c]) (b := [c]) (fun x y e hx hy => (one_part e hx hy).elim) (expand_twice c)
    (by simp) (by simp)
  have h2 := k (s := [c, c]) (a := [c, c]) (b := [c, c])
    (fun x y e hx hy => by obtain ⟨rfl, rfl⟩ := two_parts e hx hy; exact h1) (by simp [expand, twice]) (by simp) (by simp)
  have := classes_none (fun _ w _ => !w.forms true && joins true [w] [w] && joins true [w, w] [w, w]) (by decide +kernel) c
  simp only [List.map_cons, List.map_nil, List.reverse_cons, List.reverse_nil, List.nil_append, List.cons_append] at h1 h2
  simpa [h1, h2] using this

/-- for graphemes (the pictographs are for the zero width joiner), -/
theorem C102_graphemes_exact (c : Char) : (graphemeClasses c).forms = true ↔
    ∀ s, ∃ ts : List (List Char), defaultTokens .graphemes (utf8 s) = .ok (ts.map utf8) ∧ ts.flatten = s
      ∧ defaultTokens .graphemes (utf8 (expand (twice c) s)) = .ok (ts.map fun t => utf8 (expand (twice c) t)) := by
  refine ⟨fun h => C102_graphemes _ (.twice h), fun h => ?_⟩
  have k := fun {s a b} => repeat_divides (s := s) (a := a) (b := b) C08_conform h
  have h1 := k (s := [c]) (a := [c]) (b := [c]) (fun x y e hx hy => (one_part e hx hy).elim) (expand_twice c)
    (by simp) (by simp)
  have h2 := k (s := [c, c]) (a := [c, c]) (b := [c, c])
    (fun x y e hx hy => by obtain ⟨rfl, rfl⟩ := two_parts e hx hy; exact h1) (by simp [expand, twice]) (by simp) (by simp)
  have a1 := classes_none (fun g _ _ => !g.forms && graphemeJoins [g] [g] && graphemeJoins [g, g] [g, g] && !g .ZWJ)
    (by decide +kernel) c
  simp only [List.map_cons, List.map_nil, List.reverse_cons, List.reverse_nil, List.nil_append, List.cons_append] at h1 h2
  by_cases hz : graphemeClasses c .ZWJ = true
  · exfalso
    have hp : graphemeClasses (Char.ofNat 0x1F600) = fun g => decide (g = .ExtendedPictographic) := by
      funext g; cases g <;> decide +kernel
    have ne : Char.ofNat 0x1F600 ≠ c := by
      intro e; rw [← e, hp] at hz; simp at hz
    have a2 := classes_none (fun g _ _ => g .ZWJ && !(graphemeJoins [fun g => decide (g = .ExtendedPictographic)]
      [g, fun g => decide (g = .ExtendedPictographic)] && graphemeJoins [g, fun g => decide (g = .ExtendedPictographic)]
        [fun g => decide (g = .ExtendedPictographic)] && !graphemeJoins [g, g, fun g => decide (g = .ExtendedPictographic)]
        [fun g => decide (g = .ExtendedPictographic)])) (by decide +kernel) c
    simp only [hz, Bool.true_and, Bool.not_eq_false', Bool.and_eq_true, Bool.not_eq_true'] at a2
    have h3 := k (s := [Char.ofNat 0x1F600, c, Char.ofNat 0x1F600]) (a := [Char.ofNat 0x1F600, c, c]) (b := [Char.ofNat 0x1F600])
      (fun x y e hx hy => by
        rcases three_parts e hx hy with ⟨rfl, rfl⟩ | ⟨rfl, rfl⟩
        · simpa [hp] using a2.1.1
        · simpa [hp] using a2.1.2) (by simp [expand, twice, ne]) (by simp) (by simp)
    simp only [List.map_cons, List.map_nil, List.reverse_cons, List.reverse_nil, List.nil_append, List.cons_append, hp] at h3
    rw [a2.2] at h3
    cases h3
  · simpa [h1, h2, hz] using a1

/-- and for sentences. -/
theorem C102_sentences_exact (c : Char) : (sentenceClass c).forms = true ↔
    ∀ s, ∃ ts : List (List Char), defaultTokens .sentences (utf8 s) = .ok (ts.map utf8) ∧ ts.flatten = s
      ∧ defaultTokens .sentences (utf8 (expand (twice c) s)) = .ok (ts.map fun t => utf8 (expand (twice c) t)) := by
  refine ⟨fun h => C102_sentences _ (.twice h), fun h => ?_⟩
  have k := fun {s a b} => repeat_divides (s := s) (a := a) (b := b) C10_conform h
  have h1 := k (s := [c]) (a := [c]) (b := [c]) (fun x y e hx hy => (one_part e hx hy).elim) (expand_twice c)
    (by simp) (by simp)
  simp only [List.map_cons, List.map_nil, List.reverse_cons, List.reverse_nil, List.nil_append] at h1
  by_cases hz : sentenceClass c = .ATerm
  · exfalso
    have ha : sentenceClass 'a' = .Lower := by decide +kernel
    have hP : sentenceClass 'P' = .Upper := by decide +kernel
    have n1 : 'a' ≠ c := by rintro rfl; rw [ha] at hz; cases hz
    have n2 : 'P' ≠ c := by rintro rfl; rw [hP] at hz; cases hz
    have h3 := k (s := ['a', c, 'P']) (a := ['a', c, c]) (b := ['P'])
      (fun x y e hx hy => by
        rcases three_parts e hx hy with ⟨rfl, rfl⟩ | ⟨rfl, rfl⟩
        · simp only [List.map_cons, List.map_nil, hz, ha, hP]; decide +kernel
        · simp only [List.map_cons, List.map_nil, hz, ha, hP]; decide +kernel) (by simp [expand, twice, n1, n2]) (by simp) (by simp)
    simp only [List.map_cons, List.map_nil, hz, ha, hP] at h3
    revert h3
    decide +kernel
  · revert h1 hz
    generalize sentenceClass c = x
    cases x <;> decide +kernel

example : (wordClasses '.').forms false = false ∧ (wordClasses '7').forms false = true := by decide +kernel
example : defaultTokens .words (utf8 (chars "3.7")) = .ok [utf8 (chars "3.7")]
  ∧ defaultTokens .words (utf8 (expand (twice '.') (chars "3.7")))
    = .ok [utf8 (chars "3"), utf8 (chars "."), utf8 (chars "."), utf8 (chars "7")]
  ∧ defaultTokens .words (utf8 (expand (twice '7') (chars "3.7"))) = .ok [utf8 (chars "3.77")] := by decide +kernel
-- a joiner between pictographs
example : defaultTokens .graphemes (utf8 [Char.ofNat 0x1F469, Char.ofNat 0x200D, Char.ofNat 0x1F467])
    = .ok [utf8 [Char.ofNat 0x1F469, Char.ofNat 0x200D, Char.ofNat 0x1F467]]
  ∧ defaultTokens .graphemes (utf8 (expand (twice (Char.ofNat 0x200D)) [Char.ofNat 0x1F469, Char.ofNat 0x200D, Char.ofNat 0x1F467]))
    = .ok [utf8 [Char.ofNat 0x1F469, Char.ofNat 0x200D, Char.ofNat 0x200D], utf8 [Char.ofNat 0x1F467]] := by decide +kernel

end Uax29
