import Verif.Proofs.Hangul
import Verif.Props.LineEnds
import Verif.Spec.Newlines
/-! # Rules that do not tell one line end from another -/
namespace Uax29
open Spec

/-- A position between the two characters of a CR LF. -/
def InCrlf (a b : List Char) : Prop := a.getLast? = some '\r' ∧ b.head? = some '\n'

theorem lineFeeds_append : ∀ {a b : List Char}, ¬ InCrlf a b → lineFeeds (a ++ b) = lineFeeds a ++ lineFeeds b
  | [], b, _ => rfl
  | c :: a, b, h => by
    have ih : lineFeeds (a ++ b) = lineFeeds a ++ lineFeeds b := by
      refine lineFeeds_append fun h' => h ⟨?_, h'.2⟩
      rw [List.getLast?_cons, h'.1]; rfl
    simp only [List.cons_append, lineFeeds, ih]
    have e : (c = '\r' ∧ (a ++ b).head? = some '\n') ↔ (c = '\r' ∧ a.head? = some '\n') := by
      cases a with
      | nil =>
        have hb : ¬ (c = '\r' ∧ b.head? = some '\n') := fun hb => h ⟨by simp [hb.1], hb.2⟩
        exact ⟨fun h' => absurd h' hb, fun h' => by cases h'.2⟩
      | cons d a => rfl
    by_cases hc : c = '\r' ∧ a.head? = some '\n'
    · rw [if_pos hc, if_pos (e.mpr hc)]
    · rw [if_neg hc, if_neg fun h' => hc (e.mp h')]
      rfl

theorem lineFeeds_nil : ∀ {s : List Char}, lineFeeds s = [] → s = []
  | [], _ => rfl
  | c :: s, h => by
    rw [lineFeeds] at h
    split at h
    · rename_i h1
      rw [lineFeeds_nil h] at h1
      cases h1.2
    · cases h

theorem lineFeeds_no_cr : ∀ (s : List Char), '\r' ∉ lineFeeds s
  | [] => by simp [lineFeeds]
  | c :: s => by
    have ih := lineFeeds_no_cr s
    rw [lineFeeds]
    split
    · exact ih
    · rw [List.mem_cons, not_or]
      refine ⟨?_, ih⟩
      split
      · decide
      · rename_i hc
        exact fun h => hc (.inl h.symm)

theorem lineFeeds_same : ∀ {s : List Char}, (∀ c ∈ s, ¬ IsLineEnd c) → lineFeeds s = s
  | [], _ => rfl
  | c :: s, h => by
    have hc := h c List.mem_cons_self
    rw [lineFeeds, if_neg fun h' => hc (.inl h'.1), if_neg hc, lineFeeds_same fun d hd => h d (List.mem_cons_of_mem _ hd)]

/-- A position in a text with LFs is one of the text, not within a CR LF. -/
theorem lineFeeds_split : ∀ {s a b : List Char}, lineFeeds s = a ++ b →
    ∃ a' b', s = a' ++ b' ∧ a = lineFeeds a' ∧ b = lineFeeds b' ∧ ¬ InCrlf a' b'
  | [], a, b, h => by
    have : a = [] ∧ b = [] := by simpa [lineFeeds] using h.symm
    exact ⟨[], [], rfl, this.1, this.2, by simp [InCrlf]⟩
  | c :: s, [], b, h => ⟨[], c :: s, rfl, rfl, h.symm, by simp [InCrlf]⟩
  | c :: s, x :: a, b, h => by
    rw [lineFeeds] at h
    by_cases hs : c = '\r' ∧ s.head? = some '\n'
    · rw [if_pos hs] at h
      obtain ⟨a', b', rfl, h2, h3, h4⟩ := lineFeeds_split h
      cases a' with
      | nil => cases h2
      | cons d a' =>
        refine ⟨c :: d :: a', b', rfl, ?_, h3, fun h5 => h4 ⟨by simpa using h5.1, h5.2⟩⟩
        rw [lineFeeds, if_pos ⟨hs.1, by simpa using hs.2⟩]
        exact h2
    · rw [if_neg hs, List.cons_append] at h
      obtain ⟨hx, h⟩ := List.cons.inj h
      obtain ⟨a', b', rfl, h2, h3, h4⟩ := lineFeeds_split h
      refine ⟨c :: a', b', rfl, ?_, h3, fun h5 => ?_⟩
      · rw [lineFeeds, if_neg, ← hx, h2]
        intro h6
        cases a' with
        | nil => cases h6.2
        | cons d a' => exact hs ⟨h6.1, by simpa using h6.2⟩
      · cases a' with
        | nil => exact hs ⟨by simpa using h5.1, h5.2⟩
        | cons d a' => exact h4 ⟨by simpa using h5.1, h5.2⟩

/-- A line end at the end of a text becomes a LF. -/
theorem lineFeeds_end {x : Char} (hx : IsLineEnd x) : ∀ a : List Char, ∃ i, lineFeeds (a ++ [x]) = i ++ ['\n']
  | [] => ⟨[], by simp [lineFeeds, hx]⟩
  | c :: a => by
    obtain ⟨i, h⟩ := lineFeeds_end hx a
    rw [List.cons_append, lineFeeds, h]
    split
    · exact ⟨i, rfl⟩
    · exact ⟨_ :: i, rfl⟩

/-- The last line end of a text. -/
theorem last_newline : ∀ s : List Char, (∀ c ∈ s, ¬ IsLineEnd c)
    ∨ ∃ a c b, s = a ++ c :: b ∧ IsLineEnd c ∧ ∀ d ∈ b, ¬ IsLineEnd d
  | [] => .inl (by simp)
  | x :: s => by
    rcases last_newline s with h | ⟨a, c, b, rfl, h1, h2⟩
    · by_cases hx : IsLineEnd x
      · exact .inr ⟨[], x, s, rfl, hx, h⟩
      · exact .inl (by simpa [hx] using h)
    · exact .inr ⟨x :: a, c, b, rfl, h1, h2⟩

/-- Rules that do not tell one line end from another. -/
structure Newlines {K : Type} (J : List K → List K → Bool) (cl : Char → K) : Prop where
  /-- After a line end as after a LF, whatever was before, but for the middle of a CR LF. -/
  left : ∀ x, IsLineEnd x → ∀ B A A' (C : List Char), (B = [] → x = '\r' → C.head? ≠ some '\n') →
    J (B ++ cl x :: A) (C.map cl) = J (B ++ cl '\n' :: A') (C.map cl)
  /-- Before a text as before the text with LFs, if there is no CR. -/
  right : ∀ a b : List Char, '\r' ∉ a → J (a.map cl).reverse ((lineFeeds b).map cl) = J (a.map cl).reverse (b.map cl)
  /-- Never within a CR LF. -/
  inside : ∀ A C, J (cl '\r' :: A) (cl '\n' :: C) = true

variable {K : Type} {J : List K → List K → Bool} {cl : Char → K}

theorem Newlines.before (h : Newlines J cl) (a C : List Char) (hi : ¬ InCrlf a C) :
    J ((lineFeeds a).map cl).reverse (C.map cl) = J (a.map cl).reverse (C.map cl) := by
  rcases last_newline a with h0 | ⟨a, c, b, rfl, hc, hb⟩
  · rw [lineFeeds_same h0]
  · obtain ⟨i, hk⟩ := lineFeeds_end hc a
    have e : lineFeeds (a ++ c :: b) = i ++ '\n' :: b := by
      have := lineFeeds_append (a := a ++ [c]) (b := b) (fun h5 => by
        cases b with
        | nil => cases h5.2
        | cons d b => exact hb d List.mem_cons_self (.inr (.inl (by simpa using h5.2))))
      rw [hk, lineFeeds_same hb] at this
      simpa using this
    rw [e]
    have := h.left c hc (b.map cl).reverse (a.map cl).reverse (i.map cl).reverse C (by
      intro hb0 hc0 hC
      have hb1 : b = [] := by simpa using hb0
      exact hi ⟨by simp [hb1, hc0], hC⟩)
    simpa using this.symm

theorem Newlines.join (h : Newlines J cl) {a b : List Char} (hi : ¬ InCrlf a b) :
    breakOf J ((lineFeeds a).map cl) ((lineFeeds b).map cl) = breakOf J (a.map cl) (b.map cl) := by
  unfold breakOf
  rw [h.right _ _ (lineFeeds_no_cr a), h.before a b hi]
  have hE : ∀ l : List Char, ((lineFeeds l).map cl).isEmpty = (l.map cl).isEmpty := by
    intro l
    cases l with
    | nil => rfl
    | cons c l =>
      cases hd : lineFeeds (c :: l) with
      | nil => cases lineFeeds_nil hd
      | cons => rfl
  rw [hE, hE]

theorem lineFeeds_flatten : ∀ {ts : List (List Char)}, (∀ n, ¬ InCrlf (ts.take n).flatten (ts.drop n).flatten) →
    lineFeeds ts.flatten = (ts.map lineFeeds).flatten
  | [], _ => rfl
  | t :: ts, h => by
    rw [List.flatten_cons, lineFeeds_append (by simpa using h 1), lineFeeds_flatten]
    · rfl
    · intro n hn
      refine h (n + 1) ⟨?_, hn.2⟩
      rw [List.take_succ_cons, List.flatten_cons, List.getLast?_append, hn.1]
      rfl

theorem Newlines.tokens (h : Newlines J cl) {s : List Char} {ts us : List (List Char)}
    (h1 : ts.flatten = s) (h2 : ∀ t ∈ ts, t ≠ [])
    (h3 : ∀ a b, s = a ++ b → (Boundary ts a ↔ breakOf J (a.map cl) (b.map cl) = true))
    (k1 : us.flatten = lineFeeds s) (k2 : ∀ t ∈ us, t ≠ [])
    (k3 : ∀ a b, lineFeeds s = a ++ b → (Boundary us a ↔ breakOf J (a.map cl) (b.map cl) = true)) :
    us = ts.map lineFeeds := by
  have hts : ∀ n, (ts.take n).flatten ++ (ts.drop n).flatten = s := by
    intro n
    rw [← List.flatten_append, List.take_append_drop, h1]
  have hcr : ∀ n, ¬ InCrlf (ts.take n).flatten (ts.drop n).flatten := by
    rintro n ⟨e1, e2⟩
    have hb := (h3 _ _ (hts n).symm).mp ⟨n, rfl⟩
    obtain ⟨A, hA⟩ := List.getLast?_eq_some_iff.mp e1
    obtain ⟨C, hC⟩ : ∃ C, (ts.drop n).flatten = '\n' :: C := by
      cases hd : (ts.drop n).flatten with
      | nil => rw [hd] at e2; cases e2
      | cons d C => rw [hd] at e2; exact ⟨C, by simpa using e2⟩
    rw [hA, hC] at hb
    have := h.inside (A.map cl).reverse (C.map cl)
    simp [breakOf, this] at hb
  have hmap : ∀ n, ((ts.map lineFeeds).take n).flatten = lineFeeds (ts.take n).flatten := by
    intro n
    rw [← List.map_take, lineFeeds_flatten]
    rintro m ⟨e1, e2⟩
    refine hcr (min m n) ⟨?_, ?_⟩
    · rw [List.take_take] at e1; exact e1
    · by_cases hm : m ≤ n
      · have e : ts.drop m = (ts.take n).drop m ++ ts.drop n := by
          rw [← List.drop_append_of_le_length, List.take_append_drop]
          · rw [List.length_take]
            rcases Nat.lt_or_ge ts.length m with hl | hl
            · rw [List.drop_of_length_le (by rw [List.length_take]; omega)] at e2; cases e2
            · omega
        rw [Nat.min_eq_left hm, e, List.flatten_append, List.head?_append, e2]
        rfl
      · rw [List.drop_of_length_le (by rw [List.length_take]; omega)] at e2; cases e2
  apply boundary_unique
  · have := hmap ts.length
    rw [List.take_of_length_le (by simp), List.take_length, h1] at this
    rw [k1, this]
  · exact k2
  · intro u hu
    obtain ⟨t, ht, rfl⟩ := List.mem_map.mp hu
    exact fun h0 => h2 t ht (lineFeeds_nil h0)
  · intro a b hab
    rw [k1] at hab
    rw [k3 a b hab]
    obtain ⟨a', b', hs, rfl, rfl, hi⟩ := lineFeeds_split hab
    rw [h.join hi, ← h3 a' b' hs]
    constructor
    · rintro ⟨n, rfl⟩
      exact ⟨n, hmap n⟩
    · rintro ⟨n, ea⟩
      refine ⟨n, ?_⟩
      rw [hmap] at ea
      have hn := hcr n
      have hs2 := hts n
      rw [hs] at hs2
      rcases List.append_eq_append_iff.mp hs2 with ⟨m, h4, h5⟩ | ⟨m, h4, h5⟩
      · rw [h4, lineFeeds_append] at ea
        · have : lineFeeds m = [] := by simpa using ea.symm
          rw [h4, lineFeeds_nil this, List.append_nil]
        · rintro ⟨e1, e2⟩
          exact hn ⟨e1, by rw [h5, List.head?_append, e2]; rfl⟩
      · rw [h4, lineFeeds_append] at ea
        · have : lineFeeds m = [] := by simpa using ea
          rw [h4, lineFeeds_nil this, List.append_nil]
        · rintro ⟨e1, e2⟩
          exact hi ⟨e1, by rw [h5, List.head?_append, e2]; rfl⟩

end Uax29
