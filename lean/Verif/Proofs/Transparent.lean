import Verif.Proofs.Boundaries
import Verif.Spec.WordRules
import Verif.Spec.SentenceRules
/-! # Characters that the rules look through -/
namespace Uax29
open Spec

/-! ## From boundaries to tokens -/

theorem first_token {α : Type} {ts : List (List α)} {w : List α} (hw : w ≠ []) (hne : ∀ t ∈ ts, t ≠ [])
    (hb : Boundary ts w) (hn : ∀ y z, w = y ++ z → y ≠ [] → z ≠ [] → ¬ Boundary ts y) : ∃ us, ts = w :: us := by
  cases ts with
  | nil =>
    obtain ⟨n, h⟩ := hb
    exact absurd (by simpa using h) hw
  | cons g us =>
    rcases boundary_cons.mp hb with h | ⟨a, h, -⟩
    · exact absurd h hw
    · refine ⟨us, ?_⟩
      by_cases ha : a = []
      · rw [h, ha, List.append_nil]
      · refine absurd ?_ (hn g a h (hne g (by simp)) ha)
        simpa using boundary_after ([] : List (List α)) g us

/-- Without boundaries in `x` and with the same ones around it, the tokens of `a ++ x ++ b` are those of `a ++ b`, with
`x` in the token of the last element of `a`. -/
theorem insert_tokens {α : Type} {x b : List α} : ∀ {ts us : List (List α)} {a : List α}, a ≠ [] → ts.flatten = a ++ b →
    us.flatten = a ++ x ++ b → (∀ t ∈ ts, t ≠ []) → (∀ t ∈ us, t ≠ []) →
    (∀ p q, a = p ++ q → q ≠ [] → (Boundary ts p ↔ Boundary us p)) →
    (∀ y z, x = y ++ z → z ≠ [] → ¬ Boundary us (a ++ y)) →
    (∀ p q, b = p ++ q → (Boundary ts (a ++ p) ↔ Boundary us (a ++ x ++ p))) →
    ∃ A t u B, ts = A ++ (t ++ u) :: B ∧ us = A ++ (t ++ x ++ u) :: B ∧ A.flatten ++ t = a ∧ t ≠ []
  | [], us, a, ha, h, _, _, _, _, _, _ => by
    simp at h
    exact absurd h.1 ha
  | g :: ts, us, a, ha, h, h', hne, hne', h1, h2, h3 => by
    have hg := hne g (by simp)
    have hfl : g ++ ts.flatten = a ++ b := by simpa using h
    have hts : ∀ t ∈ ts, t ≠ [] := fun t ht => hne t (by simp [ht])
    have inner : ∀ y z, g = y ++ z → y ≠ [] → z ≠ [] → ¬ Boundary (g :: ts) y := by
      intro y z hyz hy hz
      have := boundary_inside hy hz ts []
      simpa [← hyz] using this
    have hbg : Boundary (g :: ts) g := by simpa using boundary_after ([] : List (List α)) g ts
    rcases List.append_eq_append_iff.mp hfl with ⟨u, hu, hb⟩ | ⟨u, hu, hb⟩
    · -- a = g ++ u
      by_cases hu0 : u = []
      · subst hu0
        rw [List.append_nil] at hu
        subst hu
        rw [List.nil_append] at hb
        obtain ⟨vs, rfl⟩ := first_token (ts := us) (w := a ++ x) (by simp [ha]) hne'
          (by simpa using (h3 [] b rfl).mp (by simpa using hbg)) (by
            intro y z hyz hy hz
            rcases List.append_eq_append_iff.mp hyz with ⟨c, hc, hd⟩ | ⟨c, hc, hd⟩
            · subst hc
              exact h2 c z hd hz
            · by_cases hc0 : c = []
              · subst hc0
                rw [List.append_nil] at hc
                subst hc
                rw [List.nil_append] at hd
                subst hd
                simpa using h2 [] _ rfl hz
              · rw [← h1 y c hc hc0]
                exact inner y c hc hy hc0)
        refine ⟨[], a, [], ts, by simp, ?_, by simp, ha⟩
        simp only [List.append_nil, List.nil_append, List.cons.injEq, true_and]
        have hv : vs.flatten = b := by simpa using h'
        refine (boundary_unique (by rw [hv, hb]) hts (fun t ht => hne' t (by simp [ht])) ?_).symm
        intro p q hpq
        have := h3 p q (by rw [← hb, hpq])
        rw [boundary_cons, boundary_cons] at this
        simpa [ha] using this
      · subst hu
        obtain ⟨vs, rfl⟩ := first_token (ts := us) hg hne' ((h1 g u rfl hu0).mp hbg) (by
          intro y z hyz hy hz
          rw [← h1 y (z ++ u) (by simp [hyz]) (by simp [hz])]
          exact inner y z hyz hy hz)
        obtain ⟨A, t, w, B, k1, k2, k3, k4⟩ := insert_tokens (ts := ts) (us := vs) (a := u) (x := x) (b := b) hu0 hb
          (by simpa using h') hts (fun t ht => hne' t (by simp [ht]))
          (by
            intro p q hpq hq
            have := h1 (g ++ p) q (by simp [hpq]) hq
            rw [boundary_cons, boundary_cons] at this
            simpa [hg] using this)
          (by
            intro y z hyz hz
            have := h2 y z hyz hz
            rw [boundary_cons] at this
            simpa [hg] using this)
          (by
            intro p q hpq
            have := h3 p q hpq
            rw [boundary_cons, boundary_cons] at this
            simpa [hg] using this)
        exact ⟨g :: A, t, w, B, by rw [k1]; rfl, by rw [k2]; rfl, by simp [k3], k4⟩
    · -- g = a ++ u
      subst hu
      obtain ⟨vs, rfl⟩ := first_token (ts := us) (w := a ++ x ++ u) (by simp [ha]) hne'
        ((h3 u ts.flatten hb).mp hbg) (by
          intro y z hyz hy hz
          rw [List.append_assoc] at hyz
          rcases List.append_eq_append_iff.mp hyz with ⟨c, hc, hd⟩ | ⟨c, hc, hd⟩
          · subst hc
            rcases List.append_eq_append_iff.mp hd with ⟨e, he, hf⟩ | ⟨e, he, hf⟩
            · subst he
              rw [← List.append_assoc, ← h3 e (z ++ ts.flatten) (by rw [hb, hf]; simp)]
              exact inner (a ++ e) z (by simp [hf]) (by simp [ha]) hz
            · by_cases he0 : e = []
              · subst he0
                rw [List.append_nil] at he
                subst he
                rw [List.nil_append] at hf
                subst hf
                have := h3 [] b rfl
                simp only [List.append_nil] at this
                rw [← this]
                exact inner a z rfl ha hz
              · exact h2 c e he he0
          · by_cases hc0 : c = []
            · subst hc0
              rw [List.append_nil] at hc
              subst hc
              by_cases hx0 : x = []
              · subst hx0
                rw [List.nil_append, List.nil_append] at hd
                subst hd
                have := h3 [] b rfl
                simp only [List.append_nil] at this
                rw [← this]
                exact inner a z rfl ha hz
              · simpa using h2 [] x rfl hx0
            · rw [← h1 y c hc hc0]
              exact inner y (c ++ u) (by simp [hc]) hy (by simp [hc0]))
      refine ⟨[], a, u, ts, by simp, ?_, by simp, ha⟩
      simp only [List.nil_append, List.cons.injEq, true_and]
      have hv : vs.flatten = ts.flatten := by
        have : a ++ x ++ u ++ vs.flatten = a ++ x ++ b := by simpa using h'
        rw [hb] at this
        simpa using this
      refine (boundary_unique hv.symm hts (fun t ht => hne' t (by simp [ht])) ?_).symm
      intro p q hpq
      have := h3 (u ++ p) q (by rw [hb, hpq]; simp)
      rw [boundary_cons, boundary_cons] at this
      simpa [ha] using this

/-! ## Lists -/

theorem dropWhile_insert {α : Type} {P : α → Bool} {xs : List α} (hx : ∀ x ∈ xs, P x = true) (b : List α) :
    ∀ l : List α, ((l ++ xs ++ b).dropWhile P).head? = ((l ++ b).dropWhile P).head?
  | [] => by
    induction xs with
    | nil => rfl
    | cons x xs ih =>
      have h1 := hx x (by simp)
      have := ih fun y hy => hx y (by simp [hy])
      simpa [h1] using this
  | c :: l => by
    simp only [List.cons_append, List.dropWhile_cons]
    split
    · exact dropWhile_insert hx b l
    · rfl

/-! ## Words and phrases -/

theorem units_insert {xs left : List WSet} {c : WSet} (hx : ∀ x ∈ xs, x.ignorable = true ∧ x.newline = false)
    (hc : c.newline = false) : ∀ r : List WSet, units (r ++ (xs ++ c :: left)) = units (r ++ c :: left)
  | [] => by
    simp only [List.nil_append]
    induction xs with
    | nil => rfl
    | cons x xs ih =>
      have ih := ih fun y hy => hx y (by simp [hy])
      obtain ⟨h1, h2⟩ := hx x (by simp)
      rw [← ih]
      cases xs with
      | nil => simp only [List.nil_append, List.cons_append]; rw [units]; simp [h1, hc]
      | cons y xs =>
        have h3 := (hx y (by simp)).2
        simp only [List.cons_append]
        conv => lhs; rw [units]
        simp [h1, h3]
  | [d] => by
    have := units_insert (left := left) hx hc []
    simp only [List.nil_append] at this
    simp only [List.singleton_append]
    cases xs with
    | nil => rfl
    | cons x xs =>
      have h2 := (hx x (by simp)).2
      simp only [List.cons_append] at this ⊢
      conv => lhs; rw [units]
      conv => rhs; rw [units]
      rw [this]
      simp [h2, hc]
  | d :: e :: r => by
    have := units_insert (left := left) hx hc (e :: r)
    simp only [List.cons_append] at this ⊢
    rw [units, this]
    conv => rhs; rw [units]

theorem joins_within {ph : Bool} {left q xs b : List WSet} (hx : ∀ x ∈ xs, x.ignorable = true) (hq : q ≠ []) :
    joins ph left (q ++ xs ++ b) = joins ph left (q ++ b) := by
  obtain ⟨d, q, rfl⟩ := List.exists_cons_of_ne_nil hq
  cases left with
  | nil => rfl
  | cons a left =>
    simp only [List.cons_append, joins]
    rw [dropWhile_insert (P := fun x : WSet => x.ignorable) hx b q]

theorem joins_later {ph : Bool} {r xs left right : List WSet} {c : WSet}
    (hx : ∀ x ∈ xs, x.ignorable = true ∧ x.newline = false) (hc : c.newline = false) (hr : r ≠ []) :
    joins ph (r ++ (xs ++ c :: left)) right = joins ph (r ++ c :: left) right := by
  have hu := units_insert (left := left) hx hc r
  obtain ⟨d, r, rfl⟩ := List.exists_cons_of_ne_nil hr
  cases right with
  | nil => rfl
  | cons b right =>
    simp only [List.cons_append] at hu ⊢
    simp only [joins]
    rw [hu]

theorem cr_newline {x : WSet} (h : x.newline = false) : x .CR = false := by
  cases h' : x .CR <;> simp_all [WSet.newline]

theorem joins_after {ph : Bool} {xs left right : List WSet} {c : WSet}
    (hx : ∀ x ∈ xs, x.ignorable = true ∧ x.newline = false ∧ x .ZWJ = false ∧ x .WSegSpace = false)
    (hc : c.newline = false) (hz : c .ZWJ = false)
    (hs : c .WSegSpace = false ∨ (ph = true ∧ c.ignorable = false)) :
    joins ph (xs ++ c :: left) right = joins ph (c :: left) right := by
  cases xs with
  | nil => rfl
  | cons x xs =>
    cases right with
    | nil => rfl
    | cons b right =>
      have hu := units_insert (left := left) (fun y hy => ⟨(hx y hy).1, (hx y hy).2.1⟩) hc []
      simp only [List.nil_append] at hu
      obtain ⟨h1, h2, h3, h4⟩ := hx x (by simp)
      simp only [List.cons_append, joins] at hu ⊢
      rw [hu, h2, h3, h4, hc, hz, cr_newline h2, cr_newline hc]
      rcases hs with hs | ⟨rfl, hs⟩
      · rw [hs]
      · cases hsp : c .WSegSpace with
        | false => rfl
        | true =>
          cases hb : b .WSegSpace with
          | false => simp
          | true =>
            have : (units (c :: left)).head? = some c := by
              cases left with
              | nil => rfl
              | cons d left => rw [units]; simp [hs]
            cases hn : b.newline with
            | true => simp
            | false =>
              cases hi : b.ignorable with
              | true => simp
              | false => simp [unitJoins, this, WSet.alnum, hsp, hb]

theorem joins_mark {ph : Bool} {a b : WSet} {left right : List WSet} (ha : a.newline = false) (hb : b.newline = false)
    (hi : b.ignorable = true) : joins ph (a :: left) (b :: right) = true := by
  simp [joins, ha, hb, hi, cr_newline ha]

/-! ## Sentences -/

theorem sunits_insert {xs left : List SB} {c : SB} (hx : ∀ x ∈ xs, x.ignorable = true)
    (hc : c.paraSep = false) : ∀ r : List SB, sunits (r ++ (xs ++ c :: left)) = sunits (r ++ c :: left)
  | [] => by
    simp only [List.nil_append]
    induction xs with
    | nil => rfl
    | cons x xs ih =>
      have ih := ih fun y hy => hx y (by simp [hy])
      have h1 := hx x (by simp)
      rw [← ih]
      cases xs with
      | nil => simp only [List.nil_append, List.cons_append]; rw [sunits]; simp [h1, hc]
      | cons y xs =>
        have h3 : y.paraSep = false := by
          have := hx y (by simp)
          cases y <;> first | rfl | exact absurd this (by decide)
        simp only [List.cons_append]
        conv => lhs; rw [sunits]
        simp [h1, h3]
  | [d] => by
    have := sunits_insert (left := left) hx hc []
    simp only [List.nil_append] at this
    simp only [List.singleton_append]
    cases xs with
    | nil => rfl
    | cons x xs =>
      have h2 : x.paraSep = false := by
        have := hx x (by simp)
        cases x <;> first | rfl | exact absurd this (by decide)
      simp only [List.cons_append] at this ⊢
      conv => lhs; rw [sunits]
      conv => rhs; rw [sunits]
      rw [this]
      simp [h2, hc]
  | d :: e :: r => by
    have := sunits_insert (left := left) hx hc (e :: r)
    simp only [List.cons_append] at this ⊢
    rw [sunits, this]
    conv => rhs; rw [sunits]

theorem lowerAhead_insert {xs : List SB} (hx : ∀ x ∈ xs, x.ignorable = true) (l b : List SB) :
    lowerAhead (l ++ xs ++ b) = lowerAhead (l ++ b) := by
  simp only [lowerAhead]
  rw [dropWhile_insert (P := fun x : SB => !x.stops)]
  intro x h
  have := hx x h
  cases x <;> first | rfl | exact absurd this (by decide)

theorem sjoins_within {left q xs b : List SB} (hx : ∀ x ∈ xs, x.ignorable = true) (hq : q ≠ []) :
    sjoins left (q ++ xs ++ b) = sjoins left (q ++ b) := by
  rw [sjoins, sjoins, lowerAhead_insert hx]
  obtain ⟨d, q, rfl⟩ := List.exists_cons_of_ne_nil hq
  cases left <;> rfl

theorem sjoins_later {r xs left right : List SB} {c : SB} (hx : ∀ x ∈ xs, x.ignorable = true) (hc : c.paraSep = false)
    (hr : r ≠ []) : sjoins (r ++ (xs ++ c :: left)) right = sjoins (r ++ c :: left) right := by
  have hu := sunits_insert (left := left) hx hc r
  obtain ⟨d, r, rfl⟩ := List.exists_cons_of_ne_nil hr
  cases right with
  | nil => rfl
  | cons b right =>
    simp only [List.cons_append] at hu ⊢
    simp only [sjoins, sjoinsIf]
    rw [hu]

theorem sjoins_after {xs left right : List SB} {c : SB} (hx : ∀ x ∈ xs, x.ignorable = true) (hc : c.paraSep = false) :
    sjoins (xs ++ c :: left) right = sjoins (c :: left) right := by
  cases xs with
  | nil => rfl
  | cons x xs =>
    cases right with
    | nil => rfl
    | cons b right =>
      have hu := sunits_insert (left := left) hx hc []
      simp only [List.nil_append] at hu
      have h1 := hx x (by simp)
      have h2 : x.paraSep = false := by cases x <;> first | rfl | exact absurd h1 (by decide)
      have h3 : x ≠ .CR := by rintro rfl; exact absurd h1 (by decide)
      have h4 : c ≠ .CR := by rintro rfl; exact absurd hc (by decide)
      simp only [List.cons_append, sjoins, sjoinsIf] at hu ⊢
      rw [hu, h2, hc]
      simp [h3, h4]

theorem sjoins_mark {a b : SB} {left right : List SB} (ha : a.paraSep = false) (hi : b.ignorable = true) :
    sjoins (a :: left) (b :: right) = true := by
  have h4 : a ≠ .CR := by rintro rfl; exact absurd ha (by decide)
  simp [sjoins, sjoinsIf, ha, hi, h4]

end Uax29
