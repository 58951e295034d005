import Verif.Proofs.Settle
import Verif.Proofs.AtomicRules
/-! # The rules of the packages settle -/
namespace Uax29
open Spec

namespace Spec

/-- The element after makes a difference only if it is there, and then it joins. -/
theorem unitJoins_none {ph : Bool} {left : List WSet} {b : WSet} (n : Option WSet)
    (h : unitJoins ph left b none = true) : unitJoins ph left b n = true := by
  simp only [unitJoins, Option.any_none, Bool.and_false, Bool.or_false, Bool.or_eq_true] at h ⊢
  rcases h with (((((((h | h) | h) | h) | h) | h) | h) | h) | h <;> simp only [h, true_or, or_true]

theorem dropWhile_nil_iff {α : Type} {f : α → Bool} : ∀ {l : List α}, l.dropWhile f = [] ↔ ∀ x ∈ l, f x = true
  | [] => by simp
  | a :: l => by
    rw [List.dropWhile_cons]
    cases h : f a
    · simp [h]
    · simp [h, dropWhile_nil_iff (l := l)]

/-- More text after it changes a decision only from "boundary" and only if nothing but ignored elements
is after the position. -/
theorem joins_differ (ph : Bool) {l2 left right : List WSet} (hleft : left ≠ []) (hright : right ≠ [])
    (hne : joins ph left (right ++ l2) ≠ joins ph left right) :
    joins ph left right = false ∧ ∃ b after, right = b :: after ∧ b.newline = false ∧ ∀ x ∈ after, x.ignorable = true := by
  obtain ⟨a, L, rfl⟩ := List.exists_cons_of_ne_nil hleft
  obtain ⟨b, after, rfl⟩ := List.exists_cons_of_ne_nil hright
  simp only [joins, List.cons_append] at hne ⊢
  split at hne
  · exact absurd rfl hne
  rename_i h1
  split at hne
  · exact absurd rfl hne
  rename_i h2
  split at hne
  · exact absurd rfl hne
  rename_i h3
  split at hne
  · exact absurd rfl hne
  rename_i h4
  split at hne
  · exact absurd rfl hne
  rename_i h5
  simp only [h1, h2, h3, h4, h5]
  have hall : ∀ x ∈ after, x.ignorable = true := by
    cases hd : after.dropWhile (·.ignorable) with
    | nil => exact dropWhile_nil_iff.mp hd
    | cons y r =>
      exfalso
      apply hne
      rw [List.dropWhile_append, hd]
      simp
  have hnil : after.dropWhile (·.ignorable) = [] := dropWhile_nil_iff.mpr hall
  rw [hnil] at hne ⊢
  refine ⟨?_, b, after, rfl, ?_, hall⟩
  · rcases Bool.eq_false_or_eq_true (unitJoins ph (units (a :: L)) b none) with h | h
    · rw [List.head?_nil, h, unitJoins_none _ h] at hne
      exact absurd rfl hne
    · simpa using h
  · simp at h2; exact h2.2

/-- Ignored elements are joined to what is before them, unless it is a newline. -/
theorem joins_ignored (ph : Bool) {x y : WSet} (A R : List WSet) (hx : x.newline = false) (hy : y.newline = false)
    (hi : y.ignorable = true) : joins ph (x :: A) (y :: R) = true := by
  simp [joins, hx, hy, hi]

theorem joins_settles (ph : Bool) {l2 left right : List WSet} (hok : ∀ x ∈ right, OkSet x) :
    Settles (joins ph) (joins ph) l2 left right := by
  intro hne
  have hl : left ≠ [] := by
    rintro rfl
    exact hne (by simp [joins])
  by_cases hr : right = []
  · subst hr
    exact .inl ⟨by cases left <;> rfl, by intro i h0 h1; simp at h1⟩
  obtain ⟨h1, b, after, rfl, h2, hall⟩ := joins_differ ph hl hr hne
  refine .inl ⟨h1, ?_⟩
  intro i hi hil
  obtain ⟨x, A, hx⟩ := List.exists_cons_of_ne_nil (l := ((b :: after).take i).reverse) (by simp; omega)
  obtain ⟨y, R, hy⟩ := List.exists_cons_of_ne_nil (l := (b :: after).drop i) (by simp at hil ⊢; omega)
  have hxm : x ∈ (b :: after).take i := by
    rw [← List.mem_reverse, hx]; exact List.mem_cons_self
  have hym : y ∈ after := by
    obtain ⟨k, rfl⟩ : ∃ k, i = k + 1 := ⟨i - 1, by omega⟩
    rw [List.drop_succ_cons] at hy
    exact List.mem_of_mem_drop (hy ▸ List.mem_cons_self)
  have hxn : x.newline = false := by
    rcases List.mem_cons.mp (List.mem_of_mem_take hxm) with rfl | h
    · exact h2
    · exact (hok x (List.mem_cons_of_mem _ h)).ign (hall x h)
  rw [hx, hy]
  exact joins_ignored ph A R hxn ((hok y (List.mem_cons_of_mem _ hym)).ign (hall y hym)) (hall y hym)

/-- Without stops before it nothing ends a sentence. -/
theorem sjoinsIf_nonstop (ahead : Bool) {a : SB} {A : List SB} (h : ∀ x ∈ a :: A, x.stops = false) (b : SB) (R : List SB) :
    sjoinsIf ahead (a :: A) (b :: R) = true := by
  have hs : ∀ x ∈ sunits (a :: A), x.saTerm = false ∧ x.paraSep = false := by
    intro x hx
    have := h x (sunits_mem hx)
    simp only [SB.stops, Bool.or_eq_false_iff] at this
    exact ⟨this.2, this.1.2⟩
  have hc : ∀ l : List SB, (∀ x ∈ l, x.saTerm = false ∧ x.paraSep = false) → endsCloseSp (·.saTerm) l = false := by
    intro l hl
    rw [Bool.eq_false_iff]
    intro h
    simp only [endsCloseSp, endsClose, Option.any_eq_true] at h
    obtain ⟨x, hx, hx2⟩ := h
    have := hl x ((List.dropWhile_sublist _).subset ((List.dropWhile_sublist _).subset (List.mem_of_mem_head? hx)))
    rw [this.1] at hx2; cases hx2
  have ha : a.paraSep = false := by
    have := h a (by simp)
    simp only [SB.stops, Bool.or_eq_false_iff] at this
    exact this.1.2
  have hb : (sunits (a :: A)).head?.any (·.paraSep) = false := by
    rw [Bool.eq_false_iff]
    intro h
    rw [sunits_head_para h] at ha; cases ha
  simp only [sjoinsIf, ha, sunitJoins, hc _ hs, hb, Bool.false_and, Bool.or_false, Bool.false_eq_true, if_false]
  repeat' split <;> try rfl

theorem sunitJoins_ahead {left : List SB} {b : SB} (h : sunitJoins false left b = true) : sunitJoins true left b = true := by
  simp only [sunitJoins] at h ⊢
  grind

theorem sjoinsIf_settles {l2 left right : List SB} (cut cut' : Bool) :
    Settles (fun l r => sjoinsIf (lowerAheadCut cut r) l r) (fun l r => sjoinsIf (lowerAheadCut cut' r) l r) l2 left right := by
  intro hne
  dsimp only at hne ⊢
  match left, right with
  | [], _ => exact absurd (by simp [sjoinsIf]) hne
  | _ :: _, [] =>
    exact .inl ⟨rfl, by intro i h0 h1; simp at h1⟩
  | a :: L, b :: r =>
    have hends : endsCloseSp (· = .ATerm) (sunits (a :: L)) = true := by
      rw [← Bool.not_eq_false]
      intro h
      apply hne
      rw [sjoinsIf_ahead (b := lowerAheadCut cut' (b :: r)) h]
      rfl
    have hpara : a.paraSep = false := by
      rw [Bool.eq_false_iff]
      intro h
      simp [sjoinsIf, h] at hne
    -- nothing in the text stops the look ahead
    have hstop : ∀ x ∈ b :: r, x.stops = false := by
      cases hd : (b :: r).dropWhile (!·.stops) with
      | nil => simpa using dropWhile_nil_iff.mp hd
      | cons y r' =>
        exfalso
        apply hne
        have hn : ∀ l, (b :: r ++ l).all (!·.stops) = false := by
          intro l
          rw [Bool.eq_false_iff]
          intro h
          rw [List.all_append, Bool.and_eq_true, List.all_eq_true] at h
          rw [dropWhile_nil_iff.mpr h.1] at hd
          cases hd
        have hn' := hn []
        rw [List.append_nil] at hn'
        simp only [lowerAheadCut, hn, hn', Bool.and_false, Bool.or_false, lowerAhead]
        rw [List.dropWhile_append, hd]
        rfl
    rcases Bool.eq_false_or_eq_true (lowerAheadCut cut' (b :: r)) with hah | hah
    · -- the cut encoding counts as a lower case letter
      right
      have hrun : ∀ i, i < (b :: r).length →
          sjoinsIf (lowerAheadCut cut' ((b :: r).drop i)) (((b :: r).take i).reverse ++ (a :: L)) ((b :: r).drop i) = true := by
        intro i hi
        obtain ⟨y, R, hy⟩ := List.exists_cons_of_ne_nil (l := (b :: r).drop i) (by simp at hi ⊢; omega)
        have h1 : lowerAheadCut cut' ((b :: r).drop i) = true := by
          rw [← List.take_append_drop i (b :: r), lowerAheadCut_run] at hah
          · exact hah
          · intro x hx; exact hstop x (List.mem_of_mem_take hx)
        rw [h1, hy]
        exact sjoinsIf_run (by simp) (by intro x hx; simp at hx; exact hx ▸ hpara) hends
          (fun x hx => hstop x (List.mem_of_mem_take (List.mem_reverse.mp hx))) y R
      exact ⟨hrun 0 (by simp), fun i _ hi => hrun i hi⟩
    · left
      refine ⟨?_, ?_⟩
      · rcases Bool.eq_false_or_eq_true (sjoinsIf (lowerAheadCut cut' (b :: r)) (a :: L) (b :: r)) with h | h
        · exfalso
          apply hne
          rw [h]
          rw [hah] at h
          revert h
          cases lowerAheadCut cut (b :: r ++ l2) with
          | false => exact id
          | true =>
            simp only [sjoinsIf, List.cons_append]
            split
            · exact id
            split
            · exact id
            split
            · exact id
            exact sunitJoins_ahead
        · exact h
      · intro i hi hil
        obtain ⟨x, A, hx⟩ := List.exists_cons_of_ne_nil (l := ((b :: r).take i).reverse) (by simp; omega)
        obtain ⟨y, R, hy⟩ := List.exists_cons_of_ne_nil (l := (b :: r).drop i) (by simp at hil ⊢; omega)
        rw [hx, hy]
        apply sjoinsIf_nonstop
        intro z hz
        rw [← hx] at hz
        exact hstop z (List.mem_of_mem_take (List.mem_reverse.mp hz))

end Spec

/-- `Settles` goes over to a rule on images. -/
theorem Settles.of_map {α β : Type} (f : α → β) {J J' : List β → List β → Bool} {l2 left right : List α}
    (h : Settles J J' (l2.map f) (left.map f) (right.map f)) :
    Settles (fun l r => J (l.map f) (r.map f)) (fun l r => J' (l.map f) (r.map f)) l2 left right := by
  intro hne
  simp only [List.map_append] at hne
  rcases h hne with ⟨h1, h2⟩ | ⟨h1, h2⟩
  · refine .inl ⟨h1, fun i hi hil => ?_⟩
    have := h2 i hi (by simpa using hil)
    simpa [List.map_reverse, List.map_take, List.map_drop] using this
  · refine .inr ⟨h1, fun i hi hil => ?_⟩
    have := h2 i hi (by simpa using hil)
    simpa [List.map_reverse, List.map_take, List.map_drop] using this

theorem Words.settles {l2 left right : List Nat} (hv : ∀ x ∈ right, trie.IsValue x) : Settles J J l2 left right := by
  apply Settles.of_map (J := joins false) (J' := joins false)
  apply joins_settles
  intro x hx
  obtain ⟨v, hv', rfl⟩ := List.mem_map.mp hx
  exact OkSet.of_goodCell (okValue.all (P := fun v => goodCell v = true) (by decide +kernel) (okValue_of (hv v hv')))

theorem Phrases.settles {l2 left right : List Nat} (hv : ∀ x ∈ right, trie.IsValue x) : Settles J J l2 left right := by
  apply Settles.of_map (J := joins true) (J' := joins true)
  apply joins_settles
  intro x hx
  obtain ⟨v, hv', rfl⟩ := List.mem_map.mp hx
  exact OkSet.of_goodCell (value_good (hv v hv'))

theorem Sentences.settles {l2 left right : List Nat} (c c' : Bool) : Settles (J c) (J c') l2 left right :=
  Settles.of_map sclass (J := fun l r => sjoinsIf (lowerAheadCut c r) l r)
    (J' := fun l r => sjoinsIf (lowerAheadCut c' r) l r) (sjoinsIf_settles c c')

end Uax29
