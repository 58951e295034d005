import Verif.Proofs.Conform
/-! # Segmentation of a text that is put together -/
namespace Uax29
open Spec

variable {α : Type}

/-- If the rule `J` decides within `l1`, when `l2` follows, as `J'` does in `l1` alone, then all
segments of `l1` but the last stay. -/
theorem greedy_prefix {J J' : List α → List α → Bool} (l2 : List α) : ∀ (l1 : List α), l1 ≠ [] →
    (∀ left right, left ≠ [] → right ≠ [] → right <:+ l1 → J left (right ++ l2) = J' left right) →
    ∃ gs g, g ≠ [] ∧ greedy J' l1 = gs ++ [g] ∧ greedy J (l1 ++ l2) = gs ++ greedy J (g ++ l2) := by
  intro l1
  induction l1 using greedy_induction J' with
  | hnil => intro h; exact absurd rfl h
  | hcons l hl ih =>
    intro _ hin
    have h0 := firstLen_pos J' hl
    have h1 := firstLen_le J' l
    rcases Nat.lt_or_ge (firstLen J' l) l.length with hlt | hge
    · have hf : firstLen J (l ++ l2) = firstLen J' l := by
        have hdec : ∀ i, 0 < i → i < l.length →
            J ((l ++ l2).take i).reverse ((l ++ l2).drop i) = J' (l.take i).reverse (l.drop i) := by
          intro i hi hil
          rw [List.take_append_of_le_length (by omega), List.drop_append_of_le_length (by omega)]
          exact hin _ _ (by simp; exact ⟨by omega, hl⟩) (by simp; omega) (List.drop_suffix _ _)
        apply firstLen_eq h0
        · simp; omega
        · intro i hi hif
          rw [hdec i hi (by omega)]
          exact firstLen_join hi hif
        · intro _
          rw [hdec _ h0 hlt]
          exact firstLen_stop hlt
      obtain ⟨gs, g, hg, e1, e2⟩ := ih (by simp; omega) (by
        intro left right h1 h2 h3
        exact hin left right h1 h2 (h3.trans (List.drop_suffix _ _)))
      refine ⟨l.take (firstLen J' l) :: gs, g, hg, ?_, ?_⟩
      · rw [greedy_cons J' hl, e1]; rfl
      · rw [greedy_cons J (by simp [hl]), hf, List.take_append_of_le_length h1, List.drop_append_of_le_length h1, e2]
        rfl
    · refine ⟨[], l, hl, ?_, by simp⟩
      rw [greedy_cons J' hl, List.take_of_length_le hge, List.drop_of_length_le hge, greedy_nil]
      rfl

/-- If, besides, there is always a boundary after `l1`, then the parts are segmented for themselves. -/
theorem greedy_cut {J J' : List α → List α → Bool} (l2 : List α) (l1 : List α)
    (hin : ∀ left right, left ≠ [] → right ≠ [] → right <:+ l1 → J left (right ++ l2) = J' left right)
    (hcut : l2 ≠ [] → ∀ left, left.reverse <:+ l1 → left ≠ [] → J left l2 = false) :
    greedy J (l1 ++ l2) = greedy J' l1 ++ greedy J l2 := by
  by_cases h1 : l1 = []
  · subst h1; simp [greedy_nil]
  obtain ⟨gs, g, hg, e1, e2⟩ := greedy_prefix (J := J) (J' := J') l2 l1 h1 hin
  have hsuf : g <:+ l1 := by
    have := greedy_flatten J' l1
    rw [e1] at this
    exact ⟨gs.flatten, by simpa using this⟩
  -- the last segment alone
  have hlast : greedy J (g ++ l2) = g :: greedy J l2 := by
    have hf' : firstLen J' g = g.length := by
      have key : ∀ (gs : List (List α)) (l : List α), greedy J' l = gs ++ [g] → firstLen J' g = g.length := by
        intro gs
        induction gs with
        | nil =>
          intro l h
          by_cases hl : l = []
          · subst hl; simp [greedy_nil] at h
          · rw [greedy_cons J' hl] at h
            simp at h
            have h2 := h.2
            have hlen : l.drop (firstLen J' l) = [] := by
              by_cases hd : l.drop (firstLen J' l) = []
              · exact hd
              · rw [greedy_cons J' hd] at h2; simp at h2
            have hle := firstLen_le J' l
            have : l.length = firstLen J' l := by simp at hlen; omega
            have hgl : g = l := by
              rw [← h.1]
              exact List.take_of_length_le (by omega)
            rw [hgl]; exact this.symm
        | cons x gs ih =>
          intro l h
          by_cases hl : l = []
          · subst hl; simp [greedy_nil] at h
          · rw [greedy_cons J' hl] at h
            simp at h
            exact ih _ h.2
      exact key gs l1 e1
    have hf : firstLen J (g ++ l2) = g.length := by
      apply firstLen_eq (List.length_pos_iff.mpr hg) (by simp)
      · intro i hi hil
        rw [List.take_append_of_le_length (by omega), List.drop_append_of_le_length (by omega),
          hin _ _ (by simp; exact ⟨by omega, hg⟩) (by simp; omega) ((List.drop_suffix _ _).trans hsuf)]
        exact firstLen_join hi (by omega)
      · intro hl
        rw [List.take_left' rfl, List.drop_left' rfl]
        exact hcut (by rintro rfl; simp at hl) _ (by simpa using hsuf) (by simpa using hg)
    rw [greedy_cons J (by simp [hg]), hf, List.take_left' rfl, List.drop_left' rfl]
  rw [e2, hlast, e1]
  simp

theorem glue_append {t : Bytes} {g1 g2 : List (List (Nat × Bytes))} (h : g2 ≠ [] ∨ t = []) :
    glue t (g1 ++ g2) = g1.map (·.flatMap (·.2)) ++ glue t g2 := by
  induction g1 with
  | nil => rfl
  | cons g g1 ih =>
    cases hg : g1 ++ g2 with
    | nil =>
      have h2 : g1 = [] ∧ g2 = [] := by simpa using hg
      rcases h with h | h
      · exact absurd h2.2 h
      · subst h; simp [h2.1, h2.2, glue]
    | cons x xs =>
      rw [List.cons_append, hg, glue, ← hg, ih]
      · rfl
      · simp

theorem greedy_eq_nil {J : List α → List α → Bool} {l : List α} : greedy J l = [] ↔ l = [] := by
  constructor
  · intro h
    by_cases hl : l = []
    · exact hl
    · rw [greedy_cons J hl] at h; cases h
  · rintro rfl; exact greedy_nil J

/-- A whole text and more after it. -/
theorem Follows.segs_append {T : Trie} {J : Bool → List Nat → List Nat → Bool} {adv : Bytes → Nat}
    (h : Follows T Prod.fst Prod.fst J adv) (hg : GoodAdv adv) {x y t : Bytes} {l1 l2 : List (Nat × Bytes)}
    (h1 : Decodes T x l1 []) (h12 : Decodes T (x ++ y) (l1 ++ l2) t) (h2 : Decodes T y l2 t)
    (hy : l2 ≠ [] ∨ t = [])
    (hin : ∀ left right : List Nat, left ≠ [] → right ≠ [] → right <:+ l1.map Prod.fst →
      J (!t.isEmpty) left (right ++ l2.map Prod.fst) = J false left right)
    (hcut : l2 ≠ [] → ∀ left : List Nat, left.reverse <:+ l1.map Prod.fst → left ≠ [] →
      J (!t.isEmpty) left (l2.map Prod.fst) = false) :
    segs adv (x ++ y) = segs adv x ++ segs adv y := by
  rw [h.segs_eq hg h12, h.segs_eq hg h1, h.segs_eq hg h2, glue_nil]
  rw [greedy_cut (J := onChunks Prod.fst (J (!t.isEmpty))) (J' := onChunks Prod.fst (J false)) l2 l1, glue_append]
  · rfl
  · rcases hy with hy | hy
    · left; intro h; exact hy (greedy_eq_nil.mp h)
    · exact .inr hy
  · intro left right hl hr hs
    simp only [onChunks, List.map_append]
    exact hin _ _ (by simpa using hl) (by simpa using hr) (by obtain ⟨u, hu⟩ := hs; exact ⟨u.map Prod.fst, by rw [← hu]; simp⟩)
  · intro hne left hs hl
    simp only [onChunks]
    refine hcut hne _ ?_ (by simpa using hl)
    obtain ⟨u, hu⟩ := hs
    exact ⟨u.map Prod.fst, by rw [← hu]; simp⟩

end Uax29
