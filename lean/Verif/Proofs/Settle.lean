import Verif.Proofs.Lines
/-! # Text after a text changes at most the last two segments -/
namespace Uax29
open Spec

variable {α : Type}

/-- Where `J`, when `l2` follows, does not decide as `J'` does in the text alone, what is left of the
text is one segment: either a segment of its own or the rest of the segment before. -/
def Settles (J J' : List α → List α → Bool) (l2 left right : List α) : Prop :=
  J left (right ++ l2) ≠ J' left right →
    (J' left right = false ∧ ∀ i, 0 < i → i < right.length → J' (right.take i).reverse (right.drop i) = true)
    ∨ (J' left right = true ∧ ∀ i, 0 < i → i < right.length → J' ((right.take i).reverse ++ left) (right.drop i) = true)

/-- All segments of `l1` but the last two stay. -/
theorem greedy_settle {J J' : List α → List α → Bool} (l2 : List α) : ∀ (l1 : List α), l1 ≠ [] →
    (∀ left right, left ≠ [] → right ≠ [] → right <:+ l1 → Settles J J' l2 left right) →
    ∃ gs gl, gl ≠ [] ∧ gl.length ≤ 2 ∧ (∀ g ∈ gl, g ≠ []) ∧ greedy J' l1 = gs ++ gl
      ∧ greedy J (l1 ++ l2) = gs ++ greedy J (gl.flatten ++ l2) := by
  intro l1
  induction l1 using greedy_induction J' with
  | hnil => intro h; exact absurd rfl h
  | hcons l hl ih =>
    intro _ hin
    have h0 := firstLen_pos J' hl
    have h1 := firstLen_le J' l
    rcases Nat.lt_or_ge (firstLen J' l) l.length with hlt | hge
    · have hr : l.drop (firstLen J' l) ≠ [] := by simp; omega
      have ht : l.take (firstLen J' l) ≠ [] := by simp; exact ⟨by omega, hl⟩
      -- the rest is one segment
      by_cases hone : firstLen J' (l.drop (firstLen J' l)) = (l.drop (firstLen J' l)).length
      · refine ⟨[], [l.take (firstLen J' l), l.drop (firstLen J' l)], by simp, by simp, ?_, ?_, by simp⟩
        · intro g hg
          simp at hg
          rcases hg with rfl | rfl
          · exact ht
          · exact hr
        · rw [greedy_cons J' hl, greedy_cons J' hr, hone, List.take_length, List.drop_length, greedy_nil]
          rfl
      · have hf : firstLen J (l ++ l2) = firstLen J' l := by
          have hdec : ∀ i, 0 < i → i ≤ firstLen J' l →
              J ((l ++ l2).take i).reverse ((l ++ l2).drop i) = J' (l.take i).reverse (l.drop i) := by
            intro i hi hil
            rw [List.take_append_of_le_length (by omega), List.drop_append_of_le_length (by omega)]
            have hS := hin (l.take i).reverse (l.drop i) (by simp; exact ⟨by omega, hl⟩) (by simp; omega)
              (List.drop_suffix _ _)
            rcases Decidable.em (J (l.take i).reverse (l.drop i ++ l2) = J' (l.take i).reverse (l.drop i)) with he | he
            · exact he
            · exfalso
              rcases hS he with ⟨hJ, hrest⟩ | ⟨hJ, hrest⟩
              · have hif : i = firstLen J' l := by
                  rcases Nat.lt_or_ge i (firstLen J' l) with h | h
                  · rw [firstLen_join hi h] at hJ; cases hJ
                  · omega
                subst hif
                exact hone (firstLen_eq (List.length_pos_iff.mpr hr) (Nat.le_refl _) hrest (by omega))
              · have hif : i < firstLen J' l := by
                  rcases Nat.lt_or_ge i (firstLen J' l) with h | h
                  · exact h
                  · have : i = firstLen J' l := by omega
                    subst this
                    rw [firstLen_stop hlt] at hJ; cases hJ
                have h2 := hrest (firstLen J' l - i) (by omega) (by simp; omega)
                rw [List.drop_drop, show i + (firstLen J' l - i) = firstLen J' l by omega, ← List.reverse_append] at h2
                have h3 : l.take i ++ (l.drop i).take (firstLen J' l - i) = l.take (firstLen J' l) := by
                  rw [← List.take_add, show i + (firstLen J' l - i) = firstLen J' l by omega]
                rw [h3, firstLen_stop hlt] at h2
                cases h2
          apply firstLen_eq h0
          · simp; omega
          · intro i hi hif
            rw [hdec i hi (by omega)]
            exact firstLen_join hi hif
          · intro _
            rw [hdec _ h0 (Nat.le_refl _)]
            exact firstLen_stop hlt
        obtain ⟨gs, gl, g1, g2, g3, e1, e2⟩ := ih hr (by
          intro left right h1 h2 h3
          exact hin left right h1 h2 (h3.trans (List.drop_suffix _ _)))
        refine ⟨l.take (firstLen J' l) :: gs, gl, g1, g2, g3, ?_, ?_⟩
        · rw [greedy_cons J' hl, e1]; rfl
        · rw [greedy_cons J (by simp [hl]), hf, List.take_append_of_le_length h1, List.drop_append_of_le_length h1, e2]
          rfl
    · refine ⟨[], [l], by simp, by simp, by simpa using hl, ?_, by simp⟩
      rw [greedy_cons J' hl, List.take_of_length_le hge, List.drop_of_length_le hge, greedy_nil]
      rfl

/-- With more text after it, only the incomplete encoding at the end is decoded anew. -/
theorem Decodes.append {T : Trie} {d t : Bytes} {l : List (Nat × Bytes)} (h : Decodes T d l t) {b t2 : Bytes}
    {l2 : List (Nat × Bytes)} (h2 : Decodes T (t ++ b) l2 t2) : Decodes T (d ++ b) (l ++ l2) t2 := by
  induction h with
  | nil => simpa using h2
  | tail _ _ => simpa using h2
  | @cons bs d t v l ne look val rest ih =>
    rw [List.append_assoc, List.cons_append]
    refine .cons ne ?_ val (ih h2)
    rw [← List.append_assoc]
    exact Trie.lookup_append look (by simp; exact ne) b

theorem glue_flatten (t : Bytes) : ∀ gs : List (List (Nat × Bytes)),
    (glue t gs).flatten = gs.flatten.flatMap (·.2) ++ t
  | [] => by
    simp only [glue]
    split <;> simp_all
  | [g] => by simp [glue]
  | g :: g' :: gs => by
    rw [glue, List.flatten_cons, glue_flatten t (g' :: gs)]
    · simp
    · simp

theorem glue_length {t : Bytes} : ∀ {gs : List (List (Nat × Bytes))}, gs ≠ [] → (glue t gs).length = gs.length
  | [], h => absurd rfl h
  | [g], _ => by simp [glue]
  | g :: g' :: gs, _ => by
    rw [glue, List.length_cons, glue_length (gs := g' :: gs) (by simp)]
    · rfl
    · simp

/-- The last tokens of `a`, at most `n`, may change when `b` follows, and no others. -/
theorem Follows.settle {T : Trie} (hT : T.Wf) {J : Bool → List Nat → List Nat → Bool} {adv : Bytes → Nat}
    (h : Follows T Prod.fst Prod.fst J adv) (hg : GoodAdv adv) (n : Nat)
    (hn : 0 < n)
    (hs : ∀ (c c' : Bool) (l1 l2 : List (Nat × Bytes)), l1 ≠ [] → (∀ x ∈ l1, T.IsValue x.1) →
      ∃ gs gl, gl ≠ [] ∧ gl.length ≤ n ∧ (∀ g ∈ gl, g ≠ []) ∧ greedy (onChunks Prod.fst (J c')) l1 = gs ++ gl
      ∧ greedy (onChunks Prod.fst (J c)) (l1 ++ l2) = gs ++ greedy (onChunks Prod.fst (J c)) (gl.flatten ++ l2))
    (a b : Bytes) :
    ∃ ts tl, segs adv a = ts ++ tl ∧ tl.length ≤ n ∧ segs adv (a ++ b) = ts ++ segs adv (tl.flatten ++ b) := by
  obtain ⟨l, t, hd⟩ := hT.decodes a
  obtain ⟨l2, t2, hd2⟩ := hT.decodes (t ++ b)
  by_cases hl : l = []
  · subst hl
    refine ⟨[], segs adv a, rfl, ?_, ?_⟩
    · rw [h.segs_eq hg hd, greedy_nil, glue]
      split
      · simp
      · simp; omega
    · rw [hg.segs_flatten]; rfl
  obtain ⟨gs, gl, g1, g2, g3, e1, e2⟩ := hs (!t2.isEmpty) (!t.isEmpty) l l2 hl (fun x hx => (hd.values x hx).1)
  have hfl : gs.flatten ++ gl.flatten = l := by
    have := greedy_flatten (onChunks Prod.fst (J (!t.isEmpty))) l
    rw [e1] at this
    simpa using this
  have hlast : Decodes T (gl.flatten.flatMap (·.2) ++ t) gl.flatten t := by
    have h1 := hd.drop gs.flatten.length (by rw [← hfl]; simp)
    have h2 := hd.flatten
    rw [← hfl, List.flatMap_append, List.append_assoc] at h2
    rw [← hfl, List.take_left' rfl, List.drop_left' rfl, ← h2, List.drop_left' rfl] at h1
    exact h1
  have hne : gl.flatten ≠ [] := by
    obtain ⟨g, gl', rfl⟩ := List.exists_cons_of_ne_nil g1
    simp [g3 g]
  refine ⟨gs.map (·.flatMap (·.2)), glue t gl, ?_, ?_, ?_⟩
  · rw [h.segs_eq hg hd, e1, glue_append (.inl g1)]
  · rw [glue_length g1]; exact g2
  · rw [h.segs_eq hg (hd.append hd2), e2, glue_append (.inl (by simp [greedy_eq_nil, hne])), glue_flatten,
      h.segs_eq hg (hlast.append hd2)]

end Uax29
