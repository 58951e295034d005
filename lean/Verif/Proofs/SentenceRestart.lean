import Verif.Proofs.SentenceMachine
import Verif.Proofs.Greedy
/-! # Sentence boundaries do not depend on what is before an earlier boundary -/
namespace Uax29.Spec

theorem sunits_append {a : SB} {A : List SB} : ∀ {L : List SB} {b : SB}, L.getLast? = some b →
    (b.ignorable = false ∨ a.paraSep = true) → sunits (L ++ a :: A) = sunits L ++ sunits (a :: A)
  | [], _, h, _ => by simp at h
  | [x], b, h, hb => by
    simp at h
    subst h
    rw [List.singleton_append, sunits]
    have : (x.ignorable && !a.paraSep) = false := by
      rcases hb with h | h <;> simp [h]
    simp [this, sunits]
  | x :: y :: L, b, h, hb => by
    rw [List.getLast?_cons_cons] at h
    have ih := sunits_append (a := a) (A := A) h hb
    rw [List.cons_append, List.cons_append, sunits, ← List.cons_append, ih, sunits]
    split <;> simp

theorem sunits_getLast {b : SB} : ∀ {L : List SB}, L.getLast? = some b → b.ignorable = false ∨ L = [b] →
    (sunits L).getLast? = some b
  | [], h, _ => by simp at h
  | [x], h, _ => by simpa [sunits] using h
  | x :: y :: L, h, hb => by
    rw [List.getLast?_cons_cons] at h
    have hb' : b.ignorable = false := by
      rcases hb with h | h
      · exact h
      · simp at h
    have ih := sunits_getLast h (.inl hb')
    rw [sunits]
    split
    · exact ih
    · rw [List.getLast?_cons, ih]; rfl

theorem sunits_ne_nil : ∀ {L : List SB}, L ≠ [] → sunits L ≠ []
  | [], h => absurd rfl h
  | [x], _ => by simp [sunits]
  | x :: y :: L, _ => by
    rw [sunits]
    split
    · exact sunits_ne_nil (by simp)
    · simp

theorem endsClose_append {X : SB → Bool} {V : List SB} {b : SB} (hV : b = .Close → endsClose X V = false) :
    ∀ {U : List SB}, U.getLast? = some b → endsClose X (U ++ V) = endsClose X U
  | [], h => by simp at h
  | [x], h => by
    simp at h
    subst h
    by_cases hx : x = .Close
    · subst hx
      rw [List.singleton_append, endsClose_close, endsClose_close, hV rfl]; rfl
    · rw [List.singleton_append, endsClose_other _ hx, endsClose_other _ hx]
  | x :: y :: U, h => by
    rw [List.getLast?_cons_cons] at h
    have ih := endsClose_append hV h
    rw [List.cons_append]
    by_cases hx : x = .Close
    · subst hx; rw [endsClose_close, endsClose_close]; exact ih
    · rw [endsClose_other _ hx, endsClose_other _ hx]

theorem endsCloseSp_append {X : SB → Bool} {V : List SB} {b : SB} (hV : b = .Close → endsClose X V = false)
    (hS : b = .Sp → endsCloseSp X V = false) :
    ∀ {U : List SB}, U.getLast? = some b → endsCloseSp X (U ++ V) = endsCloseSp X U
  | [], h => by simp at h
  | [x], h => by
    simp at h
    subst h
    by_cases hx : x = .Sp
    · subst hx
      rw [List.singleton_append, endsCloseSp_sp, endsCloseSp_sp, hS rfl]; rfl
    · rw [List.singleton_append, endsCloseSp_not _ hx, endsCloseSp_not _ hx]
      exact endsClose_append (U := [x]) hV rfl
  | x :: y :: U, h => by
    have h' := h
    rw [List.getLast?_cons_cons] at h
    have ih := endsCloseSp_append hV hS h
    by_cases hx : x = .Sp
    · subst hx; rw [List.cons_append, endsCloseSp_sp, endsCloseSp_sp]; exact ih
    · have := endsClose_append (U := x :: y :: U) hV h'
      rw [List.cons_append] at this ⊢
      rw [endsCloseSp_not _ hx, endsCloseSp_not _ hx]
      exact this

theorem endsCloseSp_mono {X Y : SB → Bool} (h : ∀ x, X x = true → Y x = true) {l : List SB}
    (hy : endsCloseSp Y l = false) : endsCloseSp X l = false := by
  rw [Bool.eq_false_iff]; intro hx
  unfold endsCloseSp at hx hy
  rw [endsClose_mono h hx] at hy; cases hy

/-- What is before `U` does not matter, if its last unit `b` does not look at it. -/
theorem sunitJoins_append {ahead : Bool} {U V : List SB} {b : SB} (hU : U.getLast? = some b)
    (h2 : b = .ATerm → V.head?.any (fun x => x = .Upper || x = .Lower) = false)
    (h3 : b = .Close → endsClose (·.saTerm) V = false) (h4 : b = .Sp → endsCloseSp (·.saTerm) V = false)
    (hp : U.head?.any (·.paraSep) = false) (c : SB) :
    sunitJoins ahead (U ++ V) c = sunitJoins ahead U c := by
  have e1 : ∀ f : SB → Bool, (U ++ V).head?.any f = U.head?.any f := by
    intro f
    cases U with
    | nil => simp at hU
    | cons => rfl
  have e2 := endsClose_append h3 hU
  have e3 := endsCloseSp_append h3 h4 hU
  have e4 : endsCloseSp (· = .ATerm) (U ++ V) = endsCloseSp (· = .ATerm) U := by
    refine endsCloseSp_append ?_ ?_ hU
    · intro h
      rw [Bool.eq_false_iff]; intro h'
      have := h3 h
      rw [endsClose_mono ateTerm_saTerm h'] at this; cases this
    · intro h; exact endsCloseSp_mono ateTerm_saTerm (h4 h)
  have e5 : ((U ++ V).tail.head?.any (fun x => x = .Upper || x = .Lower) && U.head?.any (· = .ATerm))
      = (U.tail.head?.any (fun x => x = .Upper || x = .Lower) && U.head?.any (· = .ATerm)) := by
    cases U with
    | nil => simp at hU
    | cons x U =>
      cases U with
      | nil =>
        simp at hU
        subst hU
        by_cases hx : x = .ATerm
        · simp [h2 hx]
        · simp [hx]
      | cons y U => rfl
  unfold sunitJoins
  dsimp only
  simp only [e1, e2, e3, e4, e5, hp, Bool.false_and, Bool.or_false]

/-- At a boundary the text before does not matter for later positions. -/
theorem sjoinsIf_restart {a b : SB} {A B C C' : List SB} {ahead ahead' : Bool}
    (h : sjoinsIf ahead (a :: A) (b :: C') = false) :
    sjoinsIf ahead' ((b :: B).reverse ++ a :: A) C = sjoinsIf ahead' (b :: B).reverse C := by
  have hlast : (b :: B).reverse.getLast? = some b := by simp
  generalize hL : (b :: B).reverse = L at *
  have hLne : L ≠ [] := by rw [← hL]; simp
  obtain ⟨x, L', hx⟩ := List.exists_cons_of_ne_nil hLne
  cases C with
  | nil => rw [hx]; simp [sjoinsIf]
  | cons c C =>
    -- what the break says
    have hbreak : (b.ignorable = false ∨ a.paraSep = true)
        ∧ (b = .ATerm → (sunits (a :: A)).head?.any (fun x => x = .Upper || x = .Lower) = false)
        ∧ (b = .Close → endsClose (·.saTerm) (sunits (a :: A)) = false)
        ∧ (b = .Sp → endsCloseSp (·.saTerm) (sunits (a :: A)) = false) := by
      by_cases ha : a.paraSep = true
      · have hi : a.ignorable = false := by revert ha; cases a <;> decide
        rw [sunits_solid hi]
        have h1 : a ≠ .Close := by rintro rfl; cases ha
        have h2 : a ≠ .Sp := by rintro rfl; cases ha
        refine ⟨.inr ha, ?_, ?_, ?_⟩
        · intro _; rw [List.head?_cons, Option.any_some]; revert ha; cases a <;> decide
        · intro _; rw [endsClose_other _ h1]; revert ha; cases a <;> decide
        · intro _; rw [endsCloseSp_not _ h2, endsClose_other _ h1]; revert ha; cases a <;> decide
      · simp only [sjoinsIf] at h
        split at h
        · cases h
        split at h
        · cases h
        rename_i hb
        have hb : b.ignorable = false := by simpa using hb
        have hbefore : (sunits (a :: A)).head?.any (·.paraSep) = false := by
          rw [Bool.eq_false_iff]; intro h; exact ha (sunits_head_para h)
        unfold sunitJoins at h
        dsimp only at h
        split at h
        · cases h
        split at h
        · cases h
        split at h
        · cases h
        split at h
        · cases h
        rename_i h8a
        split at h
        · cases h
        rename_i h9
        split at h
        · cases h
        rename_i h10
        split at h
        · rename_i h11
          rw [hbefore, Bool.false_and, Bool.or_false] at h11
          refine ⟨.inl hb, ?_, ?_, ?_⟩
          · rintro rfl; exfalso; apply h8a; rw [h11]; rfl
          · rintro rfl
            rw [Bool.eq_false_iff]; intro h'; apply h9; rw [h']; rfl
          · rintro rfl; exfalso; apply h10; rw [h11]; rfl
        · cases h
    obtain ⟨k1, k2, k3, k4⟩ := hbreak
    have happ := sunits_append (a := a) (A := A) hlast k1
    by_cases hxp : x.paraSep = true
    · rw [hx]
      simp only [List.cons_append, sjoinsIf, if_pos hxp]
    · have hx0 : (sunits L).head?.any (·.paraSep) = false := by
        rw [Bool.eq_false_iff, hx]; intro h; exact hxp (sunits_head_para h)
      rw [hx] at happ hx0 ⊢
      simp only [List.cons_append, sjoinsIf]
      rw [← List.cons_append, happ]
      rw [← hx] at hx0 happ ⊢
      have hjoin : sunitJoins ahead' (sunits L ++ sunits (a :: A)) c = sunitJoins ahead' (sunits L) c := by
        by_cases hbi : b.ignorable = false
        · exact sunitJoins_append (sunits_getLast hlast (.inl hbi)) k2 k3 k4 hx0 c
        · -- an ignored character after a ParaSep
          have ha : a.paraSep = true := by
            rcases k1 with h | h
            · exact absurd h hbi
            · exact h
          obtain ⟨u, hu⟩ : ∃ u, (sunits L).getLast? = some u := by
            have := sunits_ne_nil hLne
            exact ⟨(sunits L).getLast this, List.getLast?_eq_some_getLast this⟩
          have hi : a.ignorable = false := by revert ha; cases a <;> decide
          have h1 : a ≠ .Close := by rintro rfl; cases ha
          have h2 : a ≠ .Sp := by rintro rfl; cases ha
          refine sunitJoins_append hu ?_ ?_ ?_ hx0 c
          · intro _; rw [sunits_solid hi, List.head?_cons, Option.any_some]; revert ha; cases a <;> decide
          · intro _; rw [sunits_solid hi, endsClose_other _ h1]; revert ha; cases a <;> decide
          · intro _; rw [sunits_solid hi, endsCloseSp_not _ h2, endsClose_other _ h1]; revert ha; cases a <;> decide
      rw [hjoin]

end Uax29.Spec
