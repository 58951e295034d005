import Verif.Proofs.Greedy
/-! # From boundaries to tokens -/
namespace Uax29
open Spec

variable {α : Type}

/-- There is a boundary before and after every token. -/
theorem boundary_before (A B : List (List α)) : Boundary (A ++ B) A.flatten := ⟨A.length, by simp⟩

theorem boundary_after (A : List (List α)) (g : List α) (B : List (List α)) :
    Boundary (A ++ g :: B) (A.flatten ++ g) := ⟨A.length + 1, by
  rw [List.take_append, List.take_of_length_le (by omega)]; simp⟩

/-- There is no boundary within a token. -/
theorem boundary_inside {x y : List α} (hx : x ≠ []) (hy : y ≠ []) (B : List (List α)) :
    ∀ A : List (List α), ¬ Boundary (A ++ (x ++ y) :: B) (A.flatten ++ x)
  | [] => by
    simp only [List.nil_append, List.flatten_nil]
    rw [boundary_cons]
    rintro (h | ⟨a', h, _⟩)
    · exact hx h
    · have := congrArg List.length h
      have := List.length_pos_iff.mpr hy
      rw [List.length_append, List.length_append] at *
      omega
  | g :: A => by
    simp only [List.cons_append, List.flatten_cons, List.append_assoc]
    rw [boundary_cons]
    rintro (h | ⟨a', h, h2⟩)
    · simp [hx] at h
    · rw [List.append_cancel_left_eq] at h
      exact boundary_inside hx hy B A (h ▸ h2)

theorem flatten_ne_nil {ts : List (List α)} (h : ∀ t ∈ ts, t ≠ []) (hts : ts ≠ []) : ts.flatten ≠ [] := by
  obtain ⟨t, ts, rfl⟩ := List.exists_cons_of_ne_nil hts
  have := h t (by simp)
  simp [this]

/-- The boundaries determine the tokens. -/
theorem boundary_unique : ∀ {ts us : List (List α)}, ts.flatten = us.flatten → (∀ t ∈ ts, t ≠ []) →
    (∀ u ∈ us, u ≠ []) → (∀ a b, ts.flatten = a ++ b → (Boundary ts a ↔ Boundary us a)) → ts = us
  | [], [], _, _, _, _ => rfl
  | [], u :: us, h, _, hu, _ => absurd h.symm (flatten_ne_nil hu (by simp))
  | t :: ts, [], h, ht, _, _ => absurd h (flatten_ne_nil ht (by simp))
  | t :: ts, u :: us, h, ht, hu, hb => by
    have ht0 := ht t (by simp)
    have hu0 := hu u (by simp)
    have first : ∀ {t u : List α} {ts us : List (List α)}, t ≠ [] → u ≠ [] → t ++ ts.flatten = u ++ us.flatten →
        Boundary (u :: us) t → u.length ≤ t.length := by
      intro t u ts us ht hu h hb
      rcases boundary_cons.mp hb with h1 | ⟨a', h1, _⟩
      · exact absurd h1 ht
      · rw [h1]; simp
    have hfl : t ++ ts.flatten = u ++ us.flatten := by simpa using h
    have k1 := first ht0 hu0 hfl ((hb t ts.flatten (by simp)).mp (by
      simpa using boundary_after ([] : List (List α)) t ts))
    have k2 := first (ts := us) (us := ts) hu0 ht0 hfl.symm ((hb u us.flatten (by simpa using h)).mpr (by
      simpa using boundary_after ([] : List (List α)) u us))
    have htu : t = u := (List.append_inj hfl (by omega)).1
    subst htu
    rw [List.append_cancel_left_eq] at hfl
    rw [boundary_unique hfl (fun x hx => ht x (List.mem_cons_of_mem _ hx))
      (fun x hx => hu x (List.mem_cons_of_mem _ hx))]
    intro a b hab
    have := hb (t ++ a) b (by simp [hab])
    rw [boundary_cons, boundary_cons] at this
    simpa [ht0] using this

/-- A text without a boundary inside is one token. -/
theorem boundary_one {ts : List (List α)} {s : List α} (hs : ts.flatten = s) (hne : s ≠ []) (ht : ∀ t ∈ ts, t ≠ [])
    (h : ∀ a b, s = a ++ b → a ≠ [] → b ≠ [] → ¬ Boundary ts a) : ts = [s] := by
  cases ts with
  | nil => exact absurd hs.symm hne
  | cons t ts =>
    have hfl : s = t ++ ts.flatten := by simpa using hs.symm
    by_cases hts : ts = []
    · subst hts
      rw [hfl]
      simp
    · refine absurd ?_ (h t ts.flatten hfl (ht t (by simp))
        (flatten_ne_nil (fun x hx => ht x (List.mem_cons_of_mem _ hx)) hts))
      simpa using boundary_after ([] : List (List α)) t ts

/-- A token with a boundary before and after each of its elements that satisfy `P` is that element. -/
theorem boundary_alone {A B : List (List α)} {g : List α} {x y : List α} {c : α} (hg : g = x ++ c :: y)
    (h1 : Boundary (A ++ g :: B) (A.flatten ++ x)) (h2 : Boundary (A ++ g :: B) (A.flatten ++ x ++ [c])) :
    g = [c] := by
  have hx : x = [] := by
    apply Classical.byContradiction
    intro hx
    exact boundary_inside hx (y := c :: y) (by simp) B A (by rw [← hg]; exact h1)
  have hy : y = [] := by
    apply Classical.byContradiction
    intro hy
    exact boundary_inside (x := x ++ [c]) (by simp) hy B A (by
      rw [show (x ++ [c]) ++ y = g by simp [hg], ← List.append_assoc]
      exact h2)
  rw [hg, hx, hy]
  rfl

end Uax29
