import Verif.Spec.Boundary
/-! # Greedy segmentation by a rule that says whether a position joins

`J left right` says that there is no boundary between `left`, given nearest first, and `right`. -/
namespace Uax29
open Spec

variable {α : Type}

/-- How many elements of `right` are joined one after the other to `left`. -/
def grow (J : List α → List α → Bool) : List α → List α → Nat
  | _, [] => 0
  | left, b :: right => if J left (b :: right) then 1 + grow J (b :: left) right else 0

/-- The length of the first segment. -/
def firstLen (J : List α → List α → Bool) : List α → Nat
  | [] => 0
  | a :: right => 1 + grow J [a] right

theorem grow_le (J : List α → List α → Bool) : ∀ left right, grow J left right ≤ right.length
  | _, [] => by simp [grow]
  | left, b :: right => by
    have := grow_le J (b :: left) right
    simp only [grow]
    split <;> simp <;> omega

theorem grow_join {J : List α → List α → Bool} : ∀ {right left : List α} {i : Nat},
    i < grow J left right → J ((right.take i).reverse ++ left) (right.drop i) = true
  | [], _, i, h => by simp [grow] at h
  | b :: right, left, i, h => by
    simp only [grow] at h
    split at h
    · rename_i hj
      cases i with
      | zero => simpa using hj
      | succ i =>
        have := grow_join (J := J) (right := right) (left := b :: left) (i := i) (by omega)
        simpa using this
    · omega

theorem grow_stop {J : List α → List α → Bool} : ∀ {right left : List α},
    grow J left right < right.length →
    J ((right.take (grow J left right)).reverse ++ left) (right.drop (grow J left right)) = false
  | [], _, h => by simp [grow] at h
  | b :: right, left, h => by
    simp only [grow] at h ⊢
    split at h
    · rename_i hj
      have := grow_stop (J := J) (right := right) (left := b :: left) (by simp at h; omega)
      simp only [hj, if_true]
      rw [Nat.add_comm 1]
      simpa using this
    · rename_i hj
      simp only [hj]
      simpa using hj

/-- `grow` depends only on the decisions. -/
theorem grow_congr {J J' : List α → List α → Bool} : ∀ {right left left' : List α},
    (∀ i, i < right.length →
      J ((right.take i).reverse ++ left) (right.drop i) = J' ((right.take i).reverse ++ left') (right.drop i)) →
    grow J left right = grow J' left' right
  | [], _, _, _ => by simp [grow]
  | b :: right, left, left', h => by
    have h0 := h 0 (by simp)
    simp at h0
    simp only [grow, h0]
    rw [grow_congr (J' := J') (left' := b :: left')]
    intro i hi
    have := h (i + 1) (by simp; omega)
    simpa using this

/-- If everything in `a` is joined, `grow` goes on after it. -/
theorem grow_append {J : List α → List α → Bool} : ∀ {a b left : List α},
    (∀ i, i < a.length → J ((a.take i).reverse ++ left) (a.drop i ++ b) = true) →
    grow J left (a ++ b) = a.length + grow J (a.reverse ++ left) b
  | [], _, _, _ => by simp
  | x :: a, b, left, h => by
    have h0 := h 0 (by simp)
    simp at h0
    have := grow_append (J := J) (a := a) (b := b) (left := x :: left) (by
      intro i hi
      have := h (i + 1) (by simp; omega)
      simpa using this)
    simp only [List.cons_append, grow, h0, if_true, this]
    simp
    omega

theorem firstLen_pos (J : List α → List α → Bool) {l : List α} (h : l ≠ []) : 0 < firstLen J l := by
  cases l with
  | nil => exact absurd rfl h
  | cons a r => simp only [firstLen]; omega

theorem firstLen_le (J : List α → List α → Bool) (l : List α) : firstLen J l ≤ l.length := by
  cases l with
  | nil => simp [firstLen]
  | cons a r => have := grow_le J [a] r; simp [firstLen]; omega

theorem firstLen_join {J : List α → List α → Bool} {l : List α} {i : Nat} (h0 : 0 < i)
    (h : i < firstLen J l) : J (l.take i).reverse (l.drop i) = true := by
  cases l with
  | nil => simp [firstLen] at h
  | cons a r =>
    obtain ⟨i, rfl⟩ : ∃ k, i = k + 1 := ⟨i - 1, by omega⟩
    simp only [firstLen] at h
    have := grow_join (J := J) (right := r) (left := [a]) (i := i) (by omega)
    simpa using this

theorem firstLen_stop {J : List α → List α → Bool} {l : List α} (h : firstLen J l < l.length) :
    J (l.take (firstLen J l)).reverse (l.drop (firstLen J l)) = false := by
  cases l with
  | nil => simp at h
  | cons a r =>
    simp only [firstLen] at h ⊢
    have := grow_stop (J := J) (right := r) (left := [a]) (by simp at h; omega)
    rw [Nat.add_comm 1]
    simpa using this

/-- The characterization of the length of the first segment. -/
theorem firstLen_eq {J : List α → List α → Bool} {l : List α} {n : Nat} (h0 : 0 < n) (hn : n ≤ l.length)
    (hj : ∀ i, 0 < i → i < n → J (l.take i).reverse (l.drop i) = true)
    (hs : n < l.length → J (l.take n).reverse (l.drop n) = false) : firstLen J l = n := by
  have hp : 0 < firstLen J l := firstLen_pos J (by rintro rfl; simp at hn; omega)
  have hl := firstLen_le J l
  rcases Nat.lt_trichotomy (firstLen J l) n with h | h | h
  · have h1 := hj _ hp h
    rw [firstLen_stop (J := J) (l := l) (by omega)] at h1
    cases h1
  · exact h
  · have h1 := firstLen_join h0 h
    rw [hs (by omega)] at h1
    cases h1

/-- Greedy segmentation. -/
def greedy (J : List α → List α → Bool) (l : List α) : List (List α) :=
  if _h : l = [] then []
  else l.take (firstLen J l) :: greedy J (l.drop (firstLen J l))
termination_by l.length
decreasing_by
  have := firstLen_pos J ‹_›
  have : 0 < l.length := List.length_pos_iff.mpr ‹_›
  simp; omega

theorem greedy_nil (J : List α → List α → Bool) : greedy J [] = [] := by rw [greedy]; simp

theorem greedy_cons (J : List α → List α → Bool) {l : List α} (h : l ≠ []) :
    greedy J l = l.take (firstLen J l) :: greedy J (l.drop (firstLen J l)) := by
  rw [greedy, dif_neg h]

theorem greedy_induction (J : List α → List α → Bool) {P : List α → Prop} (hnil : P [])
    (hcons : ∀ l, l ≠ [] → P (l.drop (firstLen J l)) → P l) : ∀ l, P l := by
  intro l
  induction hn : l.length using Nat.strongRecOn generalizing l with
  | _ n ih =>
    by_cases hl : l = []
    · exact hl ▸ hnil
    · have h1 := firstLen_pos J hl
      have h2 := firstLen_le J l
      exact hcons l hl (ih (l.drop (firstLen J l)).length (by simp; omega) _ rfl)

theorem greedy_flatten (J : List α → List α → Bool) (l : List α) : (greedy J l).flatten = l := by
  induction l using greedy_induction J with
  | hnil => simp [greedy_nil]
  | hcons l hl ih => rw [greedy_cons J hl, List.flatten_cons, ih, List.take_append_drop]

theorem greedy_ne_nil (J : List α → List α → Bool) (l : List α) : ∀ g ∈ greedy J l, g ≠ [] := by
  induction l using greedy_induction J with
  | hnil => simp [greedy_nil]
  | hcons l hl ih =>
    rw [greedy_cons J hl]
    intro g hg
    rcases List.mem_cons.mp hg with rfl | hg
    · have := firstLen_pos J hl
      rw [ne_eq, List.take_eq_nil_iff]
      rintro (h0 | h0)
      · omega
      · exact hl h0
    · exact ih g hg

/-- At a boundary the text before does not matter for later positions. -/
def Restart (P : α → Prop) (J : List α → List α → Bool) : Prop :=
  ∀ A B C : List α, A ≠ [] → B ≠ [] → (∀ x ∈ A, P x) → (∀ x ∈ B, P x) → (∀ x ∈ C, P x) →
    J A (B ++ C) = false → J (B.reverse ++ A) C = J B.reverse C

theorem boundary_nil (tokens : List (List α)) : Boundary tokens [] := ⟨0, rfl⟩

theorem boundary_cons {g : List α} {tokens : List (List α)} {a : List α} :
    Boundary (g :: tokens) a ↔ a = [] ∨ ∃ a', a = g ++ a' ∧ Boundary tokens a' := by
  constructor
  · rintro ⟨n, h⟩
    cases n with
    | zero => exact .inl h.symm
    | succ n => exact .inr ⟨_, h.symm, n, rfl⟩
  · rintro (rfl | ⟨a', rfl, n, h⟩)
    · exact boundary_nil _
    · exact ⟨n + 1, by simp [h]⟩

/-- The boundaries of the greedy segmentation are the positions where the rule does not join. -/
theorem greedy_boundary {P : α → Prop} {J : List α → List α → Bool} (hr : Restart P J) (l : List α)
    (hl : ∀ x ∈ l, P x) : ∀ a b, l = a ++ b →
    (Boundary (greedy J l) a ↔ a = [] ∨ b = [] ∨ J a.reverse b = false) := by
  induction l using greedy_induction J with
  | hnil =>
    intro a b h
    have : a = [] := by simp at h; exact h.1
    simp [this, boundary_nil]
  | hcons l hne ih =>
    intro a b h
    by_cases ha : a = []
    · simp [ha, boundary_nil]
    have hapos : 0 < a.length := List.length_pos_iff.mpr ha
    have hp := firstLen_pos J hne
    have hle := firstLen_le J l
    have hla : l.take a.length = a := by simp [h]
    have hlb : l.drop a.length = b := by simp [h]
    have hlen : l.length = a.length + b.length := by rw [h]; simp
    rw [greedy_cons J hne, boundary_cons]
    rcases Nat.lt_or_ge a.length (firstLen J l) with hlt | hge
    · have hj := firstLen_join hapos hlt
      rw [hla, hlb] at hj
      have hb : b ≠ [] := by rintro rfl; simp at hlen; omega
      simp only [ha, hb, hj, false_or, Bool.true_eq_false, iff_false]
      rintro ⟨a', h1, _⟩
      have := congrArg List.length h1
      simp at this
      omega
    · have hta : l.take (firstLen J l) = a.take (firstLen J l) := by
        have h1 : (a ++ b).take (firstLen J l) = a.take (firstLen J l) :=
          List.take_append_of_le_length hge
        rw [← h] at h1
        exact h1
      have hda : l.drop (firstLen J l) = a.drop (firstLen J l) ++ b := by
        have h1 : (a ++ b).drop (firstLen J l) = a.drop (firstLen J l) ++ b :=
          List.drop_append_of_le_length hge
        rw [← h] at h1
        exact h1
      have hih := ih (fun x hx => hl x (List.mem_of_mem_drop hx)) _ _ hda
      have : (∃ a', a = l.take (firstLen J l) ++ a' ∧ Boundary (greedy J (l.drop (firstLen J l))) a')
          ↔ Boundary (greedy J (l.drop (firstLen J l))) (a.drop (firstLen J l)) := by
        rw [hta]
        constructor
        · rintro ⟨a', h1, h2⟩
          have : a' = a.drop (firstLen J l) := by
            have h3 : a.take (firstLen J l) ++ a.drop (firstLen J l) = a := List.take_append_drop ..
            rw [← h3] at h1
            have := List.append_inj_right h1 (by simp)
            exact this.symm
          exact this ▸ h2
        · intro h1
          exact ⟨_, (List.take_append_drop ..).symm, h1⟩
      rw [this, hih]
      simp only [ha, false_or]
      by_cases hb : b = []
      · simp [hb]
      simp only [hb, false_or]
      by_cases hd : a.drop (firstLen J l) = []
      · have hal : a.length = firstLen J l := by simp at hd; omega
        have hst := firstLen_stop (J := J) (l := l) (by
          have := List.length_pos_iff.mpr hb; omega)
        rw [← hal, hla, hlb] at hst
        simp [hd, hst]
      · have hbpos := List.length_pos_iff.mpr hb
        have hst := firstLen_stop (J := J) (l := l) (by omega)
        have hmem : ∀ x ∈ a, P x := fun x hx => hl x (by rw [h]; exact List.mem_append_left _ hx)
        have hmemb : ∀ x ∈ b, P x := fun x hx => hl x (by rw [h]; exact List.mem_append_right _ hx)
        rw [hda, hta] at hst
        have := hr (a.take (firstLen J l)).reverse (a.drop (firstLen J l)) b
          (by simp [ha]; omega) hd
          (fun x hx => hmem x (List.mem_of_mem_take (List.mem_reverse.mp hx)))
          (fun x hx => hmem x (List.mem_of_mem_drop hx)) hmemb hst
        rw [← List.reverse_append, List.take_append_drop] at this
        simp only [hd, false_or, this]

end Uax29
