/-! # Facts about lists -/
namespace Uax29

variable {α : Type}

theorem length_takeWhile_le (p : α → Bool) : ∀ l : List α, (l.takeWhile p).length ≤ l.length
  | [] => by simp
  | a :: l => by
    have := length_takeWhile_le p l
    rw [List.takeWhile_cons]
    split <;> simp
    omega

theorem takeWhile_length {p : α → Bool} : ∀ {l : List α}, (l.takeWhile p).length = l.length →
    ∀ x ∈ l, p x = true
  | [], _, _, hx => by simp at hx
  | a :: l, h, x, hx => by
    rw [List.takeWhile_cons] at h
    split at h
    · rename_i ha
      rcases List.mem_cons.mp hx with rfl | hx
      · exact ha
      · exact takeWhile_length (by simpa using h) x hx
    · simp at h

theorem takeWhile_all {p : α → Bool} : ∀ {l : List α}, (∀ x ∈ l, p x = true) → l.takeWhile p = l
  | [], _ => by simp
  | a :: l, h => by
    rw [List.takeWhile_cons_of_pos (h a List.mem_cons_self),
      takeWhile_all fun x hx => h x (List.mem_cons_of_mem _ hx)]

theorem dropWhile_nil {p : α → Bool} : ∀ {l : List α}, l.dropWhile p = [] → ∀ x ∈ l, p x = true
  | [], _, _, hx => by simp at hx
  | a :: l, h, x, hx => by
    rw [List.dropWhile_cons] at h
    split at h
    · rename_i ha
      rcases List.mem_cons.mp hx with rfl | hx
      · exact ha
      · exact dropWhile_nil h x hx
    · simp at h

theorem dropWhile_all {p : α → Bool} : ∀ {l : List α}, (∀ x ∈ l, p x = true) → l.dropWhile p = []
  | [], _ => by simp
  | a :: l, h => by
    rw [List.dropWhile_cons_of_pos (h a List.mem_cons_self),
      dropWhile_all fun x hx => h x (List.mem_cons_of_mem _ hx)]

theorem head?_append_ne {a b : List α} (h : a ≠ []) : (a ++ b).head? = a.head? := by
  cases a with
  | nil => exact absurd rfl h
  | cons x a => rfl

end Uax29
