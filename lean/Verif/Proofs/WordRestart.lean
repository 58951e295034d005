import Verif.Proofs.WordMachine
/-! # After a boundary the text before it does not matter to the word rules -/
namespace Uax29
open Spec

theorem units_ne_nil : ∀ {l : List WSet}, l ≠ [] → units l ≠ []
  | [], h => absurd rfl h
  | [a], _ => by simp [units]
  | a :: c :: l, _ => by
    rw [units]
    split
    · exact units_ne_nil (by simp)
    · simp

/-- The characters of `X` stay separate from those of `a :: A` if the first of `X` does. -/
theorem units_append {b a : WSet} {A : List WSet} (h : b.ignorable = false ∨ a.newline = true) :
    ∀ (X : List WSet), units (X ++ b :: a :: A) = units (X ++ [b]) ++ units (a :: A)
  | [] => by
    rcases h with h | h <;> simp [units, h]
  | [x] => by
    have := units_append h (A := A) []
    simp only [List.nil_append] at this
    simp only [List.cons_append, List.nil_append]
    rw [units, this]
    split <;> rename_i hx <;> simp [units, hx]
  | x :: y :: X => by
    have := units_append h (A := A) (y :: X)
    simp only [List.cons_append] at this ⊢
    rw [units, units]
    simp only [this]
    split <;> rfl

theorem units_getLast (b : WSet) : ∀ (X : List WSet), ∃ U, units (X ++ [b]) = U ++ [b]
  | [] => ⟨[], rfl⟩
  | [x] => by
    simp only [List.cons_append, List.nil_append, units]
    split
    · exact ⟨[], rfl⟩
    · exact ⟨[x], rfl⟩
  | x :: y :: X => by
    obtain ⟨U, hU⟩ := units_getLast b (y :: X)
    simp only [List.cons_append] at hU ⊢
    rw [units]
    simp only [hU]
    split
    · exact ⟨U, rfl⟩
    · exact ⟨x :: U, rfl⟩

/-- If `b` is the only unit, the characters after it are ignored. -/
theorem units_single {b : WSet} : ∀ {X : List WSet}, units (X ++ [b]) = [b] →
    (∀ x ∈ X, x.ignorable = true) ∧ (X ≠ [] → b.newline = false)
  | [], _ => by simp
  | [x], h => by
    simp only [List.cons_append, List.nil_append, units] at h
    split at h
    · rename_i hx
      simp only [Bool.and_eq_true, Bool.not_eq_true'] at hx
      refine ⟨?_, fun _ => hx.2⟩
      intro y hy
      rw [List.mem_singleton.mp hy]; exact hx.1
    · simp at h
  | x :: y :: X, h => by
    simp only [List.cons_append] at h
    rw [units] at h
    split at h
    · rename_i hx
      simp only [Bool.and_eq_true] at hx
      obtain ⟨h1, h2⟩ := units_single (X := y :: X) h
      refine ⟨?_, fun _ => h2 (by simp)⟩
      intro z hz
      rcases List.mem_cons.mp hz with rfl | hz
      · exact hx.1
      · exact h1 z hz
    · have := units_ne_nil (l := y :: (X ++ [b])) (by simp)
      simp at h
      exact absurd h.2 this

theorem joins_restart (ph : Bool) : Restart OkSet (joins ph) := by
  intro A B C hA hB pA pB pC hj
  obtain ⟨a, A, rfl⟩ := List.exists_cons_of_ne_nil hA
  obtain ⟨b, B, rfl⟩ := List.exists_cons_of_ne_nil hB
  have ha := pA a List.mem_cons_self
  have hb := pB b List.mem_cons_self
  have hsep : b.ignorable = false ∨ a.newline = true := by
    cases h1 : b.ignorable
    · exact .inl rfl
    · right
      cases h2 : a.newline
      · rw [List.cons_append, joins_ignorable ph _ _ h2 (hb.ign h1) h1] at hj; cases hj
      · rfl
  cases C with
  | nil =>
    have h1 : ∀ l, joins ph l [] = false := by intro l; cases l <;> rfl
    rw [h1, h1]
  | cons c C =>
  have hrev : (b :: B).reverse = B.reverse ++ [b] := by simp
  have hU : units ((b :: B).reverse ++ a :: A) = units (b :: B).reverse ++ units (a :: A) := by
    rw [hrev, List.append_assoc]; exact units_append hsep _
  obtain ⟨U, hUb⟩ := units_getLast b B.reverse
  rw [← hrev] at hUb
  obtain ⟨x, X, hX⟩ := List.exists_cons_of_ne_nil (l := (b :: B).reverse) (by simp)
  rw [hX] at hUb hU
  have hq : a.newline = false → b.newline = false →
      unitJoins ph (units (a :: A)) b (((B ++ c :: C).dropWhile (·.ignorable)).head?) = false := by
    intro h1 h2
    rw [Bool.eq_false_iff]
    intro h3
    rw [List.cons_append, joins_units ph A (B ++ c :: C) h1 h2 h3] at hj
    cases hj
  have hanl : ∀ (P : WSet → Bool), (∀ y, OkSet y → P y = true → y.newline = false) →
      (units (a :: A)).head?.any P = true → a.newline = false := by
    intro P hP h
    cases h1 : a.newline
    · rfl
    · have h2 : a.ignorable = false := by
        cases h2 : a.ignorable
        · rfl
        · have := ha.ign h2; rw [this] at h1; cases h1
      rw [units_cons_solid h2] at h
      simp only [List.head?_cons, Option.any_some] at h
      rw [hP a ha h] at h1; cases h1
  rw [hX, List.cons_append, joins, joins]
  split
  · rfl
  split
  · rfl
  rename_i hnl
  simp only [Bool.or_eq_true, not_or, Bool.not_eq_true] at hnl
  split
  · rfl
  split
  · rfl
  split
  · rfl
  rename_i hci
  have hci : c.ignorable = false := by simpa using hci
  rw [List.cons_append] at hU
  rw [hU, hUb]
  generalize hV : units (a :: A) = V at hq hanl
  have hodd : decide ((((U ++ [b]) ++ V).takeWhile (· .RegionalIndicator)).length % 2 = 1)
      = decide (((U ++ [b]).takeWhile (· .RegionalIndicator)).length % 2 = 1) := by
    rw [List.takeWhile_append]
    split
    · rename_i hall
      have hbr : b .RegionalIndicator = true := takeWhile_length hall b (by simp)
      have hlen : (List.takeWhile (fun y : WSet => y .RegionalIndicator) (U ++ [b])) = U ++ [b] :=
        List.IsPrefix.eq_of_length (List.takeWhile_prefix _) (by simpa using hall)
      rw [hlen, List.length_append]
      have heven : (V.takeWhile (fun y : WSet => y .RegionalIndicator)).length % 2 = 0 := by
        rcases Nat.mod_two_eq_zero_or_one (V.takeWhile (fun y : WSet => y .RegionalIndicator)).length with h | h
        · exact h
        · exfalso
          have h1 : V.head?.any (· .RegionalIndicator) = true := by
            cases V with
            | nil => simp at h
            | cons v V =>
              cases hv : v .RegionalIndicator
              · simp [hv] at h
              · simp [hv]
          have := hq (hanl _ (fun y hy => hy.ri) h1) (hb.ri hbr)
          unfold unitJoins at this
          simp [h, hbr] at this
      congr 1
      simp only [eq_iff_iff]
      omega
    · rfl
  have hhead : ((U ++ [b]) ++ V).head? = (U ++ [b]).head? := head?_append_ne (by simp)
  cases hUe : U with
  | cons u U' =>
    subst hUe
    unfold unitJoins
    rw [hodd, hhead]
    have : (u :: U' ++ [b] ++ V).tail.head? = (u :: U' ++ [b]).tail.head? := by
      simp only [List.cons_append, List.tail_cons]
      exact head?_append_ne (by simp)
    rw [this]
  | nil =>
    subst hUe
    rw [← hX, hrev, List.nil_append] at hUb
    obtain ⟨hs1, hs2⟩ := units_single hUb
    have hbn : b.newline = false := by
      by_cases hB : B = []
      · subst hB
        simp at hX
        rw [hX.1]; exact hnl.1
      · exact hs2 (by simpa using hB)
    have hnext : ((B ++ c :: C).dropWhile (·.ignorable)).head? = some c := by
      rw [List.dropWhile_append]
      have : B.dropWhile (fun y : WSet => y.ignorable) = [] := dropWhile_all (by
        intro y hy; exact hs1 y (by simpa using hy))
      rw [this]
      simp [hci]
    rw [hnext] at hq
    have hq' := fun h => hq h hbn
    have lAH : ∀ y, OkSet y → y.ahLetter ph = true → y.newline = false := by
      intro y hy h
      apply hy.letter
      simp only [WSet.ahLetter, Bool.or_eq_true, Bool.and_eq_true] at h ⊢
      rcases h with h | ⟨_, h⟩
      · exact .inl (.inl h)
      · exact .inl (.inr ⟨trivial, h⟩)
    have lH : ∀ y, OkSet y → y .HebrewLetter = true → y.newline = false := by
      intro y hy h; apply hy.letter; simp [WSet.ahLetter, h]
    have lN : ∀ y, OkSet y → y .Numeric = true → y.newline = false := by
      intro y hy h; apply hy.letter; simp [h]
    have e7 : (V.head?.any (·.ahLetter ph) && b.midLetter && c.ahLetter ph) = false := by
      rw [Bool.eq_false_iff]
      intro h
      simp only [Bool.and_eq_true] at h
      have := hq' (hanl _ lAH h.1.1)
      unfold unitJoins at this
      simp [h.1.1, h.1.2, h.2] at this
    have e7c : (V.head?.any (· .HebrewLetter) && b .DoubleQuote && c .HebrewLetter) = false := by
      rw [Bool.eq_false_iff]
      intro h
      simp only [Bool.and_eq_true] at h
      have := hq' (hanl _ lH h.1.1)
      unfold unitJoins at this
      simp [h.1.1, h.1.2, h.2] at this
    have e11 : (V.head?.any (· .Numeric) && b.midNum && c .Numeric) = false := by
      rw [Bool.eq_false_iff]
      intro h
      simp only [Bool.and_eq_true] at h
      have := hq' (hanl _ lN h.1.1)
      unfold unitJoins at this
      simp [h.1.1, h.1.2, h.2] at this
    unfold unitJoins
    rw [hodd, hhead]
    simp only [List.nil_append, List.singleton_append, List.tail_cons, List.head?_cons, Option.any_some, e7, e7c, e11,
      List.head?_nil, Option.any_none, Bool.false_and]

end Uax29
