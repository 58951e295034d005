import Verif.Proofs.GenMain
/-! # The names of the properties in order -/
namespace Uax29.Gen
open Spec

theorem le_total' (a b : String) : (decide (a ≤ b) || decide (b ≤ a)) = true := by
  rcases String.le_total a b with h | h <;> simp [h]

theorem le_trans' (a b c : String) (h1 : decide (a ≤ b) = true) (h2 : decide (b ≤ c) = true) :
    decide (a ≤ c) = true :=
  decide_eq_true (String.le_trans (of_decide_eq_true h1) (of_decide_eq_true h2))

/-- The sorted names are the given sorted names. -/
theorem properties_eq {m : List (String × List Nat)} {names : List String}
    (hp : (m.map (·.1)).Perm names) (hs : names.Pairwise fun a b => decide (a ≤ b) = true) :
    properties m = names := by
  have h1 : (properties m).Pairwise fun a b => decide (a ≤ b) = true :=
    List.pairwise_mergeSort le_trans' le_total' _
  refine ((properties_perm m).trans hp).eq_of_pairwise ?_ h1 hs
  intro a b _ _ h1 h2
  exact String.le_antisymm (of_decide_eq_true h1) (of_decide_eq_true h2)

theorem iotasOf_lt {m : List (String × List Nat)} (r : Nat) : iotasOf m r < 2 ^ m.length := by
  have h0 : ∀ p, iotaOf m p < 2 ^ m.length := by
    intro p
    unfold iotaOf
    cases h : (properties m).idxOf? p with
    | none => exact Nat.two_pow_pos _
    | some j =>
      obtain ⟨hj, _⟩ := List.findIdx?_eq_some_iff_getElem.mp h
      rw [(properties_perm m).length_eq, List.length_map] at hj
      simp only [Nat.one_shiftLeft]
      exact Nat.lt_of_le_of_lt (Nat.mod_le _ _) (Nat.pow_lt_pow_right (by omega) hj)
  unfold iotasOf
  have key : ∀ (l : List (String × List Nat)) a, a < 2 ^ m.length →
      l.foldl (fun acc e => if r ∈ e.2 then acc ||| iotaOf m e.1 else acc) a < 2 ^ m.length := by
    intro l
    induction l with
    | nil => intro a ha; exact ha
    | cons e l ih =>
      intro a ha
      rw [List.foldl_cons]
      apply ih
      split
      · exact Nat.or_lt_two_pow ha (h0 _)
      · exact ha
  exact key m 0 (Nat.two_pow_pos _)

end Uax29.Gen
