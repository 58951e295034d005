import Verif.Model.GenPrint
import Verif.Proofs.TrieTree
/-! # The largest value of a tree -/
namespace Uax29.Gen

theorem le_foldl_max (l : List Nat) : ∀ m : Nat, m ≤ l.foldl (fun max v => if max < v then v else max) m
    ∧ ∀ v ∈ l, v ≤ l.foldl (fun max v => if max < v then v else max) m := by
  induction l with
  | nil => intro m; exact ⟨Nat.le_refl _, fun _ h => nomatch h⟩
  | cons x l ih =>
    intro m
    have h := ih (if m < x then x else m)
    have h2 : m ≤ (if m < x then x else m) ∧ x ≤ (if m < x then x else m) := by split <;> omega
    rw [List.foldl_cons]
    refine ⟨Nat.le_trans h2.1 h.1, fun v hv => ?_⟩
    rcases List.mem_cons.mp hv with rfl | hv
    · exact Nat.le_trans h2.2 h.1
    · exact h.2 v hv

theorem foldl_max_le {B : Nat} (l : List Nat) : ∀ m : Nat, m ≤ B → (∀ v ∈ l, v ≤ B) →
    l.foldl (fun max v => if max < v then v else max) m ≤ B := by
  induction l with
  | nil => intro m h _; exact h
  | cons x l ih =>
    intro m h hl
    rw [List.foldl_cons]
    refine ih _ ?_ fun v hv => hl v (List.mem_cons_of_mem _ hv)
    have := hl x List.mem_cons_self
    split <;> omega

/-- All values of the tree are at most `B`. -/
def AllValues (B : Nat) : Node → Prop
  | .nil => True
  | .mk _ children values => (∀ i, AllValues B (children i)) ∧ ∀ v ∈ values.getD [], v ≤ B

theorem maxValue_le {B : Nat} : ∀ n : Node, AllValues B n → ∀ m, m ≤ B → maxValue n m ≤ B := by
  intro n
  induction n with
  | nil => intro _ m hm; exact hm
  | mk hc ch vs ih =>
    intro h m hm
    rw [maxValue]
    refine foldl_max_le _ _ ?_ h.2
    generalize List.range (if hc = true then blockSize else 0) = l
    induction l generalizing m with
    | nil => exact hm
    | cons i l ihl =>
      rw [List.foldl_cons]
      exact ihl _ (ih i (h.1 i) m hm)

theorem le_maxValue : ∀ (n : Node) (m : Nat), m ≤ maxValue n m := by
  intro n
  induction n with
  | nil => intro m; exact Nat.le_refl _
  | mk hc ch vs ih =>
    intro m
    rw [maxValue]
    refine Nat.le_trans ?_ (le_foldl_max _ _).1
    generalize List.range (if hc = true then blockSize else 0) = l
    induction l generalizing m with
    | nil => exact Nat.le_refl _
    | cons i l ihl =>
      rw [List.foldl_cons]
      exact Nat.le_trans (ih i m) (ihl _)

theorem maxValue_value {v : Nat} {vs : List Nat} (hv : v ∈ vs) (hc : Bool) (ch : Nat → Node) (m : Nat) :
    v ≤ maxValue (.mk hc ch (some vs)) m := by
  rw [maxValue]
  exact (le_foldl_max _ _).2 v hv

/-- A value that is found from every start below the child is found below the node. -/
theorem maxValue_child {v i : Nat} {ch : Nat → Node} (hi : i < 64) (h : ∀ m, v ≤ maxValue (ch i) m)
    (vs : Option (List Nat)) (m : Nat) : v ≤ maxValue (.mk true ch vs) m := by
  rw [maxValue]
  refine Nat.le_trans ?_ (le_foldl_max _ _).1
  have hm : i ∈ List.range (if true = true then blockSize else 0) := List.mem_range.mpr hi
  revert hm
  generalize List.range (if true = true then blockSize else 0) = l
  induction l generalizing m with
  | nil => intro h; cases h
  | cons j l ih =>
    intro hm
    rw [List.foldl_cons]
    rcases List.mem_cons.mp hm with rfl | hm
    · refine Nat.le_trans (h m) ?_
      generalize maxValue (ch i) m = k
      clear ih
      induction l generalizing k with
      | nil => exact Nat.le_refl _
      | cons j l ihl =>
        rw [List.foldl_cons]
        exact Nat.le_trans (le_maxValue (ch j) k) (ihl List.mem_cons_self _)
    · exact ih _ hm

theorem maxValue_tree (f : Nat → Nat) : ∀ d p r, r < 64 ^ (d + 1) → ∀ m,
    f (p * 64 ^ (d + 1) + r) ≤ maxValue (tree f d p) m := by
  intro d
  induction d with
  | zero =>
    intro p r hr m
    rw [Nat.zero_add, Nat.pow_one] at hr ⊢
    rw [tree, leafOf]
    split
    · rename_i h
      rw [show f (p * 64 + r) = 0 from h r hr]
      exact Nat.zero_le _
    · exact maxValue_value (List.mem_map.mpr ⟨r, List.mem_range.mpr hr, rfl⟩ :
        f (p * 64 + r) ∈ (List.range 64).map fun i => f (p * 64 + i)) _ _ _
  | succ d ih =>
    intro p r hr m
    have hj : r / 64 ^ (d + 1) < 64 := by
      rw [Nat.div_lt_iff_lt_mul (Nat.pow_pos (by decide))]
      rw [Nat.pow_succ, Nat.mul_comm] at hr
      exact hr
    have hl := ih (p * 64 + r / 64 ^ (d + 1)) (r % 64 ^ (d + 1)) (Nat.mod_lt _ (Nat.pow_pos (by decide)))
    have he : (p * 64 + r / 64 ^ (d + 1)) * 64 ^ (d + 1) + r % 64 ^ (d + 1) = p * 64 ^ (d + 1 + 1) + r := by
      rw [Nat.add_mul, Nat.add_assoc, Nat.div_add_mod', Nat.pow_succ 64 (d + 1), Nat.mul_assoc, Nat.mul_comm 64]
    rw [he] at hl
    rw [tree, innerOf]
    split
    · rename_i h
      have := hl 0
      rw [h _ hj, maxValue] at this
      exact Nat.le_trans this (Nat.zero_le _)
    · refine maxValue_child hj ?_ _ _
      rw [if_pos hj]
      exact hl

/-- The largest value is at least the value of every rune. -/
theorem le_maxValue_rootOf (f : Nat → Nat) {r : Nat} (hr : r < 0x110000) (m : Nat) : f r ≤ maxValue (rootOf f) m := by
  rw [rootOf]
  by_cases h1 : r < 0x80
  · exact maxValue_value (List.mem_map.mpr ⟨r, List.mem_range.mpr h1, rfl⟩) _ _ _
  by_cases h2 : r < 0x800
  · refine maxValue_child (i := r / 64) (by omega) (fun m => ?_) _ _
    have := maxValue_tree (from' 0x80 f) 0 (r / 64) (r % 64) (Nat.mod_lt _ (by decide)) m
    rw [Nat.zero_add, Nat.pow_one, Nat.div_add_mod', from', if_pos (by omega)] at this
    rw [starters, if_pos (by omega)]
    exact this
  by_cases h3 : r < 0x10000
  · refine maxValue_child (i := 32 + r / 64 ^ 2) (by omega) (fun m => ?_) _ _
    have := maxValue_tree (from' 0x800 f) 1 (r / 64 ^ 2) (r % 64 ^ 2) (Nat.mod_lt _ (by decide)) m
    rw [Nat.div_add_mod', from', if_pos (by omega)] at this
    rw [starters, if_neg (by omega), if_pos (by omega), Nat.add_sub_cancel_left]
    exact this
  · refine maxValue_child (i := 48 + r / 64 ^ 3) (by omega) (fun m => ?_) _ _
    have := maxValue_tree (from' 0x10000 f) 2 (r / 64 ^ 3) (r % 64 ^ 3) (Nat.mod_lt _ (by decide)) m
    rw [Nat.div_add_mod', from', if_pos (by omega)] at this
    rw [starters, if_neg (by omega), if_neg (by omega), if_pos (by omega), Nat.add_sub_cancel_left]
    exact this

theorem allValues_tree {B : Nat} {f : Nat → Nat} (h : ∀ r, f r ≤ B) : ∀ d p, AllValues B (tree f d p) := by
  intro d
  induction d with
  | zero =>
    intro p
    rw [tree, leafOf]
    split
    · trivial
    · refine ⟨fun _ => trivial, fun v hv => ?_⟩
      obtain ⟨i, _, rfl⟩ := List.mem_map.mp hv
      exact h _
  | succ d ih =>
    intro p
    rw [tree, innerOf]
    split
    · trivial
    · refine ⟨fun i => ?_, fun v hv => nomatch hv⟩
      show AllValues B (if i < 64 then tree f d (p * 64 + i) else .nil)
      split
      · exact ih _
      · trivial

/-- No value of a rune is exceeded. -/
theorem maxValue_rootOf_le {B : Nat} {f : Nat → Nat} (h : ∀ r, f r ≤ B) : maxValue (rootOf f) 0 ≤ B := by
  have hf : ∀ lo r, from' lo f r ≤ B := fun lo r => by rw [from']; split; exact h r; exact Nat.zero_le _
  refine maxValue_le (.mk _ _ _) ⟨fun i => ?_, fun v hv => ?_⟩ _ (Nat.zero_le _)
  · rw [starters]
    repeat' split
    · exact allValues_tree (hf _) _ _
    · exact allValues_tree (hf _) _ _
    · exact allValues_tree (hf _) _ _
    · trivial
  · obtain ⟨i, _, rfl⟩ := List.mem_map.mp hv
    exact h _

end Uax29.Gen
