import Verif.Model.KernelRfl
import Verif.Proofs.GoText
/-! # The tables as gofmt lays them out -/
namespace Uax29.Gen
open Spec.GoText

/-- An element after formatting. -/
def niceItem (w : Nat) (e : Nat × Nat) : List Char := sharpHex 2 e.1 ++ ':' :: ' ' :: sharpHex w e.2 ++ [',']

/-- A row after formatting. -/
def niceRow (w : Nat) : List (Nat × Nat) → List Char
  | [] => ['\t']
  | e :: r => '\t' :: niceItem w e ++ (r.map fun e => ' ' :: niceItem w e).flatten

/-- The lines of blocks after formatting, from block `n` on. -/
def layout (k w : Nat) : Nat → List (List Nat) → List (List Char)
  | _, [] => []
  | n, b :: bs => blockComment n (n * blockSize) :: (rows k (n * blockSize) 0 true b).2.map (niceRow w) ++ layout k w (n + 1) bs

theorem layout_append (k w : Nat) : ∀ a n b, layout k w n (a ++ b) = layout k w n a ++ layout k w (n + a.length) b
  | [], n, b => by simp [layout]
  | x :: a, n, b => by
    simp only [List.cons_append, layout, layout_append k w a, List.length_cons, List.append_assoc]
    rw [show n + 1 + a.length = n + (a.length + 1) by omega]

theorem layout_start (k w : Nat) (bs : List (List Nat)) : layout k w 0 bs = layout k w 0 (bs.drop 0) := rfl

theorem layout_step (k w n s m : Nat) (h : n + s = m) (bs : List (List Nat)) :
    layout k w n (bs.drop n) = layout k w n ((bs.drop n).take s) ++ layout k w m (bs.drop m) := by
  have h1 : bs.drop n = (bs.drop n).take s ++ bs.drop m := by
    rw [← h, ← List.drop_drop, List.take_append_drop]
  by_cases hs : s ≤ (bs.drop n).length
  · have h2 := layout_append k w ((bs.drop n).take s) n (bs.drop m)
    rw [← h1, List.length_take, Nat.min_eq_left hs, h] at h2
    exact h2
  · have h2 : bs.drop m = [] := by
      rw [List.drop_eq_nil_iff]
      rw [List.length_drop] at hs
      omega
    rw [h2, List.append_nil] at h1
    rw [h2, ← h1, layout, List.append_nil]

theorem layout_end (k w : Nat) {n : Nat} {bs : List (List Nat)} (h : bs.length ≤ n) : layout k w n (bs.drop n) = [] := by
  rw [List.drop_eq_nil_iff.mpr h]
  rfl

theorem filter_niceItem (w : Nat) (e : Nat × Nat) : ((niceItem w e).filter fun c => !blank c) = item w e := by
  simp only [niceItem, item, List.cons_append, List.append_assoc, List.filter_cons, List.filter_append, filter_sharpHex]
  simp [blank]

theorem filter_niceRow (w : Nat) (r : List (Nat × Nat)) : ((niceRow w r).filter fun c => !blank c) = rowText w r := by
  have h : ∀ r : List (Nat × Nat), (((r.map fun e => ' ' :: niceItem w e).flatten).filter fun c => !blank c) = rowText w r := by
    intro r
    induction r with
    | nil => rfl
    | cons e r ih =>
      simp only [List.map_cons, List.flatten_cons, List.filter_append, ih, List.filter_cons, filter_niceItem]
      simp [blank, rowText]
  cases r with
  | nil => rfl
  | cons e r =>
    simp only [niceRow, List.filter_append, List.filter_cons, filter_niceItem, h]
    simp [blank, rowText]

/-- Formatting keeps the squeezed lines. -/
theorem squeeze_layout (k w : Nat) : ∀ bs n, squeeze (layout k w n bs) = tableLines k w n bs
  | [], _ => rfl
  | b :: bs, n => by
    rw [layout, tableLines, squeeze_append, squeeze_layout k w bs, squeeze_cons,
      squeeze_rows w (filter_niceRow w) _ (rows_ne_nil _ _ _ _ _)]
    simp only [squeeze, List.map_cons, List.map_nil, filter_blockComment]
    rfl

end Uax29.Gen
