import Verif.Proofs.LoopGrow
import Verif.Proofs.Bits
/-! # From rules on properties to texts of characters -/
namespace Uax29
open Spec

theorem utf8_chunks (T : Trie) (g : List Char) :
    (g.map fun c => (T.prop c, String.utf8EncodeChar c)).flatMap (·.2) = utf8 g := by
  induction g with
  | nil => rfl
  | cons c g ih => rw [List.map_cons, List.flatMap_cons, ih, utf8_cons]

/-- The property of a character, where `cell` gives the property of a chunk. -/
def cellOf (T : Trie) (cell : Nat × Bytes → Nat) (c : Char) : Nat := cell (T.prop c, String.utf8EncodeChar c)

/-- On text in UTF-8 the tokens are those of the greedy segmentation of the characters. -/
theorem Follows.segs_utf8 {T : Trie} (hT : T.Wf) {cell : Nat × Bytes → Nat}
    {J : Bool → List Nat → List Nat → Bool}
    {adv : Bytes → Nat} (h : Follows T cell cell J adv) (hg : GoodAdv adv) (s : List Char) :
    segs adv (utf8 s)
      = (greedy (fun l r => J false (l.map (cellOf T cell)) (r.map (cellOf T cell))) s).map utf8 := by
  rw [h.segs_eq hg (hT.decodes_utf8 s), glue_nil]
  have h1 := greedy_map (fun c => (T.prop c, String.utf8EncodeChar c)) (onChunks cell (J false)) s
  have h2 : (fun (l r : List Char) => onChunks cell (J false) (l.map fun c => (T.prop c, String.utf8EncodeChar c))
        (r.map fun c => (T.prop c, String.utf8EncodeChar c)))
      = fun l r => J false (l.map (cellOf T cell)) (r.map (cellOf T cell)) := by
    funext l r
    simp only [onChunks, List.map_map]
    rfl
  rw [h2] at h1
  rw [show (!List.isEmpty ([] : Bytes)) = false from rfl, ← h1, List.map_map]
  apply List.map_congr_left
  intro g _
  exact utf8_chunks T g

/-- The segmentation of a text of characters, and its boundaries. -/
theorem Follows.conform {T : Trie} (hT : T.Wf) {cell : Nat × Bytes → Nat}
    {J : Bool → List Nat → List Nat → Bool}
    {adv : Bytes → Nat} (h : Follows T cell cell J adv) (hg : GoodAdv adv) {P : Nat → Prop}
    (hP : ∀ x, T.IsValue x.1 → P (cell x))
    (hr : Restart P (J false)) (s : List Char) :
    ∃ gs : List (List Char), segs adv (utf8 s) = gs.map utf8 ∧ gs.flatten = s ∧ (∀ g ∈ gs, g ≠ [])
      ∧ ∀ a b, s = a ++ b → (Boundary gs a ↔
          a = [] ∨ b = [] ∨ J false (a.map (cellOf T cell)).reverse (b.map (cellOf T cell)) = false) := by
  refine ⟨_, h.segs_utf8 hT hg s, greedy_flatten _ s, greedy_ne_nil _ s, ?_⟩
  intro a b hab
  have hr' : Restart (fun _ : Char => True)
      (fun l r => J false (l.map (cellOf T cell)) (r.map (cellOf T cell))) := by
    intro A B C hA hB _ _ _ hj
    have hc : ∀ c, P (cellOf T cell c) := fun c => hP _ (hT.prop_value c)
    have := hr (A.map (cellOf T cell)) (B.map (cellOf T cell)) (C.map (cellOf T cell))
      (by simpa using hA) (by simpa using hB)
      (by simp; intro c _; exact hc c) (by simp; intro c _; exact hc c)
      (by simp; intro c _; exact hc c) (by simpa using hj)
    simpa [List.map_reverse] using this
  have := greedy_boundary hr' s (fun _ _ => trivial) a b hab
  rw [this, List.map_reverse]

end Uax29
