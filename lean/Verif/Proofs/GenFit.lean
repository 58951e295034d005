import Verif.Proofs.MaxValue
import Verif.Proofs.TrieGen
/-! # How many blocks the generator makes -/
namespace Uax29.Gen
open Spec

theorem nodes_mk (hc : Bool) (children : Nat → Node) (values : Option (List Nat)) : nodes (.mk hc children values)
    = 1 + ((List.range (if hc then blockSize else 0)).map fun i => nodes (children i)).sum := by
  rw [nodes]; rfl

/-- The builder has at most `N` blocks of each kind, refers to those only, and has values up to `B` only. -/
structure Small (B N : Nat) (b : Builder) : Prop where
  ni : 4 ≤ b.indexBlocks.length
  li : b.indexBlocks.length ≤ N
  lv : b.valueBlocks.length ≤ N
  ii : ∀ e ∈ b.indexBlockIdx, e.2 < N
  vi : ∀ e ∈ b.valueBlockIdx, e.2 < N
  ie : ∀ blk ∈ b.indexBlocks, ∀ e ∈ blk, e < N
  ve : ∀ blk ∈ b.valueBlocks, ∀ v ∈ blk, v ≤ B

theorem Small.mono {B N N' : Nat} {b : Builder} (h : Small B N b) (hN : N ≤ N') : Small B N' b :=
  ⟨h.ni, Nat.le_trans h.li hN, Nat.le_trans h.lv hN, fun e he => Nat.lt_of_lt_of_le (h.ii e he) hN,
    fun e he => Nat.lt_of_lt_of_le (h.vi e he) hN, fun x hx e he => Nat.lt_of_lt_of_le (h.ie x hx e he) hN, h.ve⟩

theorem lookup_mem' {l : List (Nat × Nat)} {k v : Nat} (h : l.lookup k = some v) : (k, v) ∈ l := by
  induction l with
  | nil => cases h
  | cons e l ih =>
    obtain ⟨k', v'⟩ := e
    rw [List.lookup_cons] at h
    split at h
    · rename_i hk
      rw [beq_iff_eq] at hk
      subst hk
      cases h
      exact List.mem_cons_self
    · exact List.mem_cons_of_mem _ (ih h)

theorem Small.storeValues {B N : Nat} {b : Builder} (h : Small B N b) (hash : Nat) {values : List Nat}
    (hv : ∀ v ∈ values, v ≤ B) : Small B (N + 1) (Gen.storeValues b hash values).2 ∧ (Gen.storeValues b hash values).1 < N + 1 := by
  rw [Gen.storeValues]
  split
  · rename_i v hl
    exact ⟨h.mono (by omega), Nat.lt_succ_of_lt (h.vi _ (lookup_mem' hl))⟩
  · have h' := h.mono (Nat.le_succ N)
    have := h.lv
    refine ⟨⟨h.ni, h'.li, ?_, h'.ii, ?_, h'.ie, ?_⟩, ?_⟩
    · simp only [List.length_append, List.length_singleton]; omega
    · intro e he
      rcases List.mem_cons.mp he with rfl | he
      · show b.valueBlocks.length - blockOffset < N + 1
        omega
      · exact h'.vi e he
    · intro blk hb
      rcases List.mem_append.mp hb with hb | hb
      · exact h.ve blk hb
      · rw [List.mem_singleton.mp hb]; exact hv
    · show b.valueBlocks.length - blockOffset < N + 1
      omega

theorem Small.storeIndex {B N : Nat} {b : Builder} (h : Small B N b) (hash : Nat) {entries : List Nat}
    (hv : ∀ v ∈ entries, v < N) : Small B (N + 1) (Gen.storeIndex b hash entries).2 ∧ (Gen.storeIndex b hash entries).1 < N + 1 := by
  rw [Gen.storeIndex]
  split
  · rename_i v hl
    exact ⟨h.mono (by omega), Nat.lt_succ_of_lt (h.ii _ (lookup_mem' hl))⟩
  · have h' := h.mono (Nat.le_succ N)
    have := h.li
    refine ⟨⟨?_, ?_, h'.lv, ?_, h'.vi, ?_, h.ve⟩, ?_⟩
    · have := h.ni
      simp only [List.length_append, List.length_singleton]; omega
    · simp only [List.length_append, List.length_singleton]; omega
    · intro e he
      rcases List.mem_cons.mp he with rfl | he
      · show b.indexBlocks.length - blockOffset < N + 1
        omega
      · exact h'.ii e he
    · intro blk hb
      rcases List.mem_append.mp hb with hb | hb
      · exact h'.ie blk hb
      · rw [List.mem_singleton.mp hb]
        exact fun v hm => Nat.lt_succ_of_lt (hv v hm)
    · show b.indexBlocks.length - blockOffset < N + 1
      omega

/-- The loop over the children. -/
theorem small_fold {B : Nat} {crc : List Nat → Nat} {children : Nat → Node}
    (ih : ∀ i, ∀ N b, Small B N b → Small B (N + nodes (children i)) (computeOffsets crc (children i) b).2.2
      ∧ (computeOffsets crc (children i) b).2.1 < N + nodes (children i)) :
    ∀ (l : List Nat) (N : Nat) (hs es : List Nat) (b : Builder), Small B N b → (∀ e ∈ es, e < N) →
      Small B (N + (l.map fun i => nodes (children i)).sum)
          (l.foldl (fun (st : List Nat × List Nat × Builder) i =>
            let c := computeOffsets crc (children i) st.2.2
            (st.1 ++ [c.1], st.2.1 ++ [c.2.1], c.2.2)) (hs, es, b)).2.2
      ∧ ∀ e ∈ (l.foldl (fun (st : List Nat × List Nat × Builder) i =>
            let c := computeOffsets crc (children i) st.2.2
            (st.1 ++ [c.1], st.2.1 ++ [c.2.1], c.2.2)) (hs, es, b)).2.1,
          e < N + (l.map fun i => nodes (children i)).sum := by
  intro l
  induction l with
  | nil => intro N hs es b h he; exact ⟨h, he⟩
  | cons i l ihl =>
    intro N hs es b h he
    rw [List.foldl_cons, List.map_cons, List.sum_cons, ← Nat.add_assoc]
    obtain ⟨h1, h2⟩ := ih i N b h
    refine ihl _ _ _ _ h1 ?_
    intro e hm
    rcases List.mem_append.mp hm with hm | hm
    · exact Nat.lt_of_lt_of_le (he e hm) (Nat.le_add_right _ _)
    · rw [List.mem_singleton.mp hm]; exact h2

theorem small_compute {B : Nat} (crc : List Nat → Nat) : ∀ n : Node, AllValues B n → ∀ N b, Small B N b →
    Small B (N + nodes n) (computeOffsets crc n b).2.2 ∧ (computeOffsets crc n b).2.1 < N + nodes n := by
  intro n
  induction n with
  | nil =>
    intro _ N b h
    exact ⟨h, Nat.lt_of_lt_of_le (Nat.lt_of_lt_of_le (by decide : 0 < 4) h.ni) h.li⟩
  | mk hc children values ih =>
    intro ha N b h
    obtain ⟨ha1, ha2⟩ := ha
    have hf : (b.indexBlocks.length == rootBlockOffset) = false := by
      have := h.ni
      rw [beq_eq_false_iff_ne]
      show b.indexBlocks.length ≠ 3
      omega
    have hfold := small_fold (crc := crc) (fun i N b hb => ih i (ha1 i) N b hb) (List.range (if hc then blockSize else 0)) N [] [] b h
      (fun _ he => nomatch he)
    rw [computeOffsets, nodes_mk]
    simp only [hf, Bool.false_eq_true, if_false]
    rw [show N + (1 + ((List.range (if hc = true then blockSize else 0)).map fun i => nodes (children i)).sum)
      = N + ((List.range (if hc = true then blockSize else 0)).map fun i => nodes (children i)).sum + 1 from by omega]
    generalize hr : (List.range (if hc = true then blockSize else 0)).foldl _ _ = r at hfold
    obtain ⟨h1, h2⟩ := hfold
    cases hc with
    | true => exact h1.storeIndex _ h2
    | false => exact h1.storeValues _ ha2

/-- The builder with the block of the root. -/
theorem small_root {B N : Nat} {b : Builder} (h : Small B N b) {hash : Nat} {entries : List Nat} (he : ∀ e ∈ entries, e < N) :
    Small B N { b with indexBlockIdx := (hash, rootBlockOffset - blockOffset) :: b.indexBlockIdx,
                       indexBlocks := b.indexBlocks.set rootBlockOffset entries } := by
  have h4 : 1 < N := by have := h.ni; have := h.li; omega
  refine ⟨?_, ?_, h.lv, ?_, h.vi, ?_, h.ve⟩
  · rw [List.length_set]; exact h.ni
  · rw [List.length_set]; exact h.li
  · intro e hm
    rcases List.mem_cons.mp hm with rfl | hm
    · exact h4
    · exact h.ii e hm
  · intro blk hb
    rcases List.mem_or_eq_of_mem_set hb with hb | rfl
    · exact h.ie blk hb
    · exact he

/-- The numbers in the tables of a tree: the entries of the index are less than the number of nodes and four more, the values
are values of the tree. -/
theorem gen_small {B : Nat} (crc : List Nat → Nat) {children : Nat → Node} {values : List Nat}
    (ha : AllValues B (.mk true children (some values))) :
    (∀ e ∈ (gen crc (.mk true children (some values))).1.index.flatten, e < nodes (.mk true children (some values)) + 4)
    ∧ ∀ v ∈ (gen crc (.mk true children (some values))).1.values.flatten, v ≤ B := by
  obtain ⟨ha1, ha2⟩ := ha
  have h0 : Small B 4 { initBuilder values with indexBlocks := (initBuilder values).indexBlocks ++ [zeroBlock] } := by
    refine ⟨Nat.le_refl 4, Nat.le_refl 4, Nat.le_succ 3, ?_, ?_, ?_, ?_⟩
    · intro e he
      rw [List.mem_singleton.mp he]; decide
    · intro e he
      rw [List.mem_singleton.mp he]; decide
    · intro blk hb e he
      have : blk = zeroBlock := by simpa [initBuilder] using hb
      rw [this] at he
      rw [List.eq_of_mem_replicate he]; decide
    · intro blk hb v hv
      simp only [initBuilder, List.mem_cons, List.not_mem_nil, or_false] at hb
      rcases hb with rfl | rfl | rfl
      · exact ha2 v (List.mem_of_mem_take hv)
      · exact ha2 v (List.mem_of_mem_drop hv)
      · rw [List.eq_of_mem_replicate hv]; exact Nat.zero_le _
  have hfold := small_fold (crc := crc) (fun i N b hb => small_compute crc _ (ha1 i) N b hb) (List.range blockSize) 4 [] [] _ h0
      (fun _ he => nomatch he)
  have h1 : ((initBuilder values).indexBlocks.length == rootBlockOffset) = true := rfl
  simp only [gen, Option.getD_some, computeOffsets, h1, if_true, nodes_mk]
  generalize hr : (List.range blockSize).foldl _ _ = r at hfold
  obtain ⟨h1, h2⟩ := hfold
  have h3 := ((small_root (hash := blockHash crc true r.1 (some values)) h1 h2).storeIndex (blockHash crc true r.1 (some values)) h2).1
  refine ⟨?_, ?_⟩
  · intro e he
    obtain ⟨blk, hb, he⟩ := List.mem_flatten.mp he
    have := h3.ie blk hb e he
    omega
  · intro v hv
    obtain ⟨blk, hb, hv⟩ := List.mem_flatten.mp hv
    exact h3.ve blk hb v hv

/-! ## the tree of a Unicode table -/

theorem sum_le {f g : Nat → Nat} : ∀ {l : List Nat}, (∀ i ∈ l, f i ≤ g i) → (l.map f).sum ≤ (l.map g).sum
  | [], _ => Nat.le_refl _
  | i :: l, h => by
    rw [List.map_cons, List.map_cons, List.sum_cons, List.sum_cons]
    have := h i List.mem_cons_self
    have := sum_le (l := l) fun i hi => h i (List.mem_cons_of_mem _ hi)
    omega

theorem sum_const (k : Nat) : ∀ l : List Nat, (l.map fun _ => k).sum = l.length * k
  | [] => by simp
  | _ :: l => by rw [List.map_cons, List.sum_cons, sum_const k l, List.length_cons, Nat.add_mul]; omega

/-- The largest number of nodes with `d` levels below. -/
def most : Nat → Nat
  | 0 => 1
  | d + 1 => 1 + blockSize * most d

theorem nodes_shape : ∀ (d : Nat) (n : Node), Shape d n → nodes n ≤ most d
  | _, .nil, _ => Nat.zero_le _
  | 0, .mk hc ch vs, h => by
    obtain ⟨rfl, _⟩ := h
    exact Nat.le_refl 1
  | d + 1, .mk hc ch vs, h => by
    obtain ⟨rfl, _, h⟩ := h
    rw [nodes_mk, most]
    have := sum_le (f := fun i => nodes (ch i)) (g := fun _ => most d) (l := List.range blockSize)
      fun i hi => nodes_shape d (ch i) (h i (List.mem_range.mp hi))
    rw [sum_const, List.length_range] at this
    exact Nat.add_le_add_left this 1

theorem nodes_rootOf (f : Nat → Nat) : nodes (rootOf f) ≤ 34361 := by
  rw [rootOf, nodes_mk]
  have h := sum_le (f := fun i => nodes (starters f i)) (l := List.range 64)
    (g := fun q => if q < 32 then most 0 else if q < 48 then most 1 else if q < 56 then most 2 else 0)
    fun q _ => by
      rw [starters]
      repeat' split
      · exact nodes_shape _ _ (shape_tree _ _ _)
      · exact nodes_shape _ _ (shape_tree _ _ _)
      · exact nodes_shape _ _ (shape_tree _ _ _)
      · exact Nat.le_refl 0
  have e : ((List.range 64).map fun q => if q < 32 then most 0 else if q < 48 then most 1 else if q < 56 then most 2 else 0).sum
      = 34360 := by decide +kernel
  rw [e] at h
  exact Nat.add_le_add_left h 1

theorem allValues_rootOf {B : Nat} {f : Nat → Nat} (h : ∀ r, f r ≤ B) : AllValues B (rootOf f) := by
  have hf : ∀ lo r, from' lo f r ≤ B := fun lo r => by rw [from']; split; exact h r; exact Nat.zero_le _
  refine ⟨fun i => ?_, fun v hv => ?_⟩
  · rw [starters]
    repeat' split
    · exact allValues_tree (hf _) _ _
    · exact allValues_tree (hf _) _ _
    · exact allValues_tree (hf _) _ _
    · trivial
  · obtain ⟨r, _, rfl⟩ := List.mem_map.mp hv
    exact h r

end Uax29.Gen
