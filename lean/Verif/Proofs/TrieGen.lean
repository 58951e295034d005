import Verif.Proofs.TrieBuild
/-! # The generated tables give back the values -/
namespace Uax29.Gen
open Spec

theorem shape_leafOf (g : Nat → Nat) : Shape 0 (leafOf g) := by
  unfold leafOf
  split
  · trivial
  · exact ⟨rfl, _, rfl, by simp⟩

theorem shape_innerOf {d : Nat} {k : Nat → Node} (h : ∀ i < 64, Shape d (k i)) : Shape (d + 1) (innerOf k) := by
  unfold innerOf
  split
  · trivial
  · refine ⟨rfl, rfl, fun i hi => ?_⟩
    simp only [if_pos hi]
    exact h i hi

theorem shape_tree (f : Nat → Nat) (d p : Nat) : Shape d (tree f d p) := by
  induction d generalizing p with
  | zero => exact shape_leafOf _
  | succ d ih => exact shape_innerOf fun i _ => ih _

theorem shape_starters (f : Nat → Nat) (q : Nat) : ∃ d, Shape d (starters f q) := by
  unfold starters
  repeat' split
  · exact ⟨0, shape_tree _ _ _⟩
  · exact ⟨1, shape_tree _ _ _⟩
  · exact ⟨2, shape_tree _ _ _⟩
  · exact ⟨0, trivial⟩

/-- The blocks that are there from the start. -/
structure Zero (b : Builder) : Prop where
  v : b.valueBlocks[2]? = some zeroBlock
  i : b.indexBlocks[2]? = some zeroBlock

theorem tableAt_block {table : List (List Nat)} {k i v : Nat} {blk : List Nat} (hi : i < 64)
    (h : table[k + 2]? = some blk) (hv : blk[i]? = some v) : tableAt table (k * 64 + (0x80 + i)) = .ok v := by
  have e1 : (k * 64 + (0x80 + i)) / 64 = k + 2 := by omega
  have e2 : (k * 64 + (0x80 + i)) % 64 = i := by omega
  simp only [tableAt, e1, e2, h, hv]

theorem zeroBlock_get {i : Nat} (hi : i < 64) : zeroBlock[i]? = some 0 := by
  simp only [zeroBlock, blockSize, List.getElem?_replicate, if_pos hi]

theorem read_leaf {b : Builder} (hz : Zero b) {g : Nat → Nat} {k : Nat} (h : Repr b (leafOf g) k) {i : Nat}
    (hi : i < 64) : tableAt b.valueBlocks (k * 64 + (0x80 + i)) = .ok (g i) := by
  by_cases hg : ∀ i < 64, g i = 0
  · rw [leafOf, if_pos hg] at h
    have hk : k = 0 := h
    subst hk
    rw [tableAt_block hi hz.v (zeroBlock_get hi), hg i hi]
  · rw [leafOf, if_neg hg] at h
    simp only [Repr, Bool.false_eq_true, if_false, Option.getD_some] at h
    exact tableAt_block hi h (by simp [hi])

theorem read_inner {b : Builder} (hz : Zero b) {kf : Nat → Node} {k : Nat} (h : Repr b (innerOf kf) k) {j : Nat}
    (hj : j < 64) : ∃ k', tableAt b.indexBlocks (k * 64 + (0x80 + j)) = .ok k' ∧ Repr b (kf j) k' := by
  by_cases hg : ∀ i < 64, kf i = .nil
  · rw [innerOf, if_pos hg] at h
    have hk : k = 0 := h
    subst hk
    exact ⟨0, tableAt_block hj hz.i (zeroBlock_get hj), by rw [hg j hj]; rfl⟩
  · rw [innerOf, if_neg hg] at h
    simp only [Repr, if_true] at h
    obtain ⟨_, blk, h1, _, h3⟩ := h
    obtain ⟨k', hk', hr⟩ := h3 j hj
    rw [if_pos hj] at hr
    exact ⟨k', tableAt_block hj h1 hk', hr⟩

theorem block_inner {b : Builder} (hz : Zero b) {kf : Nat → Node} {k : Nat} (h : Repr b (innerOf kf) k) :
    ∃ blk, b.indexBlocks[k + 2]? = some blk ∧ ∀ x ∈ blk, ∃ j < 64, Repr b (kf j) x := by
  by_cases hg : ∀ i < 64, kf i = .nil
  · rw [innerOf, if_pos hg] at h
    have hk : k = 0 := h
    subst hk
    refine ⟨_, hz.i, fun x hx => ⟨0, by omega, ?_⟩⟩
    rw [hg 0 (by omega)]
    exact List.eq_of_mem_replicate hx
  · rw [innerOf, if_neg hg] at h
    simp only [Repr, if_true] at h
    obtain ⟨_, blk, h1, h2, h3⟩ := h
    refine ⟨blk, h1, fun x hx => ?_⟩
    obtain ⟨j, hj, rfl⟩ := List.mem_iff_getElem.mp hx
    obtain ⟨k', hk', hr⟩ := h3 j (by omega)
    rw [if_pos (by omega)] at hr
    rw [List.getElem?_eq_getElem hj] at hk'
    cases hk'
    exact ⟨j, by omega, hr⟩

theorem block_leaf {b : Builder} (hz : Zero b) {g : Nat → Nat} {k : Nat} (h : Repr b (leafOf g) k) :
    k + 2 < b.valueBlocks.length := by
  have := read_leaf hz h (i := 0) (by omega)
  unfold tableAt at this
  rw [show (k * 64 + (128 + 0)) / 64 = k + 2 by omega] at this
  split at this
  · cases this
  · rename_i blk hb
    rw [List.getElem?_eq_some_iff] at hb
    exact hb.1

/-- The builder when `computeOffsets` of the root begins with the children. -/
def startBuilder (f : Nat → Nat) : Builder :=
  { initBuilder ((List.range 128).map f) with indexBlocks := [zeroBlock, zeroBlock, zeroBlock, zeroBlock] }

theorem inv_start (crc : List Nat → Nat) (f : Nat → Nat) : Inv crc (rootOf f) (startBuilder f) := by
  refine ⟨by simp [startBuilder], by simp [startBuilder, initBuilder], ?_, ?_, ?_, ?_⟩
  · intro x hx
    simp only [startBuilder, List.mem_cons, List.not_mem_nil, or_false, or_self] at hx
    rw [hx]; simp only [zeroBlock, blockSize, List.length_replicate]
  · intro x hx
    simp only [startBuilder, initBuilder, List.mem_cons, List.not_mem_nil, or_false] at hx
    rcases hx with h | h | h
    · rw [h, List.length_take, List.length_map, List.length_range]; rfl
    · rw [h, List.length_drop, List.length_map, List.length_range]; rfl
    · rw [h]; simp only [zeroBlock, blockSize, List.length_replicate]
  · intro h i hl
    rcases lookup_cons_some hl with ⟨h1, _⟩ | hl
    · exact .inl h1
    · simp at hl
  · intro h i hl
    rcases lookup_cons_some hl with ⟨h1, _⟩ | hl
    · exact .inl h1
    · simp at hl

/-- The run of the generator on a whole tree. -/
theorem gen_rootOf {crc : List Nat → Nat} {f : Nat → Nat} (hno : NoClash crc (rootOf f)) :
    ∃ b : Builder, ∃ es : List Nat,
      (gen crc (rootOf f)).1 = ⟨b.valueBlocks, b.indexBlocks⟩ ∧ Zero b
      ∧ (∀ x ∈ b.valueBlocks, x.length = 64) ∧ (∀ x ∈ b.indexBlocks, x.length = 64)
      ∧ b.valueBlocks[0]? = some (((List.range 128).map f).take 64)
      ∧ b.valueBlocks[1]? = some (((List.range 128).map f).drop 64)
      ∧ b.indexBlocks[3]? = some es ∧ es.length = 64
      ∧ (∀ j < 64, ∃ k, es[j]? = some k ∧ Repr b (starters f j) k)
      ∧ (gen crc (rootOf f)).2 = nodeHash crc (rootOf f) := by
  have hk := kids_good (crc := crc) (root := rootOf f) (children := starters f)
    (fun i _ b hb => let ⟨_, hd⟩ := shape_starters f i
      computeOffsets_good hno hd (.child i (.here _)) hb) 64 (Nat.le_refl _) _ (inv_start crc f)
  have hg : gen crc (rootOf f) =
      let r := kids crc (starters f) 64 (startBuilder f)
      (⟨r.2.2.valueBlocks, r.2.2.indexBlocks.set 3 r.2.1⟩,
        blockHash crc true r.1 (some ((List.range 128).map f))) := by
    have h1 : ((initBuilder ((List.range 128).map f)).indexBlocks.length == rootBlockOffset) = true := rfl
    simp only [gen, rootOf, Option.getD_some, computeOffsets, h1, if_true]
    have h2 : ({ initBuilder ((List.range 128).map f) with
        indexBlocks := (initBuilder ((List.range 128).map f)).indexBlocks ++ [zeroBlock] } : Builder)
        = startBuilder f := rfl
    have h3 : (List.range blockSize).foldl
        (fun (st : List Nat × List Nat × Builder) i =>
          (st.1 ++ [(computeOffsets crc (starters f i) st.2.2).1],
            st.2.1 ++ [(computeOffsets crc (starters f i) st.2.2).2.1],
            (computeOffsets crc (starters f i) st.2.2).2.2))
        (([] : List Nat), ([] : List Nat), startBuilder f) = kids crc (starters f) 64 (startBuilder f) := rfl
    rw [h2, h3]
    simp only [storeIndex, List.lookup, beq_self_eq_true, rootBlockOffset]
  rw [hg]
  generalize kids crc (starters f) 64 (startBuilder f) = r at *
  obtain ⟨hs, es, b⟩ := r
  obtain ⟨k1, k2, k3, k4, k5⟩ := hk
  dsimp only at k1 k2 k3 k4 k5 ⊢
  have hni := k3.ni
  have he : Ext b { b with indexBlocks := b.indexBlocks.set 3 es } := by
    refine ⟨fun _ _ h => h, fun k x hk h => ?_⟩
    simp only
    rw [List.getElem?_set_ne (Ne.symm hk)]
    exact h
  refine ⟨{ b with indexBlocks := b.indexBlocks.set 3 es }, es, rfl, ⟨?_, ?_⟩, k3.v64, ?_, ?_, ?_, ?_, k4, ?_, ?_⟩
  · exact k2.values 2 _ rfl
  · exact he.index 2 _ (by omega) (k2.index 2 _ (by omega) rfl)
  · intro x hx
    rcases List.mem_or_eq_of_mem_set hx with h | h
    · exact k3.i64 x h
    · rw [h]; exact k4
  · exact k2.values 0 _ rfl
  · exact k2.values 1 _ rfl
  · simp only [List.getElem?_set_self' ]
    rw [List.getElem?_eq_getElem (show 3 < b.indexBlocks.length by omega)]
    rfl
  · intro j hj
    obtain ⟨k, hk, hr⟩ := k5 j hj
    exact ⟨k, hk, hr.mono he⟩
  · simp only [blockHash, nodeHash, rootOf, k1, Bool.true_or, if_true, Option.getD_some]

theorem tableAt_root {table : List (List Nat)} {es : List Nat} {j k c : Nat} (h : table[3]? = some es)
    (hj : j < 64) (hk : es[j]? = some k) (hc : c = 192 + j) : tableAt table c = .ok k := by
  subst hc
  have e1 : (192 + j) / 64 = 3 := by omega
  have e2 : (192 + j) % 64 = j := by omega
  simp only [tableAt, e1, e2, h, hk]

/-- The generated tables: lookup is total, and gives every character its value. -/
theorem gen_values {crc : List Nat → Nat} {f : Nat → Nat} (hno : NoClash crc (rootOf f)) :
    (gen crc (rootOf f)).1.Wf ∧ ∀ c : Char, (gen crc (rootOf f)).1.prop c = f c.val.toNat := by
  obtain ⟨b, es, hT, hz, hv64, hi64, hv0, hv1, h3, h64, hst, _⟩ := gen_rootOf hno
  rw [hT]
  have hnv : 2 < b.valueBlocks.length := (List.getElem?_eq_some_iff.mp hz.v).1
  have hni : 3 < b.indexBlocks.length := (List.getElem?_eq_some_iff.mp h3).1
  have s2 : ∀ q, q < 32 → starters f q = tree (from' 0x80 f) 0 q := fun q hq => if_pos hq
  have s3 : ∀ q, 32 ≤ q → q < 48 → starters f q = tree (from' 0x800 f) 1 (q - 32) := fun q h1 h2 => by
    unfold starters; rw [if_neg (by omega), if_pos h2]
  have s4 : ∀ q, 48 ≤ q → q < 56 → starters f q = tree (from' 0x10000 f) 2 (q - 48) := fun q h1 h2 => by
    unfold starters; rw [if_neg (by omega), if_neg (by omega), if_pos h2]
  have get : ∀ c q i, q < 64 → c = 192 + q → tableAt b.indexBlocks c = .ok i → Repr b (starters f q) i := by
    intro c q i hq hc hi
    obtain ⟨k, hk, hr⟩ := hst q hq
    rw [tableAt_root h3 hq hk hc] at hi
    cases hi
    exact hr
  have hwf : (⟨b.valueBlocks, b.indexBlocks⟩ : Trie).Wf := by
    refine ⟨hv64, hi64, by simp only; omega, by simp only; omega, ?_, ?_, ?_⟩
    · intro c i h1 h2 hi
      obtain ⟨q, hq⟩ : ∃ q, c = 192 + q := ⟨c - 192, by omega⟩
      have := get c q i (by omega) hq hi
      rw [s2 _ (by omega)] at this
      exact block_leaf hz this
    · intro c i h1 h2 hi
      obtain ⟨q, hq⟩ : ∃ q, c = 192 + q := ⟨c - 192, by omega⟩
      have := get c q i (by omega) hq hi
      rw [s3 _ (by omega) (by omega)] at this
      obtain ⟨blk, hb, hx⟩ := block_inner hz this
      exact ⟨blk, hb, fun x hxm => let ⟨_, _, hr⟩ := hx x hxm; block_leaf hz hr⟩
    · intro c i h1 h2 hi
      obtain ⟨q, hq⟩ : ∃ q, c = 192 + q := ⟨c - 192, by omega⟩
      have := get c q i (by omega) hq hi
      rw [s4 _ (by omega) (by omega)] at this
      obtain ⟨blk, hb, hx⟩ := block_inner hz this
      refine ⟨blk, hb, fun x hxm => ?_⟩
      obtain ⟨_, _, hr⟩ := hx x hxm
      obtain ⟨blk, hb, hx⟩ := block_inner hz hr
      exact ⟨blk, hb, fun x hxm => let ⟨_, _, hr⟩ := hx x hxm; block_leaf hz hr⟩
  refine ⟨hwf, fun c => ?_⟩
  have key : ∀ v w, (⟨b.valueBlocks, b.indexBlocks⟩ : Trie).lookup (String.utf8EncodeChar c) = .ok (v, w) →
      (⟨b.valueBlocks, b.indexBlocks⟩ : Trie).prop c = v := by
    intro v w h
    simp only [Trie.prop, h]
  rcases encode_cases c with ⟨h1, b0, he, h2⟩ | ⟨h1, h1', b0, b1, he, h2, h3'⟩ |
    ⟨h1, h1', b0, b1, b2, he, h2, h3', h4⟩ | ⟨h1, h1', b0, b1, b2, b3, he, h2, h3', h4, h5⟩
  all_goals rw [he] at key; generalize c.val.toNat = r at *
  · apply key _ 1
    have : tableAt b.valueBlocks b0.toNat = .ok (f r) := by
      rw [h2]
      unfold tableAt
      by_cases hr : r < 64
      · rw [show r / 64 = 0 by omega, show r % 64 = r by omega, hv0]
        simp only [List.getElem?_take_of_lt hr, List.getElem?_map, List.getElem?_range h1, Option.map_some]
      · rw [show r / 64 = 1 by omega, hv1]
        simp only [List.getElem?_drop, List.getElem?_map]
        rw [show 64 + r % 64 = r by omega, List.getElem?_range h1]
        rfl
    simp only [Trie.lookup]
    rw [if_pos (by omega), this]
  · apply key _ 2
    obtain ⟨k, hk, hr⟩ := hst (r / 64) (by omega)
    rw [s2 _ (by omega)] at hr
    have hi := tableAt_root h3 (by omega) hk (show b0.toNat = 192 + r / 64 by omega)
    have hv := read_leaf hz hr (i := r % 64) (by omega)
    have hf : from' 0x80 f (r / 64 * 64 + r % 64) = f r := by
      rw [show r / 64 * 64 + r % 64 = r by omega]; exact if_pos h1
    rw [hf, ← h3'] at hv
    have c1 : notCont b1.toNat = false := by simp [notCont]; omega
    simp only [Trie.lookup, Trie.lookupValue, hi, hv, c1]
    rw [if_neg (by omega), if_neg (by omega), if_pos (by omega)]
    rfl
  · apply key _ 3
    obtain ⟨k, hk, hr⟩ := hst (32 + r / 4096) (by omega)
    rw [s3 _ (by omega) (by omega), Nat.add_sub_cancel_left] at hr
    have hi := tableAt_root h3 (by omega) hk (show b0.toNat = 192 + (32 + r / 4096) by omega)
    obtain ⟨k1, hi1, hr1⟩ := read_inner hz hr (j := r / 64 % 64) (by omega)
    have hv := read_leaf hz hr1 (i := r % 64) (by omega)
    have hf : from' 0x800 f ((r / 4096 * 64 + r / 64 % 64) * 64 + r % 64) = f r := by
      rw [show (r / 4096 * 64 + r / 64 % 64) * 64 + r % 64 = r by omega]; exact if_pos h1
    rw [hf, ← h4] at hv
    rw [← h3'] at hi1
    have c1 : notCont b1.toNat = false := by simp [notCont]; omega
    have c2 : notCont b2.toNat = false := by simp [notCont]; omega
    simp only [Trie.lookup, Trie.lookupValue, hi, hi1, hv, c1, c2]
    rw [if_neg (by omega), if_neg (by omega), if_neg (by omega), if_pos (by omega)]
    rfl
  · apply key _ 4
    obtain ⟨k, hk, hr⟩ := hst (48 + r / 262144) (by omega)
    rw [s4 _ (by omega) (by omega), Nat.add_sub_cancel_left] at hr
    have hi := tableAt_root h3 (by omega) hk (show b0.toNat = 192 + (48 + r / 262144) by omega)
    obtain ⟨k1, hi1, hr1⟩ := read_inner hz hr (j := r / 4096 % 64) (by omega)
    obtain ⟨k2, hi2, hr2⟩ := read_inner hz hr1 (j := r / 64 % 64) (by omega)
    have hv := read_leaf hz hr2 (i := r % 64) (by omega)
    have hf : from' 0x10000 f (((r / 262144 * 64 + r / 4096 % 64) * 64 + r / 64 % 64) * 64 + r % 64) = f r := by
      rw [show ((r / 262144 * 64 + r / 4096 % 64) * 64 + r / 64 % 64) * 64 + r % 64 = r by omega]
      exact if_pos h1
    rw [hf, ← h5] at hv
    rw [← h3'] at hi1
    rw [← h4] at hi2
    have c1 : notCont b1.toNat = false := by simp [notCont]; omega
    have c2 : notCont b2.toNat = false := by simp [notCont]; omega
    have c3 : notCont b3.toNat = false := by simp [notCont]; omega
    simp only [Trie.lookup, Trie.lookupValue, hi, hi1, hi2, hv, c1, c2, c3]
    rw [if_neg (by omega), if_neg (by omega), if_neg (by omega), if_neg (by omega), if_pos (by omega)]
    rfl

end Uax29.Gen
