import Verif.Proofs.TrieCanon
/-! # The tree of a table is the tree of its values -/
namespace Uax29.Gen
open Spec

/-- The values of a table by rune, 0 for what is not a Unicode scalar value. -/
def valuesOf (T : Trie) (r : Nat) : Nat := if h : r.isValidChar then T.prop (Char.ofNatAux r h) else 0

/-- Every block but the zero blocks has an entry other than 0, and there is nothing at the places of
overlong encodings, surrogates and numbers beyond U+10FFFF. -/
structure Tight (T : Trie) : Prop where
  wf : T.Wf
  v2 : T.values[2]? = some zeroBlock
  i2 : T.index[2]? = some zeroBlock
  values : ∀ k, 0 < k → k + 2 < T.values.length → ∃ i < 64, entry T.values ((k + 2) * 64 + i) ≠ 0
  index : ∀ i, 0 < i → i + 2 < T.index.length → ∃ j < 64, ent T i j ≠ 0
  two : ∀ q < 2, ent T 1 q = 0
  three : ∀ j < 32, ent T (ent T 1 32) j = 0
  surr : ∀ j < 64, 32 ≤ j → ent T (ent T 1 45) j = 0
  four : ∀ j < 16, ent T (ent T 1 48) j = 0
  high : ∀ j < 64, 16 ≤ j → ent T (ent T 1 52) j = 0
  rest : ∀ q < 64, 53 ≤ q → ent T 1 q = 0

variable {T : Trie}

theorem ent_zero (h : T.index[2]? = some zeroBlock) {j : Nat} (hj : j < 64) : ent T 0 j = 0 := by
  have e1 : ((0 + 2) * 64 + j) / 64 = 2 := by omega
  have e2 : ((0 + 2) * 64 + j) % 64 = j := by omega
  simp only [ent, entry, e1, e2, h, Option.getD_some, zeroBlock_get hj]

theorem nodeOf_zero (T : Trie) (d : Nat) : nodeOf T d 0 = .nil := by
  cases d <;> simp [nodeOf]

theorem nodeOf_ne {d i : Nat} (h : i ≠ 0) : nodeOf T d i ≠ .nil := by
  cases d <;> simp [nodeOf, h]

theorem leaf_eq (ht : Tight T) {k : Nat} (hk : k + 2 < T.values.length) {g : Nat → Nat}
    (hg : ∀ i < 64, entry T.values ((k + 2) * 64 + i) = g i) : nodeOf T 0 k = leafOf g := by
  by_cases h0 : k = 0
  · subst h0
    rw [nodeOf_zero, leafOf, if_pos]
    intro i hi
    rw [← hg i hi]
    have e1 : ((0 + 2) * 64 + i) / 64 = 2 := by omega
    have e2 : ((0 + 2) * 64 + i) % 64 = i := by omega
    simp only [entry, e1, e2, ht.v2, Option.getD_some, zeroBlock_get hi]
  · obtain ⟨i, hi, hne⟩ := ht.values k (by omega) hk
    rw [leafOf, if_neg (fun h => hne ((hg i hi).trans (h i hi)))]
    simp only [nodeOf, if_neg h0]
    congr 2
    have h64 : (T.block (k + 2)).length = 64 := by
      rw [block_eq hk]; exact ht.wf.v64 _ (List.getElem_mem _)
    apply List.ext_getElem (by simp [h64])
    intro j h1 h2
    simp only [List.getElem_map, List.getElem_range]
    rw [← hg j (by omega)]
    have e1 : ((k + 2) * 64 + j) / 64 = k + 2 := by omega
    have e2 : ((k + 2) * 64 + j) % 64 = j := by omega
    simp only [entry, e1, e2]
    rw [show (T.values[k + 2]?).getD [] = T.block (k + 2) from rfl, List.getElem?_eq_getElem h1]
    rfl

theorem inner_eq (ht : Tight T) {d i : Nat} (hi : i + 2 < T.index.length) {kf : Nat → Node}
    (hk : ∀ j < 64, nodeOf T d (ent T i j) = kf j) : nodeOf T (d + 1) i = innerOf kf := by
  by_cases h0 : i = 0
  · subst h0
    rw [nodeOf_zero, innerOf_nil]
    intro j hj
    rw [← hk j hj, ent_zero ht.i2 hj, nodeOf_zero]
  · obtain ⟨j, hj, hne⟩ := ht.index i (by omega) hi
    rw [innerOf, if_neg (fun h => nodeOf_ne hne ((hk j hj).trans (h j hj)))]
    simp only [nodeOf, if_neg h0]
    congr 1
    funext q
    by_cases hq : q < 64
    · rw [if_pos hq, if_pos hq, hk q hq]
    · rw [if_neg hq, if_neg hq]

theorem ent_root {q : Nat} (c : Nat) (hc : c = 192 + q) : ent T 1 q = entry T.index c := by
  subst hc; rfl

theorem ent_tableAt (ht : Tight T) {q : Nat} (hq : q < 64) : tableAt T.index (192 + q) = .ok (ent T 1 q) := by
  have := ht.wf.ni
  obtain ⟨v, hv, _⟩ := tableAt_ok ht.wf.i64 (o := 192 + q) (by omega)
  rw [hv, ent_root _ rfl, tableAt_entry hv]

theorem ent_mem {i j : Nat} {b : List Nat} (h : T.index[i + 2]? = some b) (h64 : b.length = 64) (hj : j < 64) :
    ent T i j ∈ b := by
  have e1 : ((i + 2) * 64 + j) / 64 = i + 2 := by omega
  have e2 : ((i + 2) * 64 + j) % 64 = j := by omega
  simp only [ent, entry, e1, e2, h, Option.getD_some]
  rw [List.getElem?_eq_getElem (by omega)]
  exact List.getElem_mem _

theorem lt_of_some {i : Nat} {l : List (List Nat)} {b : List Nat} (h : l[i]? = some b) : i < l.length := by
  rw [List.getElem?_eq_some_iff] at h; exact h.1

theorem bound2 (ht : Tight T) {q : Nat} (h : q < 32) : ent T 1 q + 2 < T.values.length := by
  by_cases hq : q < 2
  · rw [ht.two q hq]
    have := lt_of_some ht.v2
    omega
  · exact ht.wf.two _ _ (by omega) (by omega) (ent_tableAt ht (by omega))

theorem bound3 (ht : Tight T) {q j : Nat} (h1 : 32 ≤ q) (h2 : q < 48) (hj : j < 64) :
    ent T 1 q + 2 < T.index.length ∧ ent T (ent T 1 q) j + 2 < T.values.length := by
  obtain ⟨b, hb, h⟩ := ht.wf.three _ _ (by omega) (by omega) (ent_tableAt ht (q := q) (by omega))
  exact ⟨lt_of_some hb, h _ (ent_mem hb (ht.wf.i64 _ (List.mem_of_getElem? hb)) hj)⟩

theorem bound4 (ht : Tight T) {q j j' : Nat} (h1 : 48 ≤ q) (h2 : q < 56) (hj : j < 64) (hj' : j' < 64) :
    ent T 1 q + 2 < T.index.length ∧ ent T (ent T 1 q) j + 2 < T.index.length
      ∧ ent T (ent T (ent T 1 q) j) j' + 2 < T.values.length := by
  obtain ⟨b, hb, h⟩ := ht.wf.four _ _ (by omega) (by omega) (ent_tableAt ht (q := q) (by omega))
  obtain ⟨b', hb', h'⟩ := h _ (ent_mem hb (ht.wf.i64 _ (List.mem_of_getElem? hb)) hj)
  exact ⟨lt_of_some hb, lt_of_some hb', h' _ (ent_mem hb' (ht.wf.i64 _ (List.mem_of_getElem? hb')) hj')⟩

/-- The values of a page. -/
theorem page_values (ht : Tight T) {lo P k : Nat} (hlo : lo % 64 = 0)
    (hk : lo ≤ P * 64 → P * 64 < 0x110000 → (P < 0x360 ∨ 0x380 ≤ P) → T.page P = k + 2)
    (h0 : (P * 64 < lo ∨ 0x110000 ≤ P * 64 ∨ (0x360 ≤ P ∧ P < 0x380)) → k = 0) {i : Nat} (hi : i < 64) :
    entry T.values ((k + 2) * 64 + i) = from' lo (valuesOf T) (P * 64 + i) := by
  have hz : k = 0 → entry T.values ((k + 2) * 64 + i) = 0 := by
    intro h
    subst h
    have e1 : ((0 + 2) * 64 + i) / 64 = 2 := by omega
    have e2 : ((0 + 2) * 64 + i) % 64 = i := by omega
    simp only [entry, e1, e2, ht.v2, Option.getD_some, zeroBlock_get hi]
  unfold from'
  by_cases h1 : P * 64 < lo
  · rw [if_neg (by omega)]
    exact hz (h0 (.inl h1))
  rw [if_pos (by omega)]
  unfold valuesOf
  by_cases hv : (P * 64 + i).isValidChar
  · rw [dif_pos hv]
    have hp := hk (by omega) (by simp only [Nat.isValidChar] at hv; omega)
      (by simp only [Nat.isValidChar] at hv; omega)
    rw [ht.wf.prop_page]
    have e : (Char.ofNatAux (P * 64 + i) hv).val.toNat = P * 64 + i := rfl
    rw [e, show (P * 64 + i) / 64 = P by omega, show (P * 64 + i) % 64 = i by omega, hp]
  · rw [dif_neg hv]
    refine hz (h0 (.inr ?_))
    simp only [Nat.isValidChar] at hv
    omega

theorem root2 (ht : Tight T) {q : Nat} (h : q < 32) :
    nodeOf T 0 (ent T 1 q) = tree (from' 0x80 (valuesOf T)) 0 q := by
  refine leaf_eq ht (bound2 ht h) fun i hi => page_values ht (by decide) ?_ ?_ hi
  · intro h1 _ _
    rw [Trie.page, if_neg (by omega), if_pos h, ent_root (0xC0 + q) rfl]
  · intro h1
    exact ht.two q (by omega)

theorem root3 (ht : Tight T) {p : Nat} (h : p < 16) :
    nodeOf T 1 (ent T 1 (32 + p)) = tree (from' 0x800 (valuesOf T)) 1 p := by
  refine inner_eq ht (bound3 ht (q := 32 + p) (j := 0) (by omega) (by omega) (by omega)).1 fun j hj => ?_
  refine leaf_eq ht (bound3 ht (by omega) (by omega) hj).2 fun i hi => page_values ht (by decide) ?_ ?_ hi
  · intro h1 _ _
    rw [Trie.page, if_neg (by omega), if_neg (by omega), if_pos (by omega)]
    rw [show (p * 64 + j) / 64 = p by omega, show (p * 64 + j) % 64 = j by omega]
    rw [ent_root (q := 32 + p) (0xE0 + p) (by omega)]
    simp only [ent]
    congr 2
    omega
  · intro h1
    rcases h1 with h1 | h1 | ⟨h1, h2⟩
    · have : p = 0 := by omega
      subst this
      exact ht.three j (by omega)
    · omega
    · have : p = 13 := by omega
      subst this
      exact ht.surr j hj (by omega)

theorem root4 (ht : Tight T) {p : Nat} (h : p < 8) :
    nodeOf T 2 (ent T 1 (48 + p)) = tree (from' 0x10000 (valuesOf T)) 2 p := by
  refine inner_eq ht (bound4 ht (q := 48 + p) (j := 0) (j' := 0) (by omega) (by omega) (by omega)
    (by omega)).1 fun j hj => ?_
  refine inner_eq ht (bound4 ht (q := 48 + p) (j := j) (j' := 0) (by omega) (by omega) hj (by omega)).2.1
    fun j' hj' => ?_
  refine leaf_eq ht (bound4 ht (by omega) (by omega) hj hj').2.2 fun i hi =>
    page_values ht (by decide) ?_ ?_ hi
  · intro h1 _ _
    rw [Trie.page, if_neg (by omega), if_neg (by omega), if_neg (by omega)]
    rw [show ((p * 64 + j) * 64 + j') / 4096 = p by omega,
      show ((p * 64 + j) * 64 + j') / 64 % 64 = j by omega,
      show ((p * 64 + j) * 64 + j') % 64 = j' by omega]
    rw [ent_root (q := 48 + p) (0xF0 + p) (by omega)]
    simp only [ent]
    have e : ∀ x, (x + 2) * 64 = x * 64 + 0x80 := fun x => by omega
    simp only [e]
  · intro h1
    have : ent T (ent T 1 (48 + p)) j = 0 := by
      rcases h1 with h1 | h1 | ⟨h1, h2⟩
      · have : p = 0 := by omega
        subst this
        exact ht.four j (by omega)
      · by_cases h4 : p = 4
        · subst h4
          exact ht.high j hj (by omega)
        · rw [ht.rest (48 + p) (by omega) (by omega), ent_zero ht.i2 hj]
      · have : p = 0 := by omega
        subst this
        exact ht.four j (by omega)
    rw [this, ent_zero ht.i2 hj']

theorem rootNode_eq (ht : Tight T) : rootNode T = rootOf (valuesOf T) := by
  unfold rootNode rootOf
  congr 1
  · funext q
    unfold starters rootLevel
    by_cases h1 : q < 32
    · simp only [if_pos h1, if_pos (show q < 64 by omega)]
      exact root2 ht h1
    · by_cases h2 : q < 48
      · simp only [if_neg h1, if_pos h2, if_pos (show q < 64 by omega)]
        have := root3 ht (p := q - 32) (by omega)
        rwa [show 32 + (q - 32) = q by omega] at this
      · by_cases h3 : q < 56
        · simp only [if_neg h1, if_neg h2, if_pos h3, if_pos (show q < 64 by omega)]
          have := root4 ht (p := q - 48) (by omega)
          rwa [show 48 + (q - 48) = q by omega] at this
        · simp only [if_neg h1, if_neg h2, if_neg h3]
          split
          · rename_i h4
            rw [ht.rest q h4 (by omega), nodeOf_zero]
          · rfl
  · congr 1
    have hnv := lt_of_some ht.v2
    have l0 : (T.block 0).length = 64 := by rw [block_eq (by omega)]; exact ht.wf.v64 _ (List.getElem_mem _)
    have l1 : (T.block 1).length = 64 := by rw [block_eq (by omega)]; exact ht.wf.v64 _ (List.getElem_mem _)
    apply List.ext_getElem (by simp [l0, l1])
    intro i h1 h2
    simp only [List.length_map, List.length_range] at h2
    simp only [List.getElem_map, List.getElem_range, valuesOf]
    have hv : i.isValidChar := .inl (by omega)
    rw [dif_pos hv, ht.wf.prop_page]
    have e : (Char.ofNatAux i hv).val.toNat = i := rfl
    rw [e, Trie.page, if_pos (by omega)]
    simp only [entry]
    rw [show (i / 64 * 64 + i % 64) / 64 = i / 64 by omega, show (i / 64 * 64 + i % 64) % 64 = i % 64 by omega]
    by_cases hi : i < 64
    · rw [List.getElem_append_left (by omega), show i / 64 = 0 by omega]
      rw [show (T.values[0]?).getD [] = T.block 0 from rfl, show i % 64 = i by omega,
        List.getElem?_eq_getElem (by omega)]
      rfl
    · rw [List.getElem_append_right (by omega), show i / 64 = 1 by omega]
      rw [show (T.values[1]?).getD [] = T.block 1 from rfl, List.getElem?_eq_getElem (by omega)]
      simp only [Option.getD_some]
      congr 1
      omega

end Uax29.Gen
