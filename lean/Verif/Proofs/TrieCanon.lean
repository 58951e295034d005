import Verif.Proofs.TrieGen
import Verif.Proofs.Pages
/-! # Tables that the generator gives back unchanged

A table is read as a tree, and the generator is run on this tree. Instead of the maps from hashes to
block numbers it is enough to count the blocks: `walk` checks that new blocks come in the order of
their numbers. -/
namespace Uax29.Gen
open Spec

/-- The entry `j` of index block `i + 2`. -/
def ent (T : Trie) (i j : Nat) : Nat := entry T.index ((i + 2) * 64 + j)

/-- The node with the number `i`, with `d` levels below it. -/
def nodeOf (T : Trie) : Nat → Nat → Node
  | 0, i => if i = 0 then .nil else .mk false (fun _ => .nil) (some (T.block (i + 2)))
  | d + 1, i =>
    if i = 0 then .nil else .mk true (fun j => if j < 64 then nodeOf T d (ent T i j) else .nil) none

/-- The number of levels below the root's child `q`. -/
def rootLevel (q : Nat) : Nat := if q < 32 then 0 else if q < 48 then 1 else 2

/-- The tree of a table. -/
def rootNode (T : Trie) : Node :=
  .mk true (fun q => if q < 64 then nodeOf T (rootLevel q) (ent T 1 q) else .nil)
    (some (T.block 0 ++ T.block 1))

/-- Run `step` for the numbers `e 0`, …, `e (k - 1)`. -/
def walkKids {σ : Type} (step : Nat → Nat → σ → Option σ) (e : Nat → Nat) : Nat → σ → Option σ
  | 0, s => some s
  | k + 1, s =>
    match walkKids step e k s with
    | none => none
    | some s => step k (e k) s

/-- The counts of blocks of values and of index blocks after the node, if new blocks come in order. -/
def walkN (w : Nat) (T : Trie) (lv : Nat → Nat) : Nat → Nat → Nat × Nat → Option (Nat × Nat)
  | 0, i, s =>
    if i = 0 then some s
    else if i ≤ s.1 then some s
    else if i = s.1 + 1 ∧ i + 2 < T.values.length then some (s.1 + 1, s.2)
    else none
  | d + 1, i, s =>
    if i = 0 then some s
    else if i < 2 ∨ lv i ≠ d + 1 then none
    else
      match walkKids (fun _ => walkN w T lv d) (ent T i) w s with
      | none => none
      | some s =>
        if i ≤ s.2 + 1 then some s
        else if i = s.2 + 2 ∧ i + 2 < T.index.length then some (s.1, s.2 + 1)
        else none

/-- `walkN` for nodes with 64 children. -/
def walk : Trie → (Nat → Nat) → Nat → Nat → Nat × Nat → Option (Nat × Nat) := walkN 64

/-- The hash of the node with the number `i`. -/
def hashAt (vh ih : Nat → Nat) (d i : Nat) : Nat := if d = 0 then vh i else ih i

/-- What a table must satisfy for `walk` to tell what the generator does. -/
structure Canon (crc : List Nat → Nat) (T : Trie) (lv vh ih : Nat → Nat) : Prop where
  nv : 3 ≤ T.values.length
  ni : 4 ≤ T.index.length
  v64 : ∀ x ∈ T.values, x.length = 64
  i64 : ∀ x ∈ T.index, x.length = 64
  v2 : T.values[2]? = some zeroBlock
  i0 : T.index[0]? = some zeroBlock
  i1 : T.index[1]? = some zeroBlock
  i2 : T.index[2]? = some zeroBlock
  vzero : vh 0 = 0
  izero : ih 0 = 0
  vhash : ∀ i, 0 < i → i + 2 < T.values.length → crc (T.block (i + 2)) = vh i
  ihash : ∀ i, 2 ≤ i → i + 2 < T.index.length →
    crc ((List.range 64).map fun j => hashAt vh ih (lv i - 1) (ent T i j)) = ih i
  vinj : ∀ i j, i + 2 < T.values.length → j + 2 < T.values.length → vh i = vh j → i = j
  iinj : ∀ i j, i ≠ 1 → j ≠ 1 → i + 2 < T.index.length → j + 2 < T.index.length → ih i = ih j → i = j

/-- The map from hashes to blocks of values after `m` of them. -/
def vmap (vh : Nat → Nat) : Nat → List (Nat × Nat)
  | 0 => [(0, 0)]
  | m + 1 => (vh (m + 1), m + 1) :: vmap vh m

/-- The map from hashes to index blocks after `n` of them. -/
def imap (ih : Nat → Nat) : Nat → List (Nat × Nat)
  | 0 => [(0, 0)]
  | n + 1 => (ih (n + 2), n + 2) :: imap ih n

/-- The builder after `s.1` blocks of values and `s.2` index blocks. -/
def stateOf (T : Trie) (vh ih : Nat → Nat) (s : Nat × Nat) : Builder :=
  { indexBlocks := (T.index.take (4 + s.2)).set 3 zeroBlock
    valueBlocks := T.values.take (3 + s.1)
    indexBlockIdx := imap ih s.2
    valueBlockIdx := vmap vh s.1 }

variable {crc : List Nat → Nat} {T : Trie} {lv vh ih : Nat → Nat}

theorem vmap_lookup (hc : Canon crc T lv vh ih) {m i : Nat} (hm : m + 2 < T.values.length)
    (hi : i + 2 < T.values.length) (h0 : 0 < i) :
    (vmap vh m).lookup (vh i) = if i ≤ m then some i else none := by
  induction m with
  | zero =>
    have : (vh i == 0) = false := by
      rw [beq_eq_false_iff_ne, ← hc.vzero]
      intro h
      have := hc.vinj i 0 hi (by omega) h
      omega
    simp only [vmap, List.lookup, this]
    rw [if_neg (by omega)]
  | succ m ihm =>
    simp only [vmap, List.lookup]
    by_cases h : i = m + 1
    · subst h; simp
    · have : (vh i == vh (m + 1)) = false := by
        rw [beq_eq_false_iff_ne]
        intro h'
        exact h (hc.vinj _ _ hi hm h')
      simp only [this]
      rw [ihm (by omega)]
      by_cases h1 : i ≤ m
      · rw [if_pos h1, if_pos (by omega)]
      · rw [if_neg h1, if_neg (by omega)]

theorem imap_lookup (hc : Canon crc T lv vh ih) {n i : Nat} (hn : n + 3 < T.index.length)
    (hi : i + 2 < T.index.length) (h0 : 2 ≤ i) :
    (imap ih n).lookup (ih i) = if i ≤ n + 1 then some i else none := by
  induction n with
  | zero =>
    have : (ih i == 0) = false := by
      rw [beq_eq_false_iff_ne, ← hc.izero]
      intro h
      have := hc.iinj i 0 (by omega) (by omega) hi (by omega) h
      omega
    simp only [imap, List.lookup, this]
    rw [if_neg (by omega)]
  | succ n ihn =>
    simp only [imap, List.lookup]
    by_cases h : i = n + 2
    · subst h; simp
    · have : (ih i == ih (n + 2)) = false := by
        rw [beq_eq_false_iff_ne]
        intro h'
        exact h (hc.iinj _ _ (by omega) (by omega) hi (by omega) h')
      simp only [this]
      rw [ihn (by omega)]
      by_cases h1 : i ≤ n + 1
      · rw [if_pos h1, if_pos (by omega)]
      · rw [if_neg h1, if_neg (by omega)]

/-- The counts are in range. -/
def InRange (T : Trie) (s : Nat × Nat) : Prop := s.1 + 3 ≤ T.values.length ∧ s.2 + 4 ≤ T.index.length

theorem block_eq {i : Nat} (h : i < T.values.length) : T.block i = T.values[i] := by
  simp [Trie.block, List.getElem?_eq_getElem h]

theorem ents_eq (hc : Canon crc T lv vh ih) {i : Nat} (h : i + 2 < T.index.length) :
    (List.range 64).map (ent T i) = T.index[i + 2] := by
  have h64 := hc.i64 _ (List.getElem_mem h)
  apply List.ext_getElem (by simp [h64])
  intro j h1 h2
  simp only [List.length_map, List.length_range] at h1
  simp only [List.getElem_map, List.getElem_range, ent, entry]
  have e1 : ((i + 2) * 64 + j) / 64 = i + 2 := by omega
  have e2 : ((i + 2) * 64 + j) % 64 = j := by omega
  rw [e1, e2, List.getElem?_eq_getElem h]
  simp only [Option.getD_some]
  rw [List.getElem?_eq_getElem h2]
  rfl

theorem stateOf_length (s : Nat × Nat) (hs : InRange T s) :
    (stateOf T vh ih s).indexBlocks.length = 4 + s.2 ∧ (stateOf T vh ih s).valueBlocks.length = 3 + s.1 := by
  simp only [stateOf, List.length_set, List.length_take]
  obtain ⟨h1, h2⟩ := hs
  omega

theorem walkKids_spec {children : Nat → Node} {lev : Nat → Nat} {e : Nat → Nat} {k : Nat} (hk : k ≤ 64)
    (hch : ∀ j < 64, children j = nodeOf T (lev j) (e j))
    (ihw : ∀ j < 64, ∀ s s', InRange T s → walk T lv (lev j) (e j) s = some s' →
      InRange T s' ∧ computeOffsets crc (nodeOf T (lev j) (e j)) (stateOf T vh ih s)
        = (hashAt vh ih (lev j) (e j), e j, stateOf T vh ih s'))
    {s s' : Nat × Nat} (hs : InRange T s)
    (hw : walkKids (fun j => walk T lv (lev j)) e k s = some s') :
    InRange T s' ∧ kids crc children k (stateOf T vh ih s)
      = ((List.range k).map (fun j => hashAt vh ih (lev j) (e j)), (List.range k).map e, stateOf T vh ih s') := by
  induction k generalizing s' with
  | zero =>
    simp only [walkKids, Option.some.injEq] at hw
    subst hw
    exact ⟨hs, kids_zero ..⟩
  | succ k ihk =>
    simp only [walkKids] at hw
    split at hw
    · cases hw
    · rename_i s1 hw1
      obtain ⟨h1, h2⟩ := ihk (by omega) hw1
      obtain ⟨h3, h4⟩ := ihw k (by omega) s1 s' h1 hw
      refine ⟨h3, ?_⟩
      rw [kids_succ, h2]
      simp only [hch k (by omega), h4, List.range_succ, List.map_append, List.map_cons, List.map_nil]

theorem walk_spec_zero (hc : Canon crc T lv vh ih) (i : Nat) (s s' : Nat × Nat) (hs : InRange T s)
    (hw : walk T lv 0 i s = some s') :
    InRange T s' ∧ computeOffsets crc (nodeOf T 0 i) (stateOf T vh ih s)
      = (hashAt vh ih 0 i, i, stateOf T vh ih s') := by
  simp only [walk, walkN] at hw
  simp only [nodeOf, hashAt, if_true]
  by_cases h0 : i = 0
  · rw [if_pos h0] at hw
    cases hw
    refine ⟨hs, ?_⟩
    rw [if_pos h0, h0, hc.vzero]
    rfl
  rw [if_neg h0] at hw
  rw [if_neg h0]
  have hlen := stateOf_length (vh := vh) (ih := ih) s hs
  rw [computeOffsets_mk _ _ _ _ _ (by omega)]
  simp only [Bool.false_eq_true, if_false, kids_zero, Option.getD_some]
  obtain ⟨hs1, hs2⟩ := hs
  by_cases h1 : i ≤ s.1
  · rw [if_pos h1] at hw
    cases hw
    refine ⟨⟨hs1, hs2⟩, ?_⟩
    have hb : blockHash crc false [] (some (T.block (i + 2))) = vh i := by
      simp only [blockHash, Option.isSome_some, Bool.or_true, if_true, List.nil_append, Option.getD_some]
      exact hc.vhash i (by omega) (by omega)
    have hl : (stateOf T vh ih s).valueBlockIdx.lookup (vh i) = some i := by
      simp only [stateOf]
      rw [vmap_lookup hc (by omega) (by omega) (by omega), if_pos h1]
    rw [hb]
    simp only [storeValues, hl]
  · rw [if_neg h1] at hw
    split at hw
    · rename_i h2
      cases hw
      obtain ⟨h2, h3⟩ := h2
      refine ⟨⟨by simp only; omega, hs2⟩, ?_⟩
      have hb : blockHash crc false [] (some (T.block (i + 2))) = vh i := by
        simp only [blockHash, Option.isSome_some, Bool.or_true, if_true, List.nil_append, Option.getD_some]
        exact hc.vhash i (by omega) (by omega)
      have hl : (stateOf T vh ih s).valueBlockIdx.lookup (vh i) = none := by
        simp only [stateOf]
        rw [vmap_lookup hc (by omega) (by omega) (by omega), if_neg h1]
      rw [hb]
      simp only [storeValues, hl]
      have hv : (stateOf T vh ih s).valueBlocks.length - blockOffset = i := by
        rw [hlen.2]; simp only [blockOffset]; omega
      rw [hv]
      simp only [stateOf]
      have e : T.values.take (3 + s.1) ++ [T.block (i + 2)] = T.values.take (3 + (s.1 + 1)) := by
        rw [block_eq h3, show 3 + (s.1 + 1) = (3 + s.1) + 1 by omega]
        rw [← List.take_append_getElem (by omega)]
        congr 3
        omega
      rw [e]
      simp only [vmap, h2]
    · cases hw

theorem walk_spec_succ (hc : Canon crc T lv vh ih) (d : Nat)
    (ihd : ∀ i s s', InRange T s → walk T lv d i s = some s' →
      InRange T s' ∧ computeOffsets crc (nodeOf T d i) (stateOf T vh ih s)
        = (hashAt vh ih d i, i, stateOf T vh ih s'))
    (i : Nat) (s s' : Nat × Nat) (hs : InRange T s) (hw : walk T lv (d + 1) i s = some s') :
    InRange T s' ∧ computeOffsets crc (nodeOf T (d + 1) i) (stateOf T vh ih s)
      = (hashAt vh ih (d + 1) i, i, stateOf T vh ih s') := by
  simp only [walk, walkN] at hw
  simp only [nodeOf, hashAt, Nat.succ_ne_zero, if_false]
  by_cases h0 : i = 0
  · rw [if_pos h0] at hw
    cases hw
    refine ⟨hs, ?_⟩
    rw [if_pos h0, h0, hc.izero]
    rfl
  rw [if_neg h0] at hw
  rw [if_neg h0]
  by_cases h1 : i < 2 ∨ lv i ≠ d + 1
  · rw [if_pos h1] at hw; cases hw
  rw [if_neg h1] at hw
  split at hw
  · cases hw
  rename_i s1 hw1
  have hlen := stateOf_length (vh := vh) (ih := ih) s hs
  rw [computeOffsets_mk _ _ _ _ _ (by omega)]
  obtain ⟨hs1, hk⟩ := walkKids_spec (crc := crc) (vh := vh) (ih := ih) (lev := fun _ => d) (Nat.le_refl 64)
    (children := fun j => if j < 64 then nodeOf T d (ent T i j) else .nil)
    (fun j hj => if_pos hj) (fun j _ s s' hs hw => ihd (ent T i j) s s' hs hw) hs hw1
  simp only [if_true]
  rw [hk]
  simp only
  have hlv : lv i = d + 1 := Classical.byContradiction fun h => h1 (.inr h)
  have h2i : 2 ≤ i := by
    rcases Nat.lt_or_ge i 2 with h | h
    · exact absurd (.inl h) h1
    · exact h
  have hlen := stateOf_length (vh := vh) (ih := ih) s1 hs1
  have hs1' := hs1
  obtain ⟨r1, r2⟩ := hs1'
  have hb : i + 2 < T.index.length →
      blockHash crc true ((List.range 64).map fun j => hashAt vh ih d (ent T i j)) none = ih i := by
    intro hi
    have := hc.ihash i h2i hi
    rw [hlv, Nat.add_sub_cancel] at this
    simp only [blockHash, Bool.true_or, if_true, Option.getD_none, List.append_nil]
    exact this
  by_cases h2 : i ≤ s1.2 + 1
  · rw [if_pos h2] at hw
    cases hw
    refine ⟨hs1, ?_⟩
    rw [hb (by omega)]
    have hl : (stateOf T vh ih s').indexBlockIdx.lookup (ih i) = some i := by
      simp only [stateOf]
      rw [imap_lookup hc (by omega) (by omega) (by omega), if_pos h2]
    simp only [storeIndex, hl]
  · rw [if_neg h2] at hw
    split at hw
    · rename_i h3
      cases hw
      obtain ⟨h3, h4⟩ := h3
      refine ⟨⟨r1, by simp only; omega⟩, ?_⟩
      rw [hb h4]
      have hl : (stateOf T vh ih s1).indexBlockIdx.lookup (ih i) = none := by
        simp only [stateOf]
        rw [imap_lookup hc (by omega) (by omega) (by omega), if_neg h2]
      simp only [storeIndex, hl]
      have hv : (stateOf T vh ih s1).indexBlocks.length - blockOffset = i := by
        rw [hlen.1]; simp only [blockOffset]; omega
      rw [hv]
      simp only [stateOf]
      have e : (T.index.take (4 + s1.2)).set 3 zeroBlock ++ [(List.range 64).map (ent T i)]
          = (T.index.take (4 + (s1.2 + 1))).set 3 zeroBlock := by
        rw [ents_eq hc h4, ← List.set_append_left _ _ (by rw [List.length_take]; omega)]
        congr 1
        rw [show 4 + (s1.2 + 1) = (4 + s1.2) + 1 by omega]
        rw [← List.take_append_getElem (by omega)]
        congr 3
        omega
      rw [e]
      simp only [imap, h3]
    · cases hw

theorem walk_spec (hc : Canon crc T lv vh ih) (d i : Nat) (s s' : Nat × Nat) (hs : InRange T s)
    (hw : walk T lv d i s = some s') :
    InRange T s' ∧ computeOffsets crc (nodeOf T d i) (stateOf T vh ih s)
      = (hashAt vh ih d i, i, stateOf T vh ih s') := by
  induction d generalizing i s s' with
  | zero => exact walk_spec_zero hc i s s' hs hw
  | succ d ihd => exact walk_spec_succ hc d ihd i s s' hs hw

/-- The generator gives the table back. -/
theorem gen_rootNode (hc : Canon crc T lv vh ih)
    (hw : walkKids (fun q => walk T lv (rootLevel q)) (ent T 1) 64 (0, 0)
      = some (T.values.length - 3, T.index.length - 4)) :
    gen crc (rootNode T) = (T, crc ((List.range 64).map (fun q => hashAt vh ih (rootLevel q) (ent T 1 q))
      ++ (T.block 0 ++ T.block 1))) := by
  have hnv := hc.nv
  have hni := hc.ni
  have hr0 : InRange T (0, 0) := ⟨by simp only; omega, by simp only; omega⟩
  obtain ⟨_, hk⟩ := walkKids_spec (crc := crc) (vh := vh) (ih := ih) (Nat.le_refl 64)
    (children := fun q => if q < 64 then nodeOf T (rootLevel q) (ent T 1 q) else .nil) (lev := rootLevel)
    (fun j hj => if_pos hj) (fun j _ s s' hs hw => walk_spec hc _ _ s s' hs hw) hr0 hw
  have hb0 : (T.block 0).length = 64 := by rw [block_eq (by omega)]; exact hc.v64 _ (List.getElem_mem _)
  have hstart : ({ initBuilder (T.block 0 ++ T.block 1) with
      indexBlocks := (initBuilder (T.block 0 ++ T.block 1)).indexBlocks ++ [zeroBlock] } : Builder)
      = stateOf T vh ih (0, 0) := by
    simp only [initBuilder, stateOf, blockSize, vmap, imap]
    rw [show List.take 64 (T.block 0 ++ T.block 1) = T.block 0 by rw [← hb0]; exact List.take_left ..]
    rw [show List.drop 64 (T.block 0 ++ T.block 1) = T.block 1 by rw [← hb0]; exact List.drop_left ..]
    have g : ∀ {l : List (List Nat)} {k : Nat} {x : List Nat} (h : l[k]? = some x) (hk : k < l.length), l[k] = x := by
      intro l k x h hk
      rw [List.getElem?_eq_getElem hk] at h
      exact Option.some.inj h
    congr 1
    · apply List.ext_getElem
      · simp only [List.length_append, List.length_cons, List.length_nil, List.length_set, List.length_take]; omega
      · intro j h1 h2
        simp only [List.length_append, List.length_cons, List.length_nil] at h1
        rw [List.getElem_set]
        match j, h1 with
        | 0, _ => simp [g hc.i0]
        | 1, _ => simp [g hc.i1]
        | 2, _ => simp [g hc.i2]
        | 3, _ => simp
    · apply List.ext_getElem
      · simp only [List.length_cons, List.length_nil, List.length_take]; omega
      · intro j h1 h2
        simp only [List.length_cons, List.length_nil] at h1
        rw [List.getElem_take]
        match j, h1 with
        | 0, _ => exact block_eq (by omega)
        | 1, _ => exact block_eq (by omega)
        | 2, _ => simp [g hc.v2]
  have h1 : ((initBuilder (T.block 0 ++ T.block 1)).indexBlocks.length == rootBlockOffset) = true := rfl
  simp only [gen, rootNode, Option.getD_some, computeOffsets, h1, if_true]
  rw [hstart]
  have h3 : ∀ ch : Nat → Node, (List.range blockSize).foldl
      (fun (st : List Nat × List Nat × Builder) i =>
        (st.1 ++ [(computeOffsets crc (ch i) st.2.2).1],
          st.2.1 ++ [(computeOffsets crc (ch i) st.2.2).2.1],
          (computeOffsets crc (ch i) st.2.2).2.2))
      (([] : List Nat), ([] : List Nat), stateOf T vh ih (0, 0))
      = kids crc ch 64 (stateOf T vh ih (0, 0)) := fun _ => rfl
  rw [h3, hk]
  simp only [storeIndex, List.lookup, beq_self_eq_true, rootBlockOffset, blockHash, Bool.true_or, if_true,
    Option.getD_some]
  congr 1
  simp only [stateOf, List.set_set]
  have e1 : T.values.take (3 + (T.values.length - 3)) = T.values := List.take_of_length_le (by omega)
  have e2 : T.index.take (4 + (T.index.length - 4)) = T.index := List.take_of_length_le (by omega)
  have e3 : T.index.set 3 ((List.range 64).map (ent T 1)) = T.index := by
    rw [ents_eq hc (i := 1) (by omega)]
    exact List.set_getElem_self (by omega)
  rw [e1, e2, e3]

end Uax29.Gen
