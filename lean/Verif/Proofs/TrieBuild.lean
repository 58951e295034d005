import Verif.Proofs.TrieTree
/-! # The blocks that the generator gives the nodes of a tree -/
namespace Uax29.Gen
open Spec

/-- The node has the form it must have with `d` levels of children below it. -/
def Shape : Nat → Node → Prop
  | _, .nil => True
  | 0, .mk hasChildren _ values => hasChildren = false ∧ ∃ vs, values = some vs ∧ vs.length = 64
  | d + 1, .mk hasChildren children values =>
    hasChildren = true ∧ values = none ∧ ∀ i < 64, Shape d (children i)

/-- The blocks of the builder give the node the number `i`. -/
def Repr (b : Builder) : Node → Nat → Prop
  | .nil, i => i = 0
  | .mk hasChildren children values, i =>
    if hasChildren then
      i ≠ 1 ∧ ∃ blk, b.indexBlocks[i + 2]? = some blk ∧ blk.length = 64
        ∧ ∀ j < 64, ∃ k, blk[j]? = some k ∧ Repr b (children j) k
    else b.valueBlocks[i + 2]? = some (values.getD [])

/-- Blocks are only added; block 3, that of the root, is left out. -/
structure Ext (b b' : Builder) : Prop where
  values : ∀ (k : Nat) x, b.valueBlocks[k]? = some x → b'.valueBlocks[k]? = some x
  index : ∀ (k : Nat) x, k ≠ 3 → b.indexBlocks[k]? = some x → b'.indexBlocks[k]? = some x

theorem Ext.refl (b : Builder) : Ext b b := ⟨fun _ _ h => h, fun _ _ _ h => h⟩

theorem Ext.trans {a b c : Builder} (h : Ext a b) (h' : Ext b c) : Ext a c :=
  ⟨fun k x hx => h'.values k x (h.values k x hx), fun k x hk hx => h'.index k x hk (h.index k x hk hx)⟩

theorem Repr.mono {b b' : Builder} (he : Ext b b') {n : Node} {i : Nat} (h : Repr b n i) : Repr b' n i := by
  induction n generalizing i with
  | nil => exact h
  | mk hasChildren children values ih =>
    simp only [Repr] at h ⊢
    split
    · rename_i hc
      rw [if_pos hc] at h
      obtain ⟨h1, blk, h2, h3, h4⟩ := h
      exact ⟨h1, blk, he.index _ _ (by omega) h2, h3, fun j hj =>
        let ⟨k, hk, hr⟩ := h4 j hj
        ⟨k, hk, ih j hr⟩⟩
    · rename_i hc
      rw [if_neg hc] at h
      exact he.values _ _ h

/-- What holds of the builder between two nodes. -/
structure Inv (crc : List Nat → Nat) (root : Node) (b : Builder) : Prop where
  ni : 4 ≤ b.indexBlocks.length
  nv : 3 ≤ b.valueBlocks.length
  i64 : ∀ x ∈ b.indexBlocks, x.length = 64
  v64 : ∀ x ∈ b.valueBlocks, x.length = 64
  values : ∀ h i, b.valueBlockIdx.lookup h = some i → h = 0 ∨ ∃ n, Below root n ∧ nodeHash crc n = h
    ∧ Repr b n i
  index : ∀ h i, b.indexBlockIdx.lookup h = some i → h = 0 ∨ ∃ n, Below root n ∧ nodeHash crc n = h
    ∧ Repr b n i

/-- A new block of values. -/
def Builder.addValues (b : Builder) (hash : Nat) (vs : List Nat) : Builder :=
  { b with valueBlocks := b.valueBlocks ++ [vs],
           valueBlockIdx := (hash, b.valueBlocks.length - blockOffset) :: b.valueBlockIdx }

/-- A new index block. -/
def Builder.addIndex (b : Builder) (hash : Nat) (es : List Nat) : Builder :=
  { b with indexBlocks := b.indexBlocks ++ [es],
           indexBlockIdx := (hash, b.indexBlocks.length - blockOffset) :: b.indexBlockIdx }

/-- The loop over the children. -/
def kids (crc : List Nat → Nat) (children : Nat → Node) (m : Nat) (b : Builder) :
    List Nat × List Nat × Builder :=
  (List.range m).foldl
    (fun (st : List Nat × List Nat × Builder) i =>
      let c := computeOffsets crc (children i) st.2.2
      (st.1 ++ [c.1], st.2.1 ++ [c.2.1], c.2.2))
    (([] : List Nat), ([] : List Nat), b)

theorem kids_zero (crc : List Nat → Nat) (children : Nat → Node) (b : Builder) :
    kids crc children 0 b = ([], [], b) := rfl

theorem kids_succ (crc : List Nat → Nat) (children : Nat → Node) (m : Nat) (b : Builder) :
    kids crc children (m + 1) b =
      let st := kids crc children m b
      let c := computeOffsets crc (children m) st.2.2
      (st.1 ++ [c.1], st.2.1 ++ [c.2.1], c.2.2) := by
  simp only [kids, List.range_succ, List.foldl_append, List.foldl_cons, List.foldl_nil]

/-- `computeOffsets` of a node that is not the first. -/
theorem computeOffsets_mk (crc : List Nat → Nat) (hasChildren : Bool) (children : Nat → Node)
    (values : Option (List Nat)) (b : Builder) (hb : 4 ≤ b.indexBlocks.length) :
    computeOffsets crc (.mk hasChildren children values) b =
      let r := kids crc children (if hasChildren then 64 else 0) b
      let hash := blockHash crc hasChildren r.1 values
      let s := if hasChildren then storeIndex r.2.2 hash r.2.1
        else storeValues r.2.2 hash (values.getD [])
      (hash, s.1, s.2) := by
  have hf : (b.indexBlocks.length == rootBlockOffset) = false := by
    simp only [rootBlockOffset, beq_eq_false_iff_ne]; omega
  rw [computeOffsets]
  simp only [hf, Bool.false_eq_true, if_false]
  rfl

/-- What one call gives. -/
structure Good (crc : List Nat → Nat) (root n : Node) (b : Builder) (r : Nat × Nat × Builder) : Prop where
  hash : r.1 = nodeHash crc n
  ext : Ext b r.2.2
  inv : Inv crc root r.2.2
  repr : Repr r.2.2 n r.2.1

theorem below_child {root : Node} {hc : Bool} {ch : Nat → Node} {vs : Option (List Nat)}
    (h : Below root (.mk hc ch vs)) (i : Nat) : Below root (ch i) := by
  generalize hn : Node.mk hc ch vs = n at h
  induction h with
  | here => subst hn; exact .child i (.here _)
  | child j h ih => exact .child j (ih hn)

theorem kids_good {crc : List Nat → Nat} {root : Node} {children : Nat → Node}
    (ih : ∀ i < 64, ∀ b, Inv crc root b → Good crc root (children i) b (computeOffsets crc (children i) b))
    (m : Nat) (hm : m ≤ 64) (b : Builder) (hb : Inv crc root b) :
    let r := kids crc children m b
    r.1 = (List.range m).map (fun i => nodeHash crc (children i)) ∧ Ext b r.2.2 ∧ Inv crc root r.2.2
      ∧ r.2.1.length = m ∧ ∀ j < m, ∃ k, r.2.1[j]? = some k ∧ Repr r.2.2 (children j) k := by
  induction m with
  | zero =>
    rw [kids_zero]
    exact ⟨rfl, .refl _, hb, rfl, by omega⟩
  | succ m ihm =>
    obtain ⟨h1, h2, h3, h4, h5⟩ := ihm (by omega)
    rw [kids_succ]
    have g := ih m (by omega) _ h3
    dsimp only
    generalize kids crc children m b = st at *
    generalize computeOffsets crc (children m) st.2.2 = c at *
    refine ⟨?_, h2.trans g.ext, g.inv, by simp [h4], ?_⟩
    · simp only [h1, g.hash, List.range_succ, List.map_append, List.map_cons, List.map_nil]
    · intro j hj
      by_cases hjm : j < m
      · obtain ⟨k, hk, hr⟩ := h5 j hjm
        exact ⟨k, by rw [List.getElem?_append_left (by omega)]; exact hk, hr.mono g.ext⟩
      · have : j = m := by omega
        subst this
        exact ⟨c.2.1, by rw [List.getElem?_append_right (by omega)]; simp [h4], g.repr⟩

theorem lookup_cons_some {h h' i v : Nat} {l : List (Nat × Nat)} (hl : ((h, v) :: l).lookup h' = some i) :
    (h' = h ∧ i = v) ∨ l.lookup h' = some i := by
  simp only [List.lookup] at hl
  split at hl
  · rename_i he
    left
    simp only [beq_iff_eq] at he
    exact ⟨he, by cases hl; rfl⟩
  · exact .inr hl

theorem computeOffsets_good {crc : List Nat → Nat} {root : Node} (hno : NoClash crc root) {d : Nat}
    {n : Node} (hs : Shape d n) (hn : Below root n) {b : Builder} (hb : Inv crc root b) :
    Good crc root n b (computeOffsets crc n b) := by
  induction d generalizing n b with
  | zero =>
    match n, hs with
    | .nil, _ => exact ⟨rfl, .refl _, hb, rfl⟩
    | .mk hc children values, ⟨h1, vs, h2, h3⟩ =>
      subst h1 h2
      rw [computeOffsets_mk _ _ _ _ _ hb.ni]
      simp only [Bool.false_eq_true, if_false, kids_zero]
      have hh : blockHash crc false [] (some vs) = nodeHash crc (.mk false children (some vs)) := by
        simp [blockHash, nodeHash]
      rw [hh]
      have hne : nodeHash crc (.mk false children (some vs)) ≠ 0 := fun h0 => by
        have := hno.2 _ hn h0
        cases this
      generalize hhash : nodeHash crc (.mk false children (some vs)) = hash at *
      unfold storeValues
      cases hlk : b.valueBlockIdx.lookup hash with
      | some v =>
        refine ⟨hhash.symm, .refl _, hb, ?_⟩
        rcases hb.values hash v hlk with h0 | ⟨n', hn', hh', hr⟩
        · exact absurd h0 hne
        · have := hno.1 _ _ hn' hn (hh'.trans hhash.symm)
          subst this
          exact hr
      | none =>
        dsimp only [Option.getD_some]
        have he : Ext b (b.addValues hash vs) := by
          refine ⟨fun k x hk => ?_, fun _ _ _ h => h⟩
          have : k < b.valueBlocks.length := by
            rw [List.getElem?_eq_some_iff] at hk; exact hk.1
          simp only [Builder.addValues]
          rw [List.getElem?_append_left this]
          exact hk
        have hrep : Repr (b.addValues hash vs)
            (.mk false children (some vs)) (b.valueBlocks.length - blockOffset) := by
          have := hb.nv
          simp only [Repr, Bool.false_eq_true, if_false, blockOffset, Option.getD_some, Builder.addValues]
          rw [show b.valueBlocks.length - 2 + 2 = b.valueBlocks.length by omega]
          simp
        refine ⟨hhash.symm, he, ⟨hb.ni, ?_, hb.i64, ?_, ?_, ?_⟩, hrep⟩
        · have := hb.nv; simp only [List.length_append]; omega
        · intro x hx
          simp only [List.mem_append, List.mem_singleton] at hx
          rcases hx with hx | hx
          · exact hb.v64 x hx
          · rw [hx]; exact h3
        · intro h i hl
          rcases lookup_cons_some hl with ⟨h1, h2⟩ | hl
          · exact .inr ⟨_, hn, by rw [h1]; exact hhash, by rw [h2]; exact hrep⟩
          · rcases hb.values h i hl with h0 | ⟨n', hn', hh', hr⟩
            · exact .inl h0
            · exact .inr ⟨n', hn', hh', hr.mono he⟩
        · intro h i hl
          rcases hb.index h i hl with h0 | ⟨n', hn', hh', hr⟩
          · exact .inl h0
          · exact .inr ⟨n', hn', hh', hr.mono he⟩
  | succ d ih =>
    match n, hs with
    | .nil, _ => exact ⟨rfl, .refl _, hb, rfl⟩
    | .mk hc children values, ⟨h1, h2, h3⟩ =>
      subst h1 h2
      rw [computeOffsets_mk _ _ _ _ _ hb.ni]
      have hk := kids_good (fun i hi b hb => ih (h3 i hi) (below_child hn i) hb) 64 (Nat.le_refl _) b hb
      simp only [if_true]
      generalize kids crc children 64 b = r at *
      obtain ⟨hs, es, b'⟩ := r
      obtain ⟨k1, k2, k3, k4, k5⟩ := hk
      dsimp only at k1 k2 k3 k4 k5 ⊢
      have hh : blockHash crc true hs none = nodeHash crc (.mk true children none) := by
        simp [blockHash, nodeHash, k1]
      rw [hh]
      have hne : nodeHash crc (.mk true children none) ≠ 0 := fun h0 => by
        have := hno.2 _ hn h0
        cases this
      generalize hhash : nodeHash crc (.mk true children none) = hash at *
      unfold storeIndex
      cases hlk : b'.indexBlockIdx.lookup hash with
      | some v =>
        refine ⟨hhash.symm, k2, k3, ?_⟩
        rcases k3.index hash v hlk with h0 | ⟨n', hn', hh', hr⟩
        · exact absurd h0 hne
        · have := hno.1 _ _ hn' hn (hh'.trans hhash.symm)
          subst this
          exact hr
      | none =>
        dsimp only
        have hni := k3.ni
        have he : Ext b' (b'.addIndex hash es) := by
          refine ⟨fun _ _ h => h, fun k x _ hk => ?_⟩
          have : k < b'.indexBlocks.length := by
            rw [List.getElem?_eq_some_iff] at hk; exact hk.1
          simp only [Builder.addIndex]
          rw [List.getElem?_append_left this]
          exact hk
        have hrep : Repr (b'.addIndex hash es)
            (.mk true children none) (b'.indexBlocks.length - blockOffset) := by
          simp only [Repr, if_true, blockOffset]
          refine ⟨by omega, es, ?_, k4, fun j hj => ?_⟩
          · simp only [Builder.addIndex]
            rw [show b'.indexBlocks.length - 2 + 2 = b'.indexBlocks.length by omega]
            simp
          · obtain ⟨k, hk, hr⟩ := k5 j hj
            exact ⟨k, hk, hr.mono he⟩
        refine ⟨hhash.symm, k2.trans he, ⟨?_, k3.nv, ?_, k3.v64, ?_, ?_⟩, hrep⟩
        · simp only [List.length_append]; omega
        · intro x hx
          simp only [List.mem_append, List.mem_singleton] at hx
          rcases hx with hx | hx
          · exact k3.i64 x hx
          · rw [hx]; exact k4
        · intro h i hl
          rcases k3.values h i hl with h0 | ⟨n', hn', hh', hr⟩
          · exact .inl h0
          · exact .inr ⟨n', hn', hh', hr.mono he⟩
        · intro h i hl
          rcases lookup_cons_some hl with ⟨h1, h2⟩ | hl
          · exact .inr ⟨_, hn, by rw [h1]; exact hhash, by rw [h2]; exact hrep⟩
          · rcases k3.index h i hl with h0 | ⟨n', hn', hh', hr⟩
            · exact .inl h0
            · exact .inr ⟨n', hn', hh', hr.mono he⟩

end Uax29.Gen
