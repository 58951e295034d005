import Verif.Spec.TrieGen
import Verif.Proofs.Encode
/-! # The tree that a list of insertions builds -/
namespace Uax29.Gen
open Spec

/-- The leaf with the values `g 0`, …, `g 63`; no node if all are 0. -/
noncomputable def leafOf (g : Nat → Nat) : Node :=
  open Classical in
  if ∀ i < 64, g i = 0 then .nil else .mk false (fun _ => .nil) (some ((List.range 64).map g))

/-- The inner node with the children `k 0`, …, `k 63`; no node if there is no child. -/
noncomputable def innerOf (k : Nat → Node) : Node :=
  open Classical in
  if ∀ i < 64, k i = .nil then .nil else .mk true (fun j => if j < 64 then k j else .nil) none

/-- The node for the runes that begin with `p`, with `d + 1` digits to base 64 to follow. -/
noncomputable def tree (f : Nat → Nat) : Nat → Nat → Node
  | 0, p => leafOf fun i => f (p * 64 + i)
  | d + 1, p => innerOf fun j => tree f d (p * 64 + j)

/-- `f` from `lo` on. -/
def from' (lo : Nat) (f : Nat → Nat) (r : Nat) : Nat := if lo ≤ r then f r else 0

/-- The children of the root. -/
noncomputable def starters (f : Nat → Nat) (q : Nat) : Node :=
  if q < 32 then tree (from' 0x80 f) 0 q
  else if q < 48 then tree (from' 0x800 f) 1 (q - 32)
  else if q < 56 then tree (from' 0x10000 f) 2 (q - 48)
  else .nil

/-- The whole tree for the values `f`. -/
noncomputable def rootOf (f : Nat → Nat) : Node :=
  .mk true (starters f) (some ((List.range 128).map f))

/-- `g` with the value `v` at `i`. -/
def upd {α : Type} (g : Nat → α) (i : Nat) (v : α) (j : Nat) : α := if j = i then v else g j

theorem leafOf_zero : leafOf (fun _ => 0) = .nil := by simp [leafOf]

theorem innerOf_nil {k : Nat → Node} (h : ∀ i < 64, k i = .nil) : innerOf k = .nil := by
  simp only [innerOf]; rw [if_pos h]

theorem tree_zero (d p : Nat) : tree (fun _ => 0) d p = .nil := by
  induction d generalizing p with
  | zero => simp [tree, leafOf_zero]
  | succ d ih => exact innerOf_nil fun i _ => ih _

theorem newTrie_eq : newTrie = rootOf (fun _ => 0) := by
  have h1 : ∀ lo, from' lo (fun _ => 0) = fun _ => 0 := by
    intro lo; funext r; simp [from']
  have h2 : starters (fun _ => 0) = fun _ => .nil := by
    funext q
    simp only [starters, h1, tree_zero, ite_self]
  have h3 : (List.range 128).map (fun _ => 0) = List.replicate 128 0 := by
    exact List.ext_getElem (by rw [List.length_map, List.length_range, List.length_replicate])
      fun i h1 h2 => by rw [List.getElem_map, List.getElem_replicate]
  simp only [newTrie, rootOf, h2, h3]

theorem leafOf_insert {g : Nat → Nat} {i v : Nat} (hi : i < 64) (hv : v ≠ 0) {b : UInt8}
    (hb : b.toNat = 0x80 + i) : (leafOf g).orNew.insert [b] v = .ok (leafOf (upd g i v)) := by
  have hbi : (b - 0x80).toNat = i := by
    have : b = UInt8.ofNat (0x80 + i) := by rw [← hb]; simp
    rw [this, UInt8.toNat_sub]
    simp
    omega
  have hr : leafOf (upd g i v) = .mk false (fun _ => .nil) (some ((List.range 64).map (upd g i v))) := by
    rw [leafOf, if_neg]
    intro h
    have := h i hi
    simp [upd] at this
    exact hv this
  rw [hr]
  by_cases h : ∀ i < 64, g i = 0
  · rw [leafOf, if_pos h]
    simp only [Node.orNew, Node.empty, Node.insert, hbi]
    simp only [Bool.false_eq_true, if_false, Option.getD_none, blockSize, List.length_replicate, hi,
      if_true]
    congr 3
    apply List.ext_getElem (by simp)
    intro j h1 h2
    simp only [List.length_set, List.length_replicate] at h1
    simp only [List.getElem_set, List.getElem_replicate, List.getElem_map, List.getElem_range, upd]
    by_cases hij : i = j
    · simp [hij]
    · rw [if_neg hij, if_neg (Ne.symm hij), h j h1]
  · rw [leafOf, if_neg h]
    simp only [Node.orNew, Node.insert, hbi]
    simp only [Bool.false_eq_true, if_false, Option.getD_some, List.length_map, List.length_range, hi,
      if_true]
    congr 3
    apply List.ext_getElem (by simp)
    intro j h1 h2
    simp only [List.getElem_set, List.getElem_map, List.getElem_range, upd]
    by_cases hij : i = j
    · simp [hij]
    · rw [if_neg hij, if_neg (Ne.symm hij)]

theorem innerOf_insert {k : Nat → Node} {j v : Nat} (hj : j < 64) {b b' : UInt8} {rest : Bytes}
    {c : Node} (hb : b.toNat % 64 = j) (hc : (k j).orNew.insert (b' :: rest) v = .ok c)
    (hn : c ≠ .nil) (hd : rest = [] ∨ (k j).orNew.hasValues = false) :
    (innerOf k).orNew.insert (b :: b' :: rest) v = .ok (innerOf (upd k j c)) := by
  have hr : innerOf (upd k j c)
      = .mk true (fun q => if q < 64 then upd k j c q else .nil) none := by
    rw [innerOf, if_neg]
    intro h
    have := h j hj
    simp [upd] at this
    exact hn this
  have hd' : (!rest.isEmpty && (k j).orNew.hasValues) = false := by
    rcases hd with h | h
    · simp [h]
    · simp [h]
  rw [hr]
  by_cases h : ∀ i < 64, k i = .nil
  · rw [innerOf, if_pos h]
    simp only [Node.orNew, Node.empty, Node.insert, blockSize, hb]
    have hkj : Node.orNew .nil = (k j).orNew := by rw [h j hj]
    have h0 : (Node.mk false (fun _ => Node.nil) none) = (k j).orNew := by rw [← hkj]; rfl
    simp only [h0, hd', hc, Bool.false_eq_true, if_false]
    congr 2
    funext q
    simp only [upd]
    by_cases hq : q = j
    · subst hq; simp [hj]
    · rw [if_neg hq]
      split
      · rename_i hq; rw [h q hq]
      · rfl
  · rw [innerOf, if_neg h]
    rw [show ∀ a b c, (Node.mk a b c).orNew = .mk a b c from fun _ _ _ => rfl]
    simp only [Node.insert, blockSize, hb]
    rw [if_pos hj]
    simp only [hd', hc, Bool.false_eq_true, if_false]
    congr 2
    funext q
    simp only [upd]
    by_cases hq : q = j
    · subst hq; simp [hj]
    · simp only [if_neg hq]

theorem innerOf_hasValues (k : Nat → Node) : (innerOf k).orNew.hasValues = false := by
  unfold innerOf
  split <;> rfl

theorem leafOf_ne {g : Nat → Nat} {i : Nat} (hi : i < 64) (h : g i ≠ 0) : leafOf g ≠ .nil := by
  rw [leafOf, if_neg]
  · simp
  · intro h'; exact h (h' i hi)

theorem innerOf_ne {k : Nat → Node} {i : Nat} (hi : i < 64) (h : k i ≠ .nil) : innerOf k ≠ .nil := by
  rw [innerOf, if_neg]
  · simp
  · intro h'; exact h (h' i hi)

/-- The digits `l` to base 64 after `p`. -/
def digits (p : Nat) : List Nat → Nat
  | [] => p
  | i :: l => digits (p * 64 + i) l

theorem tree_ne {f : Nat → Nat} {d p : Nat} {l : List Nat} (hl : l.length = d + 1)
    (h64 : ∀ i ∈ l, i < 64) (h : f (digits p l) ≠ 0) : tree f d p ≠ .nil := by
  induction d generalizing p l with
  | zero =>
    match l, hl with
    | [i], _ => exact leafOf_ne (h64 i (by simp)) h
  | succ d ih =>
    match l, hl with
    | i :: l, hl =>
      exact innerOf_ne (h64 i (by simp))
        (ih (l := l) (by simpa using hl) (fun i hi => h64 i (by simp [hi])) h)

/-- A rune with another beginning does not matter. -/
theorem tree_congr {f g : Nat → Nat} {d p : Nat}
    (h : ∀ l : List Nat, l.length = d + 1 → (∀ i ∈ l, i < 64) → f (digits p l) = g (digits p l)) :
    tree f d p = tree g d p := by
  induction d generalizing p with
  | zero =>
    have : ∀ i < 64, f (p * 64 + i) = g (p * 64 + i) := fun i hi => h [i] rfl (by simpa using hi)
    simp only [tree, leafOf]
    have e : (List.range 64).map (fun i => f (p * 64 + i))
        = (List.range 64).map (fun i => g (p * 64 + i)) := by
      apply List.map_congr_left
      intro i hi
      exact this i (by simpa using hi)
    have e2 : (∀ i < 64, f (p * 64 + i) = 0) ↔ (∀ i < 64, g (p * 64 + i) = 0) :=
      ⟨fun h i hi => (this i hi).symm.trans (h i hi), fun h i hi => (this i hi).trans (h i hi)⟩
    rw [e]
    by_cases hg : ∀ i < 64, g (p * 64 + i) = 0
    · rw [if_pos (e2.mpr hg), if_pos hg]
    · rw [if_neg (fun h => hg (e2.mp h)), if_neg hg]
  | succ d ih =>
    have : ∀ i < 64, tree f d (p * 64 + i) = tree g d (p * 64 + i) := fun i hi =>
      ih fun l hl h64 => h (i :: l) (by simpa using hl)
        (by simp only [List.mem_cons, forall_eq_or_imp]; exact ⟨hi, h64⟩)
    simp only [tree, innerOf]
    have e : (fun j => if j < 64 then tree f d (p * 64 + j) else .nil)
        = (fun j => if j < 64 then tree g d (p * 64 + j) else .nil) := by
      funext j
      by_cases hj : j < 64
      · simp only [if_pos hj, this j hj]
      · simp only [if_neg hj]
    have e2 : (∀ i < 64, tree f d (p * 64 + i) = .nil) ↔ (∀ i < 64, tree g d (p * 64 + i) = .nil) :=
      ⟨fun h i hi => (this i hi).symm.trans (h i hi), fun h i hi => (this i hi).trans (h i hi)⟩
    rw [e]
    by_cases hg : ∀ i < 64, tree g d (p * 64 + i) = .nil
    · rw [if_pos (e2.mpr hg), if_pos hg]
    · rw [if_neg (fun h => hg (e2.mp h)), if_neg hg]

theorem digits_bound {p : Nat} {l : List Nat} (h64 : ∀ i ∈ l, i < 64) :
    p * 64 ^ l.length ≤ digits p l ∧ digits p l < (p + 1) * 64 ^ l.length := by
  induction l generalizing p with
  | nil => simp [digits]
  | cons i l ih =>
    have hi := h64 i (by simp)
    have := ih (p := p * 64 + i) (fun i hi => h64 i (by simp [hi]))
    simp only [digits, List.length_cons, Nat.pow_succ]
    have e1 : p * (64 ^ l.length * 64) = (p * 64) * 64 ^ l.length := by
      rw [Nat.mul_comm (64 ^ l.length), Nat.mul_assoc]
    have e2 : (p + 1) * (64 ^ l.length * 64) = (p * 64 + 64) * 64 ^ l.length := by
      rw [Nat.mul_comm (64 ^ l.length), ← Nat.mul_assoc, Nat.add_mul p 1 64]
    constructor
    · rw [e1]
      exact Nat.le_trans (Nat.mul_le_mul_right _ (by omega)) this.1
    · rw [e2]
      exact Nat.lt_of_lt_of_le this.2 (Nat.mul_le_mul_right _ (by omega))

/-- Inserting below an inner node or into a leaf. -/
theorem tree_insert {f : Nat → Nat} {d p v : Nat} (hv : v ≠ 0) {l : List Nat} {s : Bytes}
    (hl : l.length = d + 1) (h64 : ∀ i ∈ l, i < 64) (hs : s.map UInt8.toNat = l.map (0x80 + ·)) :
    (tree f d p).orNew.insert s v = .ok (tree (upd f (digits p l) v) d p) := by
  induction d generalizing p l s with
  | zero =>
    have hls : s.length = l.length := by simpa using congrArg List.length hs
    match l, hl, s, hls, hs with
    | [i], _, [b], _, hs =>
      simp only [List.map_cons, List.map_nil, List.cons.injEq, and_true] at hs
      have hi : i < 64 := h64 i (by simp)
      simp only [tree]
      rw [leafOf_insert hi hv hs]
      congr 2
      funext j
      rw [show digits p [i] = p * 64 + i from rfl]
      unfold upd
      by_cases hj : j = i
      · subst hj; simp
      · rw [if_neg hj, if_neg (by omega)]
  | succ d ih =>
    have hls : s.length = l.length := by simpa using congrArg List.length hs
    match l, hl, s, hls, hs with
    | i :: i' :: l, hl, b :: b' :: s, _, hs =>
      have hs' : (b' :: s).map UInt8.toNat = (i' :: l).map (0x80 + ·) := by
        simp only [List.map_cons, List.cons.injEq] at hs ⊢
        exact hs.2
      have hb : b.toNat = 0x80 + i := by
        simp only [List.map_cons, List.cons.injEq] at hs
        exact hs.1
      have hi : i < 64 := h64 i (by simp)
      have h64' : ∀ k ∈ i' :: l, k < 64 := fun k hk => h64 k (by simp only [List.mem_cons] at hk ⊢; exact .inr hk)
      have hl' : (i' :: l).length = d + 1 := by simpa using hl
      have hins := ih (p := p * 64 + i) hl' h64' hs'
      simp only [tree]
      rw [innerOf_insert (k := fun j => tree f d (p * 64 + j)) hi (by omega) hins ?_ ?_]
      · congr 2
        funext j
        simp only [upd]
        by_cases hj : j = i
        · subst hj; simp only [if_true]; rfl
        · rw [if_neg hj]
          apply tree_congr
          intro l' hl'' h64''
          have hd1 := digits_bound (p := p * 64 + j) h64''
          have hd2 := digits_bound (p := p * 64 + i) h64'
          rw [hl''] at hd1
          rw [hl'] at hd2
          unfold upd
          rw [if_neg]
          intro he
          have he : digits (p * 64 + j) l' = digits (p * 64 + i) (i' :: l) := he
          rcases Nat.lt_or_gt_of_ne hj with h | h
          · have : (p * 64 + j + 1) * 64 ^ (d + 1) ≤ (p * 64 + i) * 64 ^ (d + 1) :=
              Nat.mul_le_mul_right _ (by omega)
            omega
          · have : (p * 64 + i + 1) * 64 ^ (d + 1) ≤ (p * 64 + j) * 64 ^ (d + 1) :=
              Nat.mul_le_mul_right _ (by omega)
            omega
      · exact tree_ne hl' h64' (by simp [upd, hv])
      · cases d with
        | zero =>
          left
          have : l.length = 0 := by simpa using hl
          have h2 : s.length = l.length := by
            have := congrArg List.length hs'
            simpa using this
          exact List.eq_nil_of_length_eq_zero (h2.trans this)
        | succ d => right; exact innerOf_hasValues _

theorem tree_upd_ne {f : Nat → Nat} {d p r v : Nat}
    (h : r < p * 64 ^ (d + 1) ∨ (p + 1) * 64 ^ (d + 1) ≤ r) : tree (upd f r v) d p = tree f d p := by
  apply tree_congr
  intro l hl h64
  have := digits_bound (p := p) h64
  rw [hl] at this
  unfold upd
  rw [if_neg]
  omega

theorem from_upd_ge {lo r v : Nat} (f : Nat → Nat) (h : lo ≤ r) :
    from' lo (upd f r v) = upd (from' lo f) r v := by
  funext q
  unfold from' upd
  by_cases hq : q = r
  · subst hq; simp [h]
  · simp [hq]

theorem from_upd_lt {lo r v : Nat} (f : Nat → Nat) (h : r < lo) :
    from' lo (upd f r v) = from' lo f := by
  funext q
  unfold from' upd
  by_cases hq : lo ≤ q
  · rw [if_pos hq, if_pos hq, if_neg (by omega)]
  · rw [if_neg hq, if_neg hq]

theorem rootOf_insert {f : Nat → Nat} {b b' : UInt8} {rest : Bytes} {v p : Nat} {c : Node}
    (hb : b.toNat % 64 = p) (hc : (starters f p).orNew.insert (b' :: rest) v = .ok c)
    (hd : rest = [] ∨ (starters f p).orNew.hasValues = false) :
    (rootOf f).insert (b :: b' :: rest) v
      = .ok (.mk true (fun q => if q = p then c else starters f q) (some ((List.range 128).map f))) := by
  have hd' : (!rest.isEmpty && (starters f p).orNew.hasValues) = false := by
    rcases hd with h | h <;> simp [h]
  simp only [rootOf, Node.insert, blockSize, hb, hd', hc, Bool.false_eq_true, if_false]

theorem values_upd {f : Nat → Nat} {r v : Nat} (h : 128 ≤ r) :
    (List.range 128).map (upd f r v) = (List.range 128).map f := by
  apply List.map_congr_left
  intro i hi
  simp only [List.mem_range] at hi
  unfold upd
  rw [if_neg (by omega)]

/-- One call of `Insert`. -/
theorem insert_rootOf (f : Nat → Nat) (c : Char) {v : Nat} (hv : v ≠ 0) :
    insert (rootOf f) c.val.toNat v = .ok (rootOf (upd f c.val.toNat v)) := by
  have hval : c.val.toNat.isValidChar := c.valid
  have hrs : runeString c.val.toNat = String.utf8EncodeChar c := by
    unfold runeString
    rw [dif_pos hval]
    congr 1
  have hro : runeOfString c.val.toNat = c.val.toNat := if_pos hval
  unfold insert
  rw [if_neg hv]
  simp only [hrs, hro, ne_eq, not_true_eq_false, if_false]
  rcases encode_cases c with ⟨h1, b0, he, h2⟩ | ⟨h1, h1', b0, b1, he, h2, h3⟩ |
    ⟨h1, h1', b0, b1, b2, he, h2, h3, h4⟩ | ⟨h1, h1', b0, b1, b2, b3, he, h2, h3, h4, h5⟩
  all_goals rw [he]; generalize c.val.toNat = r at *
  · simp only [rootOf, List.length_map, List.length_range, h2, if_pos h1]
    congr 2
    · funext q
      unfold starters
      rw [from_upd_lt f (by omega), from_upd_lt f (by omega), from_upd_lt f (by omega)]
    · congr 1
      apply List.ext_getElem (by simp)
      intro j h1 h2
      simp only [List.getElem_set, List.getElem_map, List.getElem_range, upd]
      by_cases hij : r = j
      · simp [hij]
      · rw [if_neg hij, if_neg (Ne.symm hij)]
  · have hp : b0.toNat % 64 = r / 64 := by omega
    have hst : starters f (r / 64) = tree (from' 0x80 f) 0 (r / 64) := if_pos (by omega)
    have hdg : digits (r / 64) [r % 64] = r := by simp only [digits]; omega
    have hins := tree_insert (f := from' 0x80 f) (d := 0) (p := r / 64) (s := [b1]) (l := [r % 64]) hv
      rfl (by simp; omega) (by simp [h3])
    rw [hdg] at hins
    refine (rootOf_insert hp (by rw [hst]; exact hins) (.inl rfl)).trans ?_
    rw [rootOf, values_upd h1]
    congr 2
    funext q
    unfold starters
    rw [from_upd_ge f h1, from_upd_lt f (by omega), from_upd_lt f (by omega)]
    by_cases hq : q = r / 64
    · subst hq; rw [if_pos rfl, if_pos (by omega)]
    · rw [if_neg hq, tree_upd_ne]
      simp only [Nat.pow_succ, Nat.pow_zero, Nat.one_mul, Nat.zero_add]
      omega
  · have hp : b0.toNat % 64 = 32 + r / 4096 := by omega
    have hst : starters f (32 + r / 4096) = tree (from' 0x800 f) 1 (r / 4096) := by
      unfold starters
      rw [if_neg (by omega), if_pos (by omega), Nat.add_sub_cancel_left]
    have hdg : digits (r / 4096) [r / 64 % 64, r % 64] = r := by simp only [digits]; omega
    have hins := tree_insert (f := from' 0x800 f) (d := 1) (p := r / 4096) (s := [b1, b2])
      (l := [r / 64 % 64, r % 64]) hv rfl (by simp; omega) (by simp [h3, h4])
    rw [hdg] at hins
    refine (rootOf_insert hp (by rw [hst]; exact hins) (.inr ?_)).trans ?_
    · rw [hst]; exact innerOf_hasValues _
    rw [rootOf, values_upd (by omega)]
    congr 2
    funext q
    unfold starters
    rw [from_upd_ge f (by omega), from_upd_ge f h1, from_upd_lt f (by omega)]
    by_cases hq : q = 32 + r / 4096
    · subst hq
      rw [if_pos rfl, if_neg (by omega), if_pos (by omega), Nat.add_sub_cancel_left]
    · rw [if_neg hq]
      by_cases hq1 : q < 32
      · rw [if_pos hq1, if_pos hq1, tree_upd_ne]
        simp only [Nat.pow_succ, Nat.pow_zero, Nat.one_mul, Nat.zero_add]
        omega
      rw [if_neg hq1, if_neg hq1]
      by_cases hq2 : q < 48
      · rw [if_pos hq2, if_pos hq2, tree_upd_ne]
        simp only [Nat.pow_succ, Nat.pow_zero, Nat.one_mul]
        omega
      rw [if_neg hq2, if_neg hq2]
  · have hp : b0.toNat % 64 = 48 + r / 262144 := by omega
    have hst : starters f (48 + r / 262144) = tree (from' 0x10000 f) 2 (r / 262144) := by
      unfold starters
      rw [if_neg (by omega), if_neg (by omega), if_pos (by omega), Nat.add_sub_cancel_left]
    have hdg : digits (r / 262144) [r / 4096 % 64, r / 64 % 64, r % 64] = r := by
      simp only [digits]; omega
    have hins := tree_insert (f := from' 0x10000 f) (d := 2) (p := r / 262144) (s := [b1, b2, b3])
      (l := [r / 4096 % 64, r / 64 % 64, r % 64]) hv rfl (by simp; omega) (by simp [h3, h4, h5])
    rw [hdg] at hins
    refine (rootOf_insert hp (by rw [hst]; exact hins) (.inr ?_)).trans ?_
    · rw [hst]; exact innerOf_hasValues _
    rw [rootOf, values_upd (by omega)]
    congr 2
    funext q
    unfold starters
    rw [from_upd_ge f (by omega), from_upd_ge f (by omega), from_upd_ge f h1]
    by_cases hq : q = 48 + r / 262144
    · subst hq
      rw [if_pos rfl, if_neg (by omega), if_neg (by omega), if_pos (by omega), Nat.add_sub_cancel_left]
    · rw [if_neg hq]
      by_cases hq1 : q < 32
      · rw [if_pos hq1, if_pos hq1, tree_upd_ne]
        simp only [Nat.pow_succ, Nat.pow_zero, Nat.one_mul, Nat.zero_add]
        omega
      rw [if_neg hq1, if_neg hq1]
      by_cases hq2 : q < 48
      · rw [if_pos hq2, if_pos hq2, tree_upd_ne]
        simp only [Nat.pow_succ, Nat.pow_zero, Nat.one_mul]
        omega
      rw [if_neg hq2, if_neg hq2]
      by_cases hq3 : q < 56
      · rw [if_pos hq3, if_pos hq3, tree_upd_ne]
        simp only [Nat.pow_succ, Nat.pow_zero, Nat.one_mul]
        omega
      rw [if_neg hq3, if_neg hq3]

/-- The values of `f` overridden by those of the list. -/
def over (f : Nat → Nat) (l : List (Nat × Nat)) (r : Nat) : Nat :=
  if lastValue l r ≠ 0 then lastValue l r else f r

theorem over_nil (f : Nat → Nat) : over f [] = f := by funext r; simp [over, lastValue]

theorem over_cons (f : Nat → Nat) (r v : Nat) (l : List (Nat × Nat)) :
    over f ((r, v) :: l) = over (if v = 0 then f else upd f r v) l := by
  funext q
  simp only [over, lastValue]
  by_cases h : lastValue l q = 0
  · by_cases hq : r = q
    · subst hq
      by_cases hv : v = 0
      · simp [h, hv]
      · simp [h, hv, upd]
    · by_cases hv : v = 0
      · simp [h, hv]
      · simp [h, hv, upd, hq, Ne.symm hq]
  · simp [h]

theorem insertAll_rootOf (f : Nat → Nat) (l : List (Nat × Nat))
    (hl : ∀ p ∈ l, p.2 ≠ 0 → p.1.isValidChar) :
    insertAll (rootOf f) l = .ok (rootOf (over f l)) := by
  induction l generalizing f with
  | nil => rw [over_nil]; rfl
  | cons p l ih =>
    obtain ⟨r, v⟩ := p
    rw [over_cons]
    simp only [insertAll]
    by_cases hv : v = 0
    · have : insert (rootOf f) r v = .ok (rootOf f) := by unfold insert; rw [if_pos hv]
      rw [this]
      simp only [if_pos hv]
      exact ih f fun p hp => hl p (by simp [hp])
    · have hr := hl (r, v) (by simp) hv
      have := insert_rootOf f (Char.ofNatAux r hr) hv
      rw [show (Char.ofNatAux r hr).val.toNat = r from rfl] at this
      rw [this]
      simp only [if_neg hv]
      exact ih _ fun p hp => hl p (by simp [hp])

/-- The tree after a sequence of insertions. -/
theorem insertAll_newTrie (l : List (Nat × Nat)) (hl : ∀ p ∈ l, p.2 ≠ 0 → p.1.isValidChar) :
    insertAll newTrie l = .ok (rootOf (lastValue l)) := by
  rw [newTrie_eq, insertAll_rootOf _ _ hl]
  congr 2
  funext r
  simp only [over]
  split
  · rfl
  · rename_i h; exact (Classical.not_not.mp h).symm

end Uax29.Gen
