import Verif.Proofs.GenPrint
import Verif.Proofs.GoLayout
import Verif.Proofs.MaxValue
import Verif.Proofs.GenComplete
import Verif.Props.TrieGen
/-! # The text of the generator and the files in the repository -/
namespace Uax29.Gen
open Spec Spec.GoText

/-- The squeezed lines before the entries of the values. -/
def headLines (p : Name) (names : List String) (T : Trie) (sum vs is : Nat) : List (List Char) :=
  final p (headText p names.length) ++ final p (constText (names.map String.toList))
    ++ final p (lookupText p.packageName)
    ++ final p (trieComment p.packageName (T.index.length * blockSize * is + T.values.length * blockSize * vs) sum)
    ++ final p (trieText p.packageName)
    ++ (squeezed (countLine p.packageName (chars "Values") T.values.length vs) ++
      (squeezed (chars "// The third block is the zero block.") ++
      [chars "var" ++ (p.packageName ++ chars "Values") ++ chars "=[" ++ decimal (T.values.length * blockSize) ++ chars "]property{"]))

/-- The squeezed lines between the entries of the values and those of the index. -/
def midLines (p : Name) (T : Trie) (is : Nat) : List (List Char) :=
  ['}'] :: (squeezed (countLine p.packageName (chars "Index") T.index.length is) ++
      (squeezed (chars "// Block 0 is the zero block.") ++
      [chars "var" ++ (p.packageName ++ chars "Index") ++ chars "=[" ++ decimal (T.index.length * blockSize) ++ chars "]property{"]))

theorem toList_lines {lines : List String} {ls : List (List Char)} (h : lines = ls.map String.ofList) :
    lines.map String.toList = ls := by
  rw [h, List.map_map, show (String.toList ∘ String.ofList) = id from funext fun l => String.toList_ofList]
  exact List.map_id _

theorem squeeze_table {k w : Nat} {table : List String} {bs : List (List Nat)}
    (h : table = (layout k w 0 bs).map String.ofList) : squeeze (table.map String.toList) = tableLines k w 0 bs := by
  rw [toList_lines h, squeeze_layout]

/-- The file is the text of the generator, up to white space. -/
theorem sameText_writeTrie {crc : List Nat → Nat} {p : Name} {root : Node} {m : List (String × List Nat)}
    {names : List String} {T : Trie} {sum vs is : Nat} (hn : properties m = names)
    (hl : ∀ q ∈ names.map String.toList, '\n' ∉ q) (hg : gen crc root = (T, sum)) (hv : intSize (maxValue root 0) = vs)
    (hi : intSize (imax T) = is) {head values mid index tail : List String}
    (h1 : squeeze (head.map String.toList) = headLines p names T sum vs is)
    (h2 : values = (layout 6 4 0 T.values).map String.ofList)
    (h3 : squeeze (mid.map String.toList) = midLines p T is)
    (h4 : index = (layout 8 2 0 T.index).map String.ofList)
    (h5 : squeeze (tail.map String.toList) = [['}']]) :
    SameText (writeTrie crc p root m) (head ++ (values ++ (mid ++ (index ++ tail)))) := by
  obtain ⟨size, hs, he⟩ := squeezed_writeTrie crc p root m (hn ▸ hl)
  have ht := squeezed_tables p T vs is
  rw [squeezed_table p (by decide) _ 6 4 squeezed_printValues, squeezed_table p (by decide) _ 8 2 squeezed_printIndex] at ht
  rw [SameText]
  show squeezed _ = _
  rw [hs, he, hn, hg, hv, hi, ht]
  simp only [List.map_append, squeeze_append, squeeze_table h2, squeeze_table h4, h1, h3, h5, headLines, midLines,
    List.append_assoc, List.cons_append, List.nil_append]

theorem lastValue_mem {r : Nat} : ∀ {l : List (Nat × Nat)}, lastValue l r ≠ 0 → (r, lastValue l r) ∈ l
  | [], h => absurd rfl h
  | (r', v) :: l, h => by
    rw [lastValue] at h ⊢
    split at h
    · rename_i h1
      rw [if_pos h1]
      exact List.mem_cons_of_mem _ (lastValue_mem h1)
    · rename_i h1
      rw [if_neg h1]
      split at h
      · rename_i h2
        rw [if_pos h2, h2]
        exact List.mem_cons_self
      · exact absurd rfl h

/-- The size of the largest value that is inserted. -/
theorem intSize_insertAll {T : Trie} (hw : T.Wf) {l : List (Nat × Nat)} {root : Node} (h : insertAll newTrie l = .ok root)
    (hl : ∀ c : Char, T.lookup (String.utf8EncodeChar c) = .ok (lastValue l c.val.toNat, (String.utf8EncodeChar c).length))
    {B : Nat} (hB : ∀ c : Char, T.prop c < 2 ^ B) (c : Char) {v : Nat} (hc : T.prop c = v) :
    v ≤ maxValue root 0 ∧ maxValue root 0 < 2 ^ B := by
  have hval : ∀ c : Char, lastValue l c.val.toNat = T.prop c := fun c => by
    have := hl c
    rw [hw.lookup_char c, Except.ok.injEq, Prod.mk.injEq] at this
    exact this.1.symm
  have hok := insertAll_newTrie l (insertAll_ok_valid h)
  rw [h] at hok
  cases hok
  constructor
  · rw [← hc, ← hval]
    refine le_maxValue_rootOf _ ?_ 0
    have := c.valid
    rcases this with h | h
    · have : c.val.toNat < 0xd800 := h
      omega
    · exact h.2
  · refine Nat.lt_of_le_of_lt (maxValue_rootOf_le (B := 2 ^ B - 1) fun r => ?_) (by have := Nat.pow_pos (n := B) (show 0 < 2 by decide); omega)
    by_cases hr : r.isValidChar
    · have := hB (Char.ofNatAux r hr)
      rw [← hval] at this
      have e : (Char.ofNatAux r hr).val.toNat = r := rfl
      rw [e] at this
      omega
    · have : lastValue l r = 0 := by
        refine Classical.byContradiction fun h0 => hr ?_
        exact insertAll_ok_valid h _ (lastValue_mem h0) h0
      rw [this]
      exact Nat.zero_le _

theorem flatten_lt {bs : List (List Nat)} {B : Nat} (h : (bs.all fun b => b.all fun v => decide (v < B)) = true) :
    ∀ v ∈ bs.flatten, v < B := by
  intro v hv
  obtain ⟨b, hb, hv⟩ := List.mem_flatten.mp hv
  exact of_decide_eq_true (List.all_eq_true.mp (List.all_eq_true.mp h b hb) v hv)

theorem intSize_two {n : Nat} (h1 : 2 ^ 8 ≤ n) (h2 : n < 2 ^ 16) : intSize n = 2 := by
  unfold intSize
  rw [if_neg (by omega), if_pos h2]

theorem intSize_four {n : Nat} (h1 : 2 ^ 16 ≤ n) (h2 : n < 2 ^ 32) : intSize n = 4 := by
  unfold intSize
  rw [if_neg (by omega), if_neg (by omega), if_pos h2]

end Uax29.Gen
