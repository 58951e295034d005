import Verif.Props.GenConst
import Verif.Props.GenPrint
import Verif.Proofs.GenFit
/-! # Property C70: the numbers in the printed tables fit into the printed type -/
namespace Uax29
open Spec Gen Spec.GoText

theorem lookup_of_nodup {es : List (Nat × Nat)} (hn : (es.map (·.1)).Nodup) {e : Nat × Nat} (he : e ∈ es) :
    es.lookup e.1 = some e.2 := by
  induction es with
  | nil => cases he
  | cons x es ih =>
    obtain ⟨k, v⟩ := x
    rw [List.map_cons, List.nodup_cons] at hn
    rw [List.lookup_cons]
    rcases List.mem_cons.mp he with rfl | he
    · simp
    · have hne : (e.1 == k) = false := by
        rw [beq_eq_false_iff_ne]
        intro hk
        exact hn.1 (List.mem_map.mpr ⟨e, he, hk⟩)
      rw [hne]
      exact ih hn.2 he

/-- The elements that are printed are entries of the array. -/
theorem declares_fits {lines : List (List Char)} {name : List Char} {a : List Nat} (h : Declares lines name a) {b : Nat}
    (hb : typeBits lines = some b) (ha : ∀ v ∈ a, v < 2 ^ b) : Fits lines name := by
  obtain ⟨es, h1, ⟨h2, h3⟩, h4⟩ := h
  refine ⟨b, a.length, es, hb, h1, fun e he => ?_⟩
  have := h4 e.1 (h2 e he)
  rw [GoText.entry, lookup_of_nodup h3 he, Option.getD_some] at this
  rw [this]
  exact ha _ (List.getElem_mem _)

/-- And all entries but zeros are printed. -/
theorem declares_fits_iff {lines : List (List Char)} {name : List Char} {a : List Nat} (h : Declares lines name a) {b : Nat}
    (hb : typeBits lines = some b) : Fits lines name ↔ ∀ v ∈ a, v < 2 ^ b := by
  refine ⟨?_, declares_fits h hb⟩
  rintro ⟨b', n, es, h1, h2, h3⟩ v hv
  rw [hb] at h1
  cases h1
  obtain ⟨es', k1, k2, k3⟩ := h
  rw [h2] at k1
  cases k1
  obtain ⟨k, hk, rfl⟩ := List.mem_iff_getElem.mp hv
  rw [← k3 k hk, GoText.entry]
  cases hl : es.lookup k with
  | none => exact Nat.two_pow_pos b
  | some v => exact h3 _ (lookup_mem' hl)

/-- **C70** The values: however many runes are listed, up to 64 properties, every value in the printed table fits into the
printed type. -/
theorem C70_values (crc : List Nat → Nat) (p : Name) (m : List (String × List Nat)) (hm : ∀ e ∈ m, '\n' ∉ e.1.toList)
    (h64 : m.length ≤ 64) (l : List (Nat × Nat)) (hv : Visits m (iotasOf m) l) (root : Node)
    (h : insertAll newTrie l = .ok root) (hno : NoClash crc root) :
    Fits (squeeze (linesOf (writeTrie crc p root m))) (p.packageName ++ chars "Values") := by
  obtain ⟨b, hb, _, h1, _⟩ := C56_type crc p root m hm
  refine declares_fits (C56_round_trip crc p l root h hno m hm).1 hb ?_
  rw [insertAll_newTrie l (insertAll_ok_valid h)] at h
  cases h
  intro v hvm
  have hle : ∀ r, lastValue l r ≤ 2 ^ m.length - 1 := fun r => by
    rw [visits_lastValue hv]
    exact Nat.le_sub_one_of_lt (iotasOf_lt r)
  have := (gen_small crc (allValues_rootOf hle)).2 v hvm
  have h2 : m.length ≤ b := by omega
  have h3 := Nat.pow_le_pow_right (n := 2) (by decide) h2
  have := Nat.two_pow_pos m.length
  omega

/-- C70, the constants: up to 64 properties, all of them fit. -/
theorem C70_constants (crc : List Nat → Nat) (p : Name) (root : Node) (m : List (String × List Nat)) (h0 : m ≠ [])
    (hm : ∀ e ∈ m, Plain e.1.toList) (h64 : m.length ≤ 64) :
    ∃ b, typeBits (squeeze (linesOf (writeTrie crc p root m))) = some b
      ∧ ∀ name v, constant (squeeze (linesOf (writeTrie crc p root m))) name = some v → v < 2 ^ b := by
  obtain ⟨b, hb, _, h1, _⟩ := C56_type crc p root m fun e he h => (hm e he _ h).1 rfl
  refine ⟨b, hb, fun name v hv => ?_⟩
  rw [constant, C56_constants crc p root m h0 hm, Option.bind_some, Option.map_eq_some_iff] at hv
  obtain ⟨i, hi, rfl⟩ := hv
  obtain ⟨hlt, _⟩ := List.idxOf?_eq_some_iff.mp hi
  rw [List.length_map, properties_length] at hlt
  rw [Nat.one_shiftLeft]
  exact Nat.pow_lt_pow_right (by decide) (by omega)

theorem lastValue_bounded : ∀ l : List (Nat × Nat), ∃ B, ∀ r, lastValue l r ≤ B
  | [] => ⟨0, fun _ => Nat.le_refl 0⟩
  | (r', v) :: l => by
    obtain ⟨B, hB⟩ := lastValue_bounded l
    refine ⟨B + v, fun r => ?_⟩
    rw [lastValue]
    have := hB r
    repeat' split
    all_goals omega

/-- C70, the index: its entries are numbers of blocks, but they are printed as elements of the same type. From eight properties
on they fit, whatever runes are listed. With less, they fit if the tree has at most 252 nodes; the full statement has no
such condition and is false, see `C70_fails`. -/
theorem C70_index_partial (crc : List Nat → Nat) (p : Name) (m : List (String × List Nat)) (hm : ∀ e ∈ m, '\n' ∉ e.1.toList)
    (l : List (Nat × Nat)) (root : Node) (h : insertAll newTrie l = .ok root) (hno : NoClash crc root)
    (h8 : 8 ≤ m.length ∨ nodes root ≤ 252) :
    Fits (squeeze (linesOf (writeTrie crc p root m))) (p.packageName ++ chars "Index") := by
  obtain ⟨b, hb, hbs, h1, _⟩ := C56_type crc p root m hm
  refine declares_fits (C56_round_trip crc p l root h hno m hm).2 hb ?_
  rw [insertAll_newTrie l (insertAll_ok_valid h)] at h
  cases h
  intro v hvm
  obtain ⟨B, hB⟩ := lastValue_bounded l
  have hv : v < nodes (rootOf (lastValue l)) + 4 := (gen_small crc (allValues_rootOf hB)).1 v hvm
  have hn := nodes_rootOf (lastValue l)
  simp only [List.mem_cons, List.not_mem_nil, or_false] at hbs
  have h8' : 8 ≤ b := by omega
  rcases h8 with h8 | h8
  · have : 16 ≤ b := by omega
    have := Nat.pow_le_pow_right (n := 2) (by decide) this
    omega
  · have := Nat.pow_le_pow_right (n := 2) (by decide) h8'
    omega

-- "é" alone: two nodes
example (p : Name) : Fits (squeeze (linesOf (writeTrie crc64 p eRoot [("A", [0xE9])]))) (p.packageName ++ chars "Index") :=
  C70_index_partial crc64 p _ (by simp) _ _ eRoot_eq eRoot_noClash (.inr (by decide +kernel))

-- the values of "é" with one property and the constant `_A`
example (p : Name) : typeBits (squeeze (linesOf (writeTrie crc64 p eRoot [("A", [0xE9])]))) = some 8
    ∧ constant (squeeze (linesOf (writeTrie crc64 p eRoot [("A", [0xE9])]))) (chars "_A") = some 1 := by
  constructor
  · obtain ⟨b, hb, hbs, _, h⟩ := C56_type crc64 p eRoot [("A", [0xE9])] (by simp)
    have := h 8 (by simp) (by simp)
    simp only [List.mem_cons, List.not_mem_nil, or_false] at hbs
    have h8 : b = 8 := by omega
    exact hb.trans (congrArg some h8)
  · rw [constant, C56_constants _ _ _ _ (by simp) (by simp [Plain])]
    simp [properties]

/-! ## too many blocks for a byte -/

/-- 295 pages of 64 runes with two runes each, in different places on every page. -/
def manyRunes : List Nat :=
  (List.range 295).flatMap fun k => [0x800 + 64 * k + k % 5, 0x800 + 64 * k + 5 + k / 5]

/-- What the generator makes of them has blocks of 64 entries, and the entries of the index do not fit into a byte. -/
def tooMany (root : Node) : Bool :=
  let T := (gen fastCrc root).1
  T.values.all (·.length == 64) && T.index.all (·.length == 64) && T.index.flatten.any fun e => 256 ≤ e

set_option maxRecDepth 100000 in
theorem many_blocks : (match insertAll newTrie (manyRunes.map fun r => (r, 1)) with
    | .ok root => tooMany root
    | .error _ => false) = true := by decide +kernel

/-- C70 for the index is false with less than eight properties: with a single property "A" that has the runes above, the type is
`uint8`, but there are entries from 256 on in the index. -/
theorem C70_fails : ∃ (m : List (String × List Nat)) (l : List (Nat × Nat)) (root : Node), (m.map (·.1)).Nodup
    ∧ (∀ e ∈ m, '\n' ∉ e.1.toList) ∧ Visits m (iotasOf m) l ∧ insertAll newTrie l = .ok root
    ∧ ∀ p : Name, ¬ Fits (squeeze (linesOf (writeTrie crc64 p root m))) (p.packageName ++ chars "Index") := by
  have hmany := many_blocks
  cases hr : insertAll newTrie (manyRunes.map fun r => (r, 1)) with
  | error f => rw [hr] at hmany; cases hmany
  | ok root =>
    rw [hr] at hmany
    have hm : ∀ e ∈ [("A", manyRunes)], '\n' ∉ e.1.toList := by
      intro e he
      rw [List.mem_singleton.mp he]
      decide
    refine ⟨[("A", manyRunes)], manyRunes.map fun r => (r, 1), root, by simp, hm, ⟨?_, ?_⟩, hr, ?_⟩
    · intro e he
      obtain ⟨r, hr, rfl⟩ := List.mem_map.mp he
      have h1 : iotaOf [("A", manyRunes)] "A" = 1 := by simp [iotaOf, properties]
      rw [iotasOf, List.foldl_cons, List.foldl_nil, if_pos hr, h1]
      rfl
    · rintro r ⟨q, e, he, _, hr⟩
      rw [List.mem_singleton.mp he] at hr
      exact ⟨1, List.mem_map.mpr ⟨r, hr, rfl⟩⟩
    · intro p hf
      dsimp only at hmany
      rw [tooMany, Bool.and_eq_true, Bool.and_eq_true, ← show crc64 = fastCrc from funext crc64_fast] at hmany
      obtain ⟨⟨h1, h2⟩, h3⟩ := hmany
      obtain ⟨b, hb, hbs, _, hb'⟩ := C56_type crc64 p root [("A", manyRunes)] hm
      have h8 : b ≤ 8 := hb' 8 (by simp) (by simp)
      have hd := (declares_writeTrie crc64 p root [("A", manyRunes)] (names_line hm)
        (fun b hb => beq_iff_eq.mp (List.all_eq_true.mp h1 b hb)) (fun b hb => beq_iff_eq.mp (List.all_eq_true.mp h2 b hb))).2
      obtain ⟨e, he, hlt⟩ := List.any_eq_true.mp h3
      have h4 := (declares_fits_iff hd hb).mp hf e he
      have h5 := Nat.pow_le_pow_right (n := 2) (by decide) h8
      rw [decide_eq_true_eq] at hlt
      omega

end Uax29
