import Verif.Model.Crc64
import Verif.Proofs.TrieRead
/-! # Evaluating CRC-64, and the checks of a table -/
namespace Uax29.Gen
open Spec

/-- The table entry in closed form. -/
def fastEntry (i : Nat) : Nat := ((i <<< 56) ^^^ (i <<< 55)) ^^^ ((i <<< 53) ^^^ (i <<< 52))

theorem crcEntry_eq : ∀ i < 256, crcEntry i = fastEntry i := by decide +kernel

/-- Evaluate `n` before going on. -/
def force {α : Type} (n : Nat) (k : Nat → α) : α :=
  match n with
  | 0 => k 0
  | m + 1 => k (m + 1)

theorem force_eq {α : Type} (n : Nat) (k : Nat → α) : force n k = k n := by cases n <;> rfl

/-- `crcByte` with the closed form. -/
def fastByte (c b : Nat) : Nat := fastEntry ((c ^^^ b) % 256) ^^^ (c >>> 8)

theorem crcByte_eq (c b : Nat) : crcByte c b = fastByte c b := by
  simp only [crcByte, fastByte, crcEntry_eq _ (Nat.mod_lt _ (by decide : 0 < 256))]

/-- One word. -/
def fastWord {α : Type} (c w : Nat) (k : Nat → α) : α :=
  force (fastByte c ((w >>> 56) % 256)) fun c => force (fastByte c ((w >>> 48) % 256)) fun c =>
  force (fastByte c ((w >>> 40) % 256)) fun c => force (fastByte c ((w >>> 32) % 256)) fun c =>
  force (fastByte c ((w >>> 24) % 256)) fun c => force (fastByte c ((w >>> 16) % 256)) fun c =>
  force (fastByte c ((w >>> 8) % 256)) fun c => force (fastByte c (w % 256)) k

/-- All words. -/
def fastUpdate : List Nat → Nat → Nat
  | [], c => c
  | w :: ws, c => fastWord c w (fastUpdate ws)

/-- CRC-64 for evaluation. -/
def fastCrc (ws : List Nat) : Nat := not64 (fastUpdate ws (not64 0))

theorem crc64_fast (ws : List Nat) : crc64 ws = fastCrc ws := by
  have : ∀ ws c, (ws.flatMap bigEndian).foldl crcByte c = fastUpdate ws c := by
    intro ws
    induction ws with
    | nil => intro c; rfl
    | cons w ws ih =>
      intro c
      rw [List.flatMap_cons, List.foldl_append, ih]
      simp only [bigEndian, List.foldl_cons, List.foldl_nil, fastUpdate, fastWord, force_eq, crcByte_eq]
  simp only [crc64, fastCrc, this]

/-- What has to be evaluated for a table; the CRCs are separate. -/
structure Checks (T : Trie) (vh ih lv : List Nat) (sum : Nat) : Prop where
  wf : T.Wf
  v2 : T.values[2]? = some zeroBlock
  i0 : T.index[0]? = some zeroBlock
  i1 : T.index[1]? = some zeroBlock
  i2 : T.index[2]? = some zeroBlock
  nv : T.values.length = vh.length + 2
  ni : T.index.length = ih.length + 2
  vzero : nth vh 0 = 0
  izero : nth ih 0 = 0
  vnodup : vh.Nodup
  inodup : ih.Nodup
  vhash : (T.values.drop 3).map fastCrc = vh.drop 1
  ihash : ∀ i ∈ List.range' 2 (ih.length - 2),
    fastCrc ((List.range 64).map fun j => hashAt (nth vh) (nth ih) (nth lv i - 1) (ent T i j)) = nth ih i
  walk : walkKids (fun q => walk T (nth lv) (rootLevel q)) (ent T 1) 64 (0, 0)
    = some (T.values.length - 3, T.index.length - 4)
  sum : fastCrc ((List.range 64).map (fun q => hashAt (nth vh) (nth ih) (rootLevel q) (ent T 1 q))
    ++ (T.block 0 ++ T.block 1)) = sum
  values : ∀ b ∈ T.values.drop 3, ∃ x ∈ b, x ≠ 0
  index : ∀ b ∈ T.index.drop 3, ∃ x ∈ b, x ≠ 0
  two : ∀ q ∈ List.range 2, ent T 1 q = 0
  three : ∀ j ∈ List.range 32, ent T (ent T 1 32) j = 0
  surr : ∀ j ∈ List.range' 32 32, ent T (ent T 1 45) j = 0
  four : ∀ j ∈ List.range 16, ent T (ent T 1 48) j = 0
  high : ∀ j ∈ List.range' 16 48, ent T (ent T 1 52) j = 0
  rest : ∀ q ∈ List.range' 53 11, ent T 1 q = 0

theorem nth_inj {l : List Nat} (h : l.Nodup) {i j : Nat} (hi : i < l.length) (hj : j < l.length)
    (he : nth l i = nth l j) : i = j := by
  simp only [nth, List.getElem?_eq_getElem hi, List.getElem?_eq_getElem hj, Option.getD_some] at he
  have hp := List.pairwise_iff_getElem.mp h
  rcases Nat.lt_trichotomy i j with h1 | h1 | h1
  · exact absurd he (hp i j hi hj h1)
  · exact h1
  · exact absurd he.symm (hp j i hj hi h1)

theorem exists_entry {table : List (List Nat)} (h64 : ∀ b ∈ table, b.length = 64)
    (h : ∀ b ∈ table.drop 3, ∃ x ∈ b, x ≠ 0) {k : Nat} (h0 : 0 < k) (hk : k + 2 < table.length) :
    ∃ i < 64, entry table ((k + 2) * 64 + i) ≠ 0 := by
  have hmem : table[k + 2] ∈ table.drop 3 := by
    rw [List.mem_iff_getElem]
    exact ⟨k - 1, by rw [List.length_drop]; omega, by rw [List.getElem_drop]; congr 1; omega⟩
  obtain ⟨x, hx, hne⟩ := h _ hmem
  obtain ⟨i, hi, rfl⟩ := List.mem_iff_getElem.mp hx
  have hl := h64 _ (List.mem_of_mem_drop hmem)
  refine ⟨i, by omega, ?_⟩
  have e1 : ((k + 2) * 64 + i) / 64 = k + 2 := by omega
  have e2 : ((k + 2) * 64 + i) % 64 = i := by omega
  simp only [entry, e1, e2, List.getElem?_eq_getElem hk, Option.getD_some, List.getElem?_eq_getElem hi]
  exact hne

theorem Checks.tight {T : Trie} {vh ih lv : List Nat} {sum : Nat} (h : Checks T vh ih lv sum) : Tight T where
  wf := h.wf
  v2 := h.v2
  i2 := h.i2
  values _ h0 hk := exists_entry h.wf.v64 h.values h0 hk
  index _ h0 hi := exists_entry h.wf.i64 h.index h0 hi
  two q hq := h.two q (by simpa using hq)
  three j hj := h.three j (by simpa using hj)
  surr j hj h1 := h.surr j (by simp only [List.mem_range'_1]; omega)
  four j hj := h.four j (by simpa using hj)
  high j hj h1 := h.high j (by simp only [List.mem_range'_1]; omega)
  rest q hq h1 := h.rest q (by simp only [List.mem_range'_1]; omega)

theorem Checks.canon {T : Trie} {vh ih lv : List Nat} {sum : Nat} (h : Checks T vh ih lv sum) :
    Canon crc64 T (nth lv) (nth vh) (nth ih) where
  nv := lt_of_some h.v2
  ni := h.wf.ni
  v64 := h.wf.v64
  i64 := h.wf.i64
  v2 := h.v2
  i0 := h.i0
  i1 := h.i1
  i2 := h.i2
  vzero := h.vzero
  izero := h.izero
  vhash i h0 hi := by
    have hn := h.nv
    have h1 : ((T.values.drop 3).map fastCrc)[i - 1]? = (vh.drop 1)[i - 1]? := by rw [h.vhash]
    rw [List.getElem?_map, List.getElem?_drop, List.getElem?_drop, show 3 + (i - 1) = i + 2 by omega,
      show 1 + (i - 1) = i by omega, List.getElem?_eq_getElem hi, List.getElem?_eq_getElem (by omega)] at h1
    simp only [Option.map_some, Option.some.injEq] at h1
    rw [crc64_fast, block_eq hi, h1]
    simp only [nth, List.getElem?_eq_getElem (show i < vh.length by omega), Option.getD_some]
  ihash i h2 hi := by
    have hn := h.ni
    rw [crc64_fast]
    exact h.ihash i (by simp only [List.mem_range'_1]; omega)
  vinj i j hi hj he := nth_inj h.vnodup (by have := h.nv; omega) (by have := h.nv; omega) he
  iinj i j _ _ hi hj he := nth_inj h.inodup (by have := h.ni; omega) (by have := h.ni; omega) he

/-- The generator gives the table and its checksum for every list of insertions with its values. -/
theorem Checks.shipped {T : Trie} {vh ih lv : List Nat} {sum : Nat} (h : Checks T vh ih lv sum)
    {l : List (Nat × Nat)} (hv : ∀ p ∈ l, p.2 ≠ 0 → p.1.isValidChar)
    (hl : ∀ c : Char, lastValue l c.val.toNat = T.prop c) :
    ∃ root, insertAll newTrie l = .ok root ∧ gen crc64 root = (T, sum) := by
  refine ⟨_, insertAll_newTrie l hv, ?_⟩
  have e : lastValue l = valuesOf T := by
    funext r
    unfold valuesOf
    by_cases hr : r.isValidChar
    · rw [dif_pos hr, ← hl]
      rfl
    · rw [dif_neg hr]
      clear hl
      induction l with
      | nil => rfl
      | cons p l ih =>
        obtain ⟨r', v⟩ := p
        have hi := ih fun p hp => hv p (by simp [hp])
        simp only [lastValue, hi]
        split
        · contradiction
        · split
          · rename_i hrr
            subst hrr
            exact Classical.byContradiction fun h0 => hr (hv (r', v) (by simp) h0)
          · rfl
  rw [e, ← rootNode_eq h.tight, gen_rootNode h.canon h.walk, crc64_fast, h.sum]

end Uax29.Gen
