import Verif.Spec.Ucd
import Verif.Proofs.Pages
/-! # Tables as runs of equal entries, and as ranges of code points -/
namespace Uax29
open Spec

/-- The entry of code point `n` in a list of runs (length, entry). -/
def runAt : List (Nat × Nat) → Nat → Nat
  | [], _ => 0
  | (k, v) :: rs, n => if n < k then v else runAt rs (n - k)

/-- Takes `k` entries `v` from the front. -/
def takeRun (k v : Nat) : List (Nat × Nat) → Option (List (Nat × Nat))
  | [] => none
  | (n, w) :: rs =>
    if w = v then
      if k < n then some ((n - k, w) :: rs) else if k = n then some rs else none
    else none

/-- Takes the entries of a block from the front. -/
def takeBlock : List Nat → List (Nat × Nat) → Option (List (Nat × Nat))
  | [], rs => some rs
  | v :: b, rs => match takeRun 1 v rs with
    | none => none
    | some rs => takeBlock b rs

/-- Takes the blocks with the given numbers from the front. -/
def Trie.takePages (T : Trie) : List Nat → List (Nat × Nat) → Option (List (Nat × Nat))
  | [], rs => some rs
  | e :: idx, rs =>
    if (T.block (e + 2)).length = 64 then
      match takeBlock (T.block (e + 2)) rs with
      | none => none
      | some rs => T.takePages idx rs
    else none

/-- The entry that all characters of the blocks with these numbers have, if it is only one. -/
def Trie.uniform (T : Trie) : List Nat → Option Nat
  | [] => none
  | e :: idx =>
    if idx.all (· == e) ∧ (T.block (e + 2)).length = 64 then
      match T.block (e + 2) with
      | [] => none
      | v :: b => if b.all (· == v) then some v else none
    else none

/-- A block of the index table. -/
def Trie.iblock (T : Trie) (i : Nat) : List Nat := T.index[i + 2]?.getD []

/-- Takes the 4096 characters below a block of the index table. -/
def Trie.takeIndex (T : Trie) (i : Nat) (rs : List (Nat × Nat)) : Option (List (Nat × Nat)) :=
  if (T.iblock i).length = 64 then
    match (T.uniform (T.iblock i)).bind fun v => takeRun 4096 v rs with
    | some rs => some rs
    | none => T.takePages (T.iblock i) rs
  else none

/-- Takes the characters below some blocks of the index table. -/
def Trie.takeIndexes (T : Trie) : List Nat → List (Nat × Nat) → Option (List (Nat × Nat))
  | [], rs => some rs
  | i :: idx, rs => match T.takeIndex i rs with
    | none => none
    | some rs => T.takeIndexes idx rs

/-- Takes all characters. -/
def Trie.takeAll (T : Trie) (rs : List (Nat × Nat)) : Option (List (Nat × Nat)) :=
  let root := T.iblock 1
  if root.length = 64 ∧ (T.block 0).length = 64 ∧ (T.block 1).length = 64 ∧
      ([32, 48, 49, 50, 51, 52].all fun i => (T.iblock (nth root i)).length == 64) = true then
    (takeBlock (T.block 0) rs).bind fun rs =>
    (takeBlock (T.block 1) rs).bind fun rs =>
    (T.takePages ((root.take 32).drop 2) rs).bind fun rs =>
    (T.takePages ((T.iblock (nth root 32)).drop 32) rs).bind fun rs =>
    (T.takeIndexes ((root.take 48).drop 33) rs).bind fun rs =>
    (T.takeIndexes ((T.iblock (nth root 48)).drop 16) rs).bind fun rs =>
    (T.takeIndexes (T.iblock (nth root 49)) rs).bind fun rs =>
    (T.takeIndexes (T.iblock (nth root 50)) rs).bind fun rs =>
    (T.takeIndexes (T.iblock (nth root 51)) rs).bind fun rs =>
    T.takeIndexes ((T.iblock (nth root 52)).take 16) rs
  else none

/-- The runs `rs` without the first `k` entries are the runs `rs'`, and the entries are those of `f`. -/
def Takes (f : Nat → Nat) (k : Nat) (rs rs' : List (Nat × Nat)) : Prop :=
  (∀ n, n < k → runAt rs n = f n) ∧ ∀ n, runAt rs (k + n) = runAt rs' n

theorem Takes.zero (f : Nat → Nat) (rs : List (Nat × Nat)) : Takes f 0 rs rs :=
  ⟨fun n h => absurd h (Nat.not_lt_zero n), fun n => by rw [Nat.zero_add]⟩

theorem Takes.add {f : Nat → Nat} {k k' : Nat} {rs rs' rs'' : List (Nat × Nat)} (h : Takes f k rs rs')
    (h' : Takes (fun n => f (k + n)) k' rs' rs'') : Takes f (k + k') rs rs'' := by
  constructor
  · intro n hn
    by_cases hk : n < k
    · exact h.1 n hk
    · have := h'.1 (n - k) (by omega)
      rw [← h.2] at this
      simp only at this
      rwa [show k + (n - k) = n by omega] at this
  · intro n
    rw [Nat.add_assoc, h.2, h'.2]

theorem takes_run {k v : Nat} {rs rs' : List (Nat × Nat)} (h : takeRun k v rs = some rs') {f : Nat → Nat}
    (hf : ∀ n, n < k → f n = v) : Takes f k rs rs' := by
  cases rs with
  | nil => cases h
  | cons r rs =>
    obtain ⟨n, w⟩ := r
    simp only [takeRun] at h
    split at h
    case isFalse => cases h
    rename_i hw
    split at h
    · rename_i hk
      cases h
      refine ⟨fun m hm => ?_, fun m => ?_⟩
      · rw [runAt, if_pos (by omega), hf m hm, hw]
      · simp only [runAt]
        by_cases hm : k + m < n
        · rw [if_pos hm, if_pos (by omega)]
        · rw [if_neg hm, if_neg (by omega)]
          congr 1; omega
    · split at h
      · rename_i hk
        cases h
        refine ⟨fun m hm => ?_, fun m => ?_⟩
        · rw [runAt, if_pos (by omega), hf m hm, hw]
        · rw [runAt, if_neg (by omega)]
          congr 1; omega
      · cases h

theorem takes_block : ∀ {b : List Nat} {rs rs' : List (Nat × Nat)}, takeBlock b rs = some rs' →
    ∀ {f : Nat → Nat}, (∀ n, n < b.length → f n = nth b n) → Takes f b.length rs rs'
  | [], rs, rs', h, f, hf => by cases h; exact .zero f rs
  | v :: b, rs, rs', h, f, hf => by
    simp only [takeBlock] at h
    split at h
    · cases h
    · rename_i rs1 h1
      rw [List.length_cons, Nat.add_comm]
      refine (takes_run h1 fun n hn => ?_).add (takes_block h fun n hn => ?_)
      · rw [hf n (by simp; omega), show n = 0 by omega]; rfl
      · rw [hf _ (by simp; omega), Nat.add_comm 1]; rfl

theorem Trie.takes_pages {T : Trie} : ∀ {idx : List Nat} {rs rs' : List (Nat × Nat)},
    T.takePages idx rs = some rs' →
    ∀ {f : Nat → Nat}, (∀ n, n < 64 * idx.length → f n = nth (T.block (nth idx (n / 64) + 2)) (n % 64)) →
    Takes f (64 * idx.length) rs rs'
  | [], rs, rs', h, f, hf => by cases h; exact .zero f rs
  | e :: idx, rs, rs', h, f, hf => by
    simp only [takePages] at h
    split at h
    case isFalse => cases h
    rename_i hlen
    split at h
    · cases h
    · rename_i rs1 h1
      rw [List.length_cons, show 64 * (idx.length + 1) = 64 + 64 * idx.length by omega]
      have t1 := takes_block h1 (f := f) fun n hn => by
        rw [hlen] at hn
        rw [hf n (by simp; omega), show n / 64 = 0 by omega, show n % 64 = n by omega]
        rfl
      rw [hlen] at t1
      refine t1.add (takes_pages h fun n hn => ?_)
      rw [hf _ (by simp; omega), show (64 + n) / 64 = n / 64 + 1 by omega, show (64 + n) % 64 = n % 64 by omega]
      rfl

theorem Trie.uniform_eq {T : Trie} {idx : List Nat} {v : Nat} (h : T.uniform idx = some v)
    {n : Nat} (hn : n < 64 * idx.length) : nth (T.block (nth idx (n / 64) + 2)) (n % 64) = v := by
  cases idx with
  | nil => cases h
  | cons e idx =>
    simp only [uniform] at h
    split at h
    case isFalse => cases h
    rename_i hall
    obtain ⟨hall, hlen⟩ := hall
    have he : nth (e :: idx) (n / 64) = e := by
      have hlt : n / 64 < (e :: idx).length := by omega
      have hm := List.getElem_mem hlt
      simp only [nth, List.getElem?_eq_getElem hlt, Option.getD_some]
      rcases List.mem_cons.mp hm with h | h
      · exact h
      · simpa using List.all_eq_true.mp hall _ h
    rw [he]
    split at h
    · cases h
    · rename_i w b hb
      split at h
      case isFalse => cases h
      rename_i hall'
      cases h
      have hlt : n % 64 < (T.block (e + 2)).length := by omega
      rw [nth, List.getElem?_eq_getElem hlt, Option.getD_some]
      have hm := List.getElem_mem hlt
      generalize (T.block (e + 2))[n % 64] = x at hm
      rw [hb] at hm
      rcases List.mem_cons.mp hm with h | h
      · exact h
      · simpa using List.all_eq_true.mp hall' _ h

theorem Trie.takes_index {T : Trie} {i : Nat} {rs rs' : List (Nat × Nat)} (h : T.takeIndex i rs = some rs')
    {f : Nat → Nat} (hf : ∀ n, n < 4096 → f n = nth (T.block (nth (T.iblock i) (n / 64) + 2)) (n % 64)) :
    Takes f 4096 rs rs' := by
  unfold takeIndex at h
  split at h
  case isFalse => cases h
  rename_i hi
  split at h
  · rename_i rs1 h1
    cases h
    cases hu : T.uniform (T.iblock i) with
    | none => rw [hu] at h1; cases h1
    | some v =>
      rw [hu] at h1
      refine takes_run h1 fun n hn => ?_
      rw [hf n hn, uniform_eq hu (by omega)]
  · have := takes_pages h (f := f) (fun n hn => hf n (by omega))
    rwa [hi] at this

theorem Trie.takes_indexes {T : Trie} : ∀ {idx : List Nat} {rs rs' : List (Nat × Nat)},
    T.takeIndexes idx rs = some rs' →
    ∀ {f : Nat → Nat}, (∀ n, n < 4096 * idx.length →
      f n = nth (T.block (nth (T.iblock (nth idx (n / 4096))) (n / 64 % 64) + 2)) (n % 64)) →
    Takes f (4096 * idx.length) rs rs'
  | [], rs, rs', h, f, hf => by cases h; exact .zero f rs
  | i :: idx, rs, rs', h, f, hf => by
    simp only [takeIndexes] at h
    split at h
    · cases h
    · rename_i rs1 h1
      rw [List.length_cons, show 4096 * (idx.length + 1) = 4096 + 4096 * idx.length by omega]
      refine (takes_index h1 fun n hn => ?_).add (takes_indexes h fun n hn => ?_)
      · rw [hf n (by simp; omega), show n / 4096 = 0 by omega, show n / 64 % 64 = n / 64 by omega]
        rfl
      · rw [hf _ (by simp; omega), show (4096 + n) / 4096 = n / 4096 + 1 by omega,
          show (4096 + n) / 64 % 64 = n / 64 % 64 by omega, show (4096 + n) % 64 = n % 64 by omega]
        rfl

/-- The entry of code point `n`. -/
def Trie.at (T : Trie) (n : Nat) : Nat := nth (T.block (T.page (n / 64))) (n % 64)

theorem entry_iblock {T : Trie} {i o k : Nat} (ho : o < 64) (hk : k = i * 64 + 128 + o) :
    entry T.index k = nth (T.iblock i) o := by
  subst hk
  simp only [entry, Trie.iblock, nth]
  rw [show (i * 64 + 128 + o) / 64 = i + 2 by omega, show (i * 64 + 128 + o) % 64 = o by omega]

theorem Trie.at_0 {T : Trie} {n : Nat} (h : n < 128) : T.at n = nth (T.block (n / 64)) (n % 64) := by
  rw [Trie.at, Trie.page, if_pos (by omega)]

theorem Trie.at_1 {T : Trie} {n : Nat} (h : 128 ≤ n) (h' : n < 2048) :
    T.at n = nth (T.block (nth (T.iblock 1) (n / 64) + 2)) (n % 64) := by
  rw [Trie.at, Trie.page, if_neg (by omega), if_pos (by omega),
    entry_iblock (i := 1) (o := n / 64) (by omega) (by omega)]

theorem Trie.at_2 {T : Trie} {n : Nat} (h : 2048 ≤ n) (h' : n < 65536) :
    T.at n = nth (T.block (nth (T.iblock (nth (T.iblock 1) (32 + n / 4096))) (n / 64 % 64) + 2)) (n % 64) := by
  rw [Trie.at, Trie.page, if_neg (by omega), if_neg (by omega), if_pos (by omega),
    entry_iblock (i := 1) (k := 0xE0 + n / 64 / 64) (o := 32 + n / 4096) (by omega) (by omega),
    entry_iblock (o := n / 64 % 64) (by omega) rfl]

theorem Trie.at_3 {T : Trie} {n : Nat} (h : 65536 ≤ n) (h' : n < 0x110000) :
    T.at n = nth (T.block (nth (T.iblock (nth (T.iblock (nth (T.iblock 1) (48 + n / 262144))) (n / 4096 % 64)))
      (n / 64 % 64) + 2)) (n % 64) := by
  rw [Trie.at, Trie.page, if_neg (by omega), if_neg (by omega), if_neg (by omega),
    entry_iblock (i := 1) (k := 0xF0 + n / 64 / 4096) (o := 48 + n / 262144) (by omega) (by omega),
    entry_iblock (o := n / 64 / 64 % 64) (by omega) rfl, entry_iblock (o := n / 64 % 64) (by omega) rfl,
    show n / 64 / 64 % 64 = n / 4096 % 64 by omega]

theorem nth_drop_take (l : List Nat) (a b i : Nat) (h : a + i < b) : nth ((l.take b).drop a) i = nth l (a + i) := by
  simp only [nth, List.getElem?_drop, List.getElem?_take, if_pos h]

theorem nth_drop' (l : List Nat) (a i : Nat) : nth (l.drop a) i = nth l (a + i) := by
  simp only [nth, List.getElem?_drop]

theorem nth_take' (l : List Nat) (a i : Nat) (h : i < a) : nth (l.take a) i = nth l i := by
  simp only [nth, List.getElem?_take, if_pos h]

/-- If the check succeeds, the runs give the entry of every code point. -/
theorem Trie.takes_all {T : Trie} {rs rs' : List (Nat × Nat)} (h : T.takeAll rs = some rs') :
    Takes T.at 0x110000 rs rs' := by
  unfold takeAll at h
  simp only at h
  split at h
  case isFalse => cases h
  rename_i hl
  obtain ⟨hr, hb0, hb1, hi⟩ := hl
  simp only [List.all_eq_true, beq_iff_eq] at hi
  have i32 := hi 32 (by simp)
  have i48 := hi 48 (by simp)
  have i49 := hi 49 (by simp)
  have i50 := hi 50 (by simp)
  have i51 := hi 51 (by simp)
  have i52 := hi 52 (by simp)
  simp only [Option.bind_eq_some_iff] at h
  obtain ⟨r1, h1, r2, h2, r3, h3, r4, h4, r5, h5, r6, h6, r7, h7, r8, h8, r9, h9, h10⟩ := h
  have t1 := takes_block h1 (f := T.at) fun n hn => by
    rw [hb0] at hn
    rw [at_0 (by omega), show n / 64 = 0 by omega, show n % 64 = n by omega]
  rw [hb0] at t1
  have t2 := takes_block h2 (f := fun n => T.at (64 + n)) fun n hn => by
    rw [hb1] at hn
    rw [at_0 (by omega), show (64 + n) / 64 = 1 by omega, show (64 + n) % 64 = n by omega]
  rw [hb1] at t2
  have t2 := t1.add t2
  have t3 := takes_pages h3 (f := fun n => T.at (64 + 64 + n)) fun n hn => by
    rw [show ((List.take 32 (T.iblock 1)).drop 2).length = 30 by simp [hr]] at hn
    rw [at_1 (by omega) (by omega), nth_drop_take _ _ _ _ (by omega), show (64 + 64 + n) / 64 = 2 + n / 64 by omega,
      show (64 + 64 + n) % 64 = n % 64 by omega]
  rw [show ((List.take 32 (T.iblock 1)).drop 2).length = 30 by simp [hr]] at t3
  have t3 := t2.add t3
  have t4 := takes_pages h4 (f := fun n => T.at (64 + 64 + 64 * 30 + n)) fun n hn => by
    rw [List.length_drop, i32] at hn
    rw [at_2 (by omega) (by omega), nth_drop', show (64 + 64 + 64 * 30 + n) / 4096 = 0 by omega,
      show (64 + 64 + 64 * 30 + n) / 64 % 64 = 32 + n / 64 by omega,
      show (64 + 64 + 64 * 30 + n) % 64 = n % 64 by omega]
  rw [List.length_drop, i32] at t4
  have t4 := t3.add t4
  have t5 := takes_indexes h5 (f := fun n => T.at (64 + 64 + 64 * 30 + 64 * (64 - 32) + n)) fun n hn => by
    rw [show ((List.take 48 (T.iblock 1)).drop 33).length = 15 by simp [hr]] at hn
    rw [at_2 (by omega) (by omega), nth_drop_take _ _ _ _ (by omega),
      show 32 + (64 + 64 + 64 * 30 + 64 * (64 - 32) + n) / 4096 = 33 + n / 4096 by omega,
      show (64 + 64 + 64 * 30 + 64 * (64 - 32) + n) / 64 % 64 = n / 64 % 64 by omega,
      show (64 + 64 + 64 * 30 + 64 * (64 - 32) + n) % 64 = n % 64 by omega]
  rw [show ((List.take 48 (T.iblock 1)).drop 33).length = 15 by simp [hr]] at t5
  have t5 := t4.add t5
  rw [show 64 + 64 + 64 * 30 + 64 * (64 - 32) + 4096 * 15 = 65536 by omega] at t5
  have t6 := takes_indexes h6 (f := fun n => T.at (65536 + n)) fun n hn => by
    rw [List.length_drop, i48] at hn
    rw [at_3 (by omega) (by omega), nth_drop', show 48 + (65536 + n) / 262144 = 48 by omega,
      show (65536 + n) / 4096 % 64 = 16 + n / 4096 by omega,
      show (65536 + n) / 64 % 64 = n / 64 % 64 by omega, show (65536 + n) % 64 = n % 64 by omega]
  rw [List.length_drop, i48] at t6
  have t6 := t5.add t6
  rw [show 65536 + 4096 * (64 - 16) = 262144 by omega] at t6
  have t7 := takes_indexes h7 (f := fun n => T.at (262144 + n)) fun n hn => by
    rw [i49] at hn
    rw [at_3 (by omega) (by omega), show 48 + (262144 + n) / 262144 = 49 by omega,
      show (262144 + n) / 4096 % 64 = n / 4096 by omega,
      show (262144 + n) / 64 % 64 = n / 64 % 64 by omega, show (262144 + n) % 64 = n % 64 by omega]
  rw [i49] at t7
  have t7 := t6.add t7
  rw [show 262144 + 4096 * 64 = 524288 by omega] at t7
  have t8 := takes_indexes h8 (f := fun n => T.at (524288 + n)) fun n hn => by
    rw [i50] at hn
    rw [at_3 (by omega) (by omega), show 48 + (524288 + n) / 262144 = 50 by omega,
      show (524288 + n) / 4096 % 64 = n / 4096 by omega,
      show (524288 + n) / 64 % 64 = n / 64 % 64 by omega, show (524288 + n) % 64 = n % 64 by omega]
  rw [i50] at t8
  have t8 := t7.add t8
  rw [show 524288 + 4096 * 64 = 786432 by omega] at t8
  have t9 := takes_indexes h9 (f := fun n => T.at (786432 + n)) fun n hn => by
    rw [i51] at hn
    rw [at_3 (by omega) (by omega), show 48 + (786432 + n) / 262144 = 51 by omega,
      show (786432 + n) / 4096 % 64 = n / 4096 by omega,
      show (786432 + n) / 64 % 64 = n / 64 % 64 by omega, show (786432 + n) % 64 = n % 64 by omega]
  rw [i51] at t9
  have t9 := t8.add t9
  rw [show 786432 + 4096 * 64 = 1048576 by omega] at t9
  have t10 := takes_indexes h10 (f := fun n => T.at (1048576 + n)) fun n hn => by
    rw [List.length_take, i52] at hn
    rw [at_3 (by omega) (by omega), nth_take' _ _ _ (by omega), show 48 + (1048576 + n) / 262144 = 52 by omega,
      show (1048576 + n) / 4096 % 64 = n / 4096 by omega,
      show (1048576 + n) / 64 % 64 = n / 64 % 64 by omega, show (1048576 + n) % 64 = n % 64 by omega]
  rw [List.length_take, i52] at t10
  have t10 := t9.add t10
  rwa [show 1048576 + 4096 * min 16 64 = 0x110000 by omega] at t10

theorem Trie.Wf.prop_runs {T : Trie} (hT : T.Wf) {rs rs' : List (Nat × Nat)} (h : T.takeAll rs = some rs') (c : Char) :
    T.prop c = runAt rs c.val.toNat := by
  rw [hT.prop_page, entry_block _ (Nat.mod_lt _ (by decide)), (takes_all h).1 _ (toNat_lt c)]
  rfl

/-! ## Ranges as toggles -/

/-- Is the number of elements `≤ n` odd? -/
def par : List Nat → Nat → Bool
  | [], _ => false
  | a :: s, n => (decide (a ≤ n)) ^^ par s n

/-- The positions where the property `q` of the entry changes; `cur` is the value before `pos`. -/
def toggles (q : Nat → Bool) : Nat → Bool → List (Nat × Nat) → List Nat
  | pos, cur, [] => if cur then [pos] else []
  | pos, cur, (k, v) :: rs =>
    if q v = cur then toggles q (pos + k) cur rs else pos :: toggles q (pos + k) (q v) rs

theorem toggles_ge (q : Nat → Bool) : ∀ (rs : List (Nat × Nat)) (pos : Nat) (cur : Bool), ∀ a ∈ toggles q pos cur rs, pos ≤ a
  | [], pos, cur, a, h => by
    simp only [toggles] at h
    split at h
    · rw [List.mem_singleton] at h; omega
    · cases h
  | (k, v) :: rs, pos, cur, a, h => by
    simp only [toggles] at h
    split at h
    · have := toggles_ge q rs _ _ a h; omega
    · rcases List.mem_cons.mp h with h | h
      · omega
      · have := toggles_ge q rs _ _ a h; omega

theorem par_lt : ∀ {s : List Nat} {n : Nat}, (∀ a ∈ s, n < a) → par s n = false
  | [], _, _ => rfl
  | a :: s, n, h => by
    have := h a List.mem_cons_self
    rw [par, par_lt fun b hb => h b (List.mem_cons_of_mem _ hb), decide_eq_false (by omega)]; rfl

theorem par_toggles {q : Nat → Bool} (h0 : q 0 = false) : ∀ (rs : List (Nat × Nat)) (pos : Nat) (cur : Bool) (n : Nat), pos ≤ n →
    (par (toggles q pos cur rs) n ^^ cur) = q (runAt rs (n - pos))
  | [], pos, cur, n, h => by
    cases cur <;> simp [toggles, par, runAt, h0, h]
  | (k, v) :: rs, pos, cur, n, h => by
    by_cases hk : n - pos < k
    · have hz : ∀ b, par (toggles q (pos + k) b rs) n = false := fun b =>
        par_lt fun a ha => by have := toggles_ge q rs _ _ a ha; omega
      simp only [toggles, runAt, if_pos hk]
      by_cases hq : q v = cur
      · rw [if_pos hq, hz, hq, Bool.false_xor]
      · rw [if_neg hq, par, hz, decide_eq_true h]
        cases hc : cur <;> cases hv : q v <;> simp_all
    · have ih := fun b => par_toggles h0 rs (pos + k) b n (by omega)
      simp only [toggles, runAt, if_neg hk]
      rw [show n - pos - k = n - (pos + k) by omega]
      by_cases hq : q v = cur
      · rw [if_pos hq, ih]
      · rw [if_neg hq, par, ← ih (q v), decide_eq_true h]
        cases hc : cur <;> cases hv : q v <;> simp_all

/-- The ranges as positions of changes. -/
def tog : List (Nat × Nat) → List Nat
  | [] => []
  | r :: rs => r.1 :: (r.2 + 1) :: tog rs

/-- Are the ranges in order, without gaps of size zero or overlaps? -/
def ordered : Nat → List (Nat × Nat) → Bool
  | _, [] => true
  | m, r :: rs => decide (m ≤ r.1) && decide (r.1 ≤ r.2) && ordered (r.2 + 1) rs

theorem inRanges_lt : ∀ {rs : List (Nat × Nat)} {m n : Nat}, ordered m rs = true → n < m → inRanges rs n = false
  | [], _, _, _, _ => rfl
  | r :: rs, m, n, h, hn => by
    simp only [ordered, Bool.and_eq_true, decide_eq_true_eq] at h
    have ih : inRanges rs n = false := inRanges_lt (m := r.2 + 1) h.2 (by omega)
    simp only [inRanges, List.any_cons] at ih ⊢
    rw [ih, decide_eq_false (show ¬ r.1 ≤ n by omega)]; rfl

theorem par_tog_lt : ∀ {rs : List (Nat × Nat)} {m n : Nat}, ordered m rs = true → n < m → par (tog rs) n = false
  | [], _, _, _, _ => rfl
  | r :: rs, m, n, h, hn => by
    simp only [ordered, Bool.and_eq_true, decide_eq_true_eq] at h
    simp only [tog, par]
    rw [par_tog_lt (m := r.2 + 1) h.2 (by omega), decide_eq_false (show ¬ r.1 ≤ n by omega),
      decide_eq_false (show ¬ r.2 + 1 ≤ n by omega)]; rfl

theorem par_tog : ∀ {rs : List (Nat × Nat)} {m : Nat}, ordered m rs = true → ∀ n, par (tog rs) n = inRanges rs n
  | [], _, _, _ => rfl
  | r :: rs, m, h, n => by
    simp only [ordered, Bool.and_eq_true, decide_eq_true_eq] at h
    have ih := par_tog h.2 n
    simp only [tog, par]
    by_cases hn : r.2 + 1 ≤ n
    · rw [ih, decide_eq_true hn, decide_eq_true (show r.1 ≤ n by omega)]
      simp only [inRanges, List.any_cons]
      rw [decide_eq_false (show ¬ n ≤ r.2 by omega)]; simp
    · rw [par_tog_lt h.2 (by omega)]
      have := inRanges_lt h.2 (show n < r.2 + 1 by omega)
      simp only [inRanges, List.any_cons] at this ⊢
      rw [this, decide_eq_false hn, decide_eq_true (show n ≤ r.2 by omega)]; simp

/-- Removes equal neighbours: the end of a range that is the start of the next. -/
def cancel : List Nat → List Nat
  | x :: y :: s => if x = y then cancel s else x :: cancel (y :: s)
  | s => s

theorem par_cancel : ∀ (s : List Nat) (n : Nat), par (cancel s) n = par s n
  | [], _ => rfl
  | [_], _ => rfl
  | x :: y :: s, n => by
    simp only [cancel]
    split
    · rename_i h
      subst h
      rw [par_cancel s n]
      simp only [par]
      cases decide (x ≤ n) <;> simp
    · rw [par, par_cancel (y :: s) n]
      rfl

/-- Merges two sorted lists; what is in both disappears. -/
def xorMerge : Nat → List Nat → List Nat → List Nat
  | 0, a, b => a ++ b
  | _ + 1, [], b => b
  | _ + 1, a, [] => a
  | k + 1, x :: a, y :: b =>
    if x = y then xorMerge k a b
    else if x < y then x :: xorMerge k a (y :: b)
    else y :: xorMerge k (x :: a) b

theorem par_append (a b : List Nat) (n : Nat) : par (a ++ b) n = (par a n ^^ par b n) := by
  induction a with
  | nil => simp [par]
  | cons x a ih => simp [par, ih]

theorem par_xorMerge : ∀ (k : Nat) (a b : List Nat) (n : Nat), par (xorMerge k a b) n = (par a n ^^ par b n)
  | 0, a, b, n => par_append a b n
  | _ + 1, [], b, n => by simp [xorMerge, par]
  | _ + 1, x :: a, [], n => by simp [xorMerge, par]
  | k + 1, x :: a, y :: b, n => by
    simp only [xorMerge]
    by_cases hxy : x = y
    · rw [if_pos hxy, par_xorMerge k a b n]
      subst hxy
      simp only [par]
      cases decide (x ≤ n) <;> simp
    · rw [if_neg hxy]
      split
      · rw [par, par_xorMerge k a (y :: b) n]; simp [par]
      · rw [par, par_xorMerge k (x :: a) b n]
        simp only [par]
        cases decide (x ≤ n) <;> cases decide (y ≤ n) <;> cases par a n <;> cases par b n <;> rfl

/-- The check that the characters with property `q` are those in the ranges `base`, apart from `changed`. -/
def sameRanges (q : Nat → Bool) (runs base changed : List (Nat × Nat)) : Bool :=
  !q 0 && ordered 0 base && ordered 0 changed &&
    toggles q 0 false runs == xorMerge (2 * base.length + 2 * changed.length) (cancel (tog base)) (tog changed)

theorem Trie.Wf.prop_ranges {T : Trie} (hT : T.Wf) {rs rs' : List (Nat × Nat)} (h : T.takeAll rs = some rs')
    {q : Nat → Bool} {base changed : List (Nat × Nat)} (hs : sameRanges q rs base changed = true) (c : Char) :
    q (T.prop c) = (inRanges base c.val.toNat != inRanges changed c.val.toNat) := by
  simp only [sameRanges, Bool.and_eq_true, Bool.not_eq_true', beq_iff_eq] at hs
  obtain ⟨⟨⟨h0, hb⟩, hc⟩, ht⟩ := hs
  have := par_toggles h0 rs 0 false c.val.toNat (Nat.zero_le _)
  rw [Bool.xor_false, Nat.sub_zero, ← hT.prop_runs h, ht, par_xorMerge, par_cancel, par_tog hb, par_tog hc] at this
  rw [← this]

/-- Merges two lists of ranges by their first code points. -/
def mergeRanges : Nat → List (Nat × Nat) → List (Nat × Nat) → List (Nat × Nat)
  | 0, a, b => a ++ b
  | _ + 1, [], b => b
  | _ + 1, a, [] => a
  | k + 1, x :: a, y :: b =>
    if x.1 < y.1 then x :: mergeRanges k a (y :: b) else y :: mergeRanges k (x :: a) b

theorem inRanges_merge : ∀ (k : Nat) (a b : List (Nat × Nat)) (n : Nat),
    inRanges (mergeRanges k a b) n = (inRanges a n || inRanges b n)
  | 0, a, b, n => by simp [mergeRanges, inRanges]
  | _ + 1, [], b, n => by simp [mergeRanges, inRanges]
  | _ + 1, x :: a, [], n => by simp [mergeRanges, inRanges]
  | k + 1, x :: a, y :: b, n => by
    simp only [mergeRanges]
    split
    · have := inRanges_merge k a (y :: b) n
      simp only [inRanges, List.any_cons] at this ⊢
      rw [this, Bool.or_assoc]
    · have := inRanges_merge k (x :: a) b n
      simp only [inRanges, List.any_cons] at this ⊢
      rw [this, Bool.or_left_comm]

end Uax29
