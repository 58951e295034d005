import Verif.Model.Graphemes
import Verif.Model.Words
import Verif.Model.Phrases
import Verif.Model.Sentences
import Verif.Model.Utf8
/-! # Lookup: totality, width, stability -/
namespace Uax29

/-- The check of a trie: blocks have 64 entries and every reachable table index is in range. -/
def Trie.wf (T : Trie) : Bool :=
  let nv := T.values.length
  let ni := T.index.length
  let blockOk (i : Nat) (p : Nat → Bool) : Bool :=
    match T.index[i + 2]? with
    | none => false
    | some b => b.all p
  T.values.all (fun b => b.length == 64) && T.index.all (fun b => b.length == 64)
  && decide (2 ≤ nv) && decide (4 ≤ ni)
  && (List.range 256).all fun c =>
      match T.index[c / 64]? with
      | none => false
      | some b =>
        match b[c % 64]? with
        | none => false
        | some i =>
          if c < 0xC2 then true
          else if c < 0xE0 then decide (i + 2 < nv)
          else if c < 0xF0 then blockOk i fun j => decide (j + 2 < nv)
          else if c < 0xF8 then blockOk i fun j => blockOk j fun k => decide (k + 2 < nv)
          else true

theorem tableAt_ok {table : List (List Nat)} (h64 : ∀ b ∈ table, b.length = 64) {o : Nat}
    (ho : o / 64 < table.length) :
    ∃ v, tableAt table o = .ok v ∧ ∃ b ∈ table, v ∈ b ∧ table[o / 64]? = some b := by
  have hb : table[o / 64]? = some table[o / 64] := List.getElem?_eq_getElem ho
  have hmem : table[o / 64] ∈ table := List.getElem_mem ho
  have hl : o % 64 < (table[o / 64]).length := by
    rw [h64 _ hmem]; exact Nat.mod_lt _ (by decide)
  refine ⟨(table[o / 64])[o % 64], ?_, table[o / 64], hmem, List.getElem_mem hl, hb⟩
  simp [tableAt, hb, List.getElem?_eq_getElem hl]

/-- What `wf` gives. -/
structure Trie.Wf (T : Trie) : Prop where
  v64 : ∀ b ∈ T.values, b.length = 64
  i64 : ∀ b ∈ T.index, b.length = 64
  nv : 2 ≤ T.values.length
  ni : 4 ≤ T.index.length
  two : ∀ c i, 0xC2 ≤ c → c < 0xE0 → tableAt T.index c = .ok i → i + 2 < T.values.length
  three : ∀ c i, 0xE0 ≤ c → c < 0xF0 → tableAt T.index c = .ok i →
    ∃ b, T.index[i + 2]? = some b ∧ ∀ j ∈ b, j + 2 < T.values.length
  four : ∀ c i, 0xF0 ≤ c → c < 0xF8 → tableAt T.index c = .ok i →
    ∃ b, T.index[i + 2]? = some b ∧ ∀ j ∈ b,
      ∃ b', T.index[j + 2]? = some b' ∧ ∀ k ∈ b', k + 2 < T.values.length

theorem Trie.Wf.of_wf {T : Trie} (h : T.wf = true) : T.Wf := by
  simp only [Trie.wf, Bool.and_eq_true, List.all_eq_true, decide_eq_true_eq, beq_iff_eq,
    List.mem_range] at h
  obtain ⟨⟨⟨⟨h1, h2⟩, h3⟩, h4⟩, h5⟩ := h
  have key : ∀ c i, c < 256 → tableAt T.index c = .ok i →
      ∃ b, T.index[c / 64]? = some b ∧ b[c % 64]? = some i := by
    intro c i _ hi
    simp only [tableAt] at hi
    split at hi
    · cases hi
    · rename_i b hb
      split at hi
      · cases hi
      · rename_i v hv
        cases hi
        exact ⟨b, hb, hv⟩
  refine ⟨h1, h2, h3, h4, ?_, ?_, ?_⟩
  · intro c i hc1 hc2 hi
    obtain ⟨b, hb, hv⟩ := key c i (by omega) hi
    have := h5 c (by omega)
    simp only [hb, hv] at this
    rw [if_neg (by omega), if_pos (by omega)] at this
    simpa using this
  · intro c i hc1 hc2 hi
    obtain ⟨b, hb, hv⟩ := key c i (by omega) hi
    have := h5 c (by omega)
    simp only [hb, hv] at this
    rw [if_neg (by omega), if_neg (by omega), if_pos (by omega)] at this
    split at this
    · simp at this
    · rename_i b' hb'
      refine ⟨b', hb', ?_⟩
      simpa using this
  · intro c i hc1 hc2 hi
    obtain ⟨b, hb, hv⟩ := key c i (by omega) hi
    have := h5 c (by omega)
    simp only [hb, hv] at this
    rw [if_neg (by omega), if_neg (by omega), if_neg (by omega), if_pos (by omega)] at this
    split at this
    · simp at this
    · rename_i b' hb'
      refine ⟨b', hb', ?_⟩
      simp only [List.all_eq_true] at this
      intro j hj
      have h' := this j hj
      split at h'
      · simp at h'
      · rename_i b'' hb''
        refine ⟨b'', hb'', ?_⟩
        simpa using h'

theorem notCont_false {c : Nat} (h : notCont c = false) : c / 64 = 2 := by
  simp [notCont] at h
  omega

/-- A value of the table. -/
def Trie.IsValue (T : Trie) (v : Nat) : Prop := v = 0 ∨ ∃ b ∈ T.values, v ∈ b

/-- Lookup is total on non-empty input, takes at most the available bytes, at most four, and gives
a value of the table. -/
theorem Trie.Wf.lookup_ok {T : Trie} (h : T.Wf) {s : Bytes} (hs : s ≠ []) :
    ∃ v w, T.lookup s = .ok (v, w) ∧ w ≤ s.length ∧ w ≤ 4 ∧ T.IsValue v := by
  have hval : ∀ i c, i + 2 < T.values.length → notCont c = false →
      ∃ v, T.lookupValue i c = .ok v ∧ T.IsValue v := by
    intro i c hi hc
    have := notCont_false hc
    obtain ⟨v, hv, b, hb, hvb, _⟩ := tableAt_ok (o := i * 64 + c) h.v64 (by omega)
    exact ⟨v, hv, .inr ⟨b, hb, hvb⟩⟩
  have hidx : ∀ i c b, T.index[i + 2]? = some b → notCont c = false →
      ∃ j, tableAt T.index (i * 64 + c) = .ok j ∧ j ∈ b := by
    intro i c b hb hc
    have hc2 := notCont_false hc
    have hlt : i + 2 < T.index.length := (List.getElem?_eq_some_iff.mp hb).1
    obtain ⟨v, hv, b', _, hvb, hb'⟩ := tableAt_ok (o := i * 64 + c) h.i64 (by omega)
    have : (i * 64 + c) / 64 = i + 2 := by omega
    rw [this, hb] at hb'
    cases hb'
    exact ⟨v, hv, hvb⟩
  cases s with
  | nil => exact absurd rfl hs
  | cons b0 t0 =>
    have hb0 : b0.toNat < 256 := b0.toNat_lt
    have hv0 : T.IsValue 0 := .inl rfl
    have hi0 : ∃ i, tableAt T.index b0.toNat = .ok i := by
      obtain ⟨v, hv, _⟩ := tableAt_ok (o := b0.toNat) h.i64 (by have := h.ni; omega)
      exact ⟨v, hv⟩
    obtain ⟨i0, hi0⟩ := hi0
    simp only [Trie.lookup]
    split
    · obtain ⟨v, hv, b, hb, hvb, _⟩ := tableAt_ok (o := b0.toNat) h.v64 (by have := h.nv; omega)
      simp only [hv]
      exact ⟨v, 1, rfl, by simp, by omega, .inr ⟨b, hb, hvb⟩⟩
    split
    · exact ⟨0, 1, rfl, by simp, by omega, hv0⟩
    split
    · cases t0 with
      | nil => exact ⟨0, 0, rfl, by simp, by omega, hv0⟩
      | cons b1 t1 =>
        simp only [hi0]
        split
        · exact ⟨0, 1, rfl, by simp, by omega, hv0⟩
        · rename_i hc1
          obtain ⟨v, hv, hvv⟩ := hval i0 b1.toNat (h.two _ _ (by omega) (by omega) hi0) (by simpa using hc1)
          simp only [hv]
          exact ⟨v, 2, rfl, by simp, by omega, hvv⟩
    split
    · match t0 with
      | [] => exact ⟨0, 0, rfl, by simp, by omega, hv0⟩
      | [_] => exact ⟨0, 0, rfl, by simp, by omega, hv0⟩
      | b1 :: b2 :: t2 =>
        simp only [hi0]
        split
        · exact ⟨0, 1, rfl, by simp, by omega, hv0⟩
        · rename_i hc1
          obtain ⟨b, hb, hall⟩ := h.three _ _ (by omega) (by omega) hi0
          obtain ⟨j, hj, hjb⟩ := hidx i0 b1.toNat b hb (by simpa using hc1)
          simp only [hj]
          split
          · exact ⟨0, 2, rfl, by simp, by omega, hv0⟩
          · rename_i hc2
            obtain ⟨v, hv, hvv⟩ := hval j b2.toNat (hall j hjb) (by simpa using hc2)
            simp only [hv]
            exact ⟨v, 3, rfl, by simp, by omega, hvv⟩
    split
    · match t0 with
      | [] => exact ⟨0, 0, rfl, by simp, by omega, hv0⟩
      | [_] => exact ⟨0, 0, rfl, by simp, by omega, hv0⟩
      | [_, _] => exact ⟨0, 0, rfl, by simp, by omega, hv0⟩
      | b1 :: b2 :: b3 :: t3 =>
        simp only [hi0]
        split
        · exact ⟨0, 1, rfl, by simp, by omega, hv0⟩
        · rename_i hc1
          obtain ⟨b, hb, hall⟩ := h.four _ _ (by omega) (by omega) hi0
          obtain ⟨j, hj, hjb⟩ := hidx i0 b1.toNat b hb (by simpa using hc1)
          simp only [hj]
          split
          · exact ⟨0, 2, rfl, by simp, by omega, hv0⟩
          · rename_i hc2
            obtain ⟨b', hb', hall'⟩ := hall j hjb
            obtain ⟨k, hk, hkb⟩ := hidx j b2.toNat b' hb' (by simpa using hc2)
            simp only [hk]
            split
            · exact ⟨0, 3, rfl, by simp, by omega, hv0⟩
            · rename_i hc3
              obtain ⟨v, hv, hvv⟩ := hval k b3.toNat (hall' k hkb) (by simpa using hc3)
              simp only [hv]
              exact ⟨v, 4, rfl, by simp, by omega, hvv⟩
    · exact ⟨0, 1, rfl, by simp, by omega, hv0⟩

/-- Appending bytes does not change a lookup that has not run out of data. -/
theorem Trie.lookup_append {T : Trie} {s : Bytes} {v w : Nat} (h : T.lookup s = .ok (v, w))
    (hw : w ≠ 0) (e : Bytes) : T.lookup (s ++ e) = .ok (v, w) := by
  match s, h with
  | [], h => simp [Trie.lookup] at h
  | [b0], h =>
    simp only [Trie.lookup, List.cons_append, List.nil_append] at h ⊢
    by_cases h1 : b0.toNat < 0x80
    · rw [if_pos h1] at h ⊢; exact h
    by_cases h2 : b0.toNat < 0xC2
    · rw [if_neg h1, if_pos h2] at h ⊢; exact h
    by_cases h3 : b0.toNat < 0xE0
    · rw [if_neg h1, if_neg h2, if_pos h3] at h; cases h; exact absurd rfl hw
    by_cases h4 : b0.toNat < 0xF0
    · rw [if_neg h1, if_neg h2, if_neg h3, if_pos h4] at h; cases h; exact absurd rfl hw
    by_cases h5 : b0.toNat < 0xF8
    · rw [if_neg h1, if_neg h2, if_neg h3, if_neg h4, if_pos h5] at h; cases h; exact absurd rfl hw
    · rw [if_neg h1, if_neg h2, if_neg h3, if_neg h4, if_neg h5] at h ⊢; exact h
  | [b0, b1], h =>
    simp only [Trie.lookup, List.cons_append, List.nil_append] at h ⊢
    by_cases h1 : b0.toNat < 0x80
    · rw [if_pos h1] at h ⊢; exact h
    by_cases h2 : b0.toNat < 0xC2
    · rw [if_neg h1, if_pos h2] at h ⊢; exact h
    by_cases h3 : b0.toNat < 0xE0
    · rw [if_neg h1, if_neg h2, if_pos h3] at h ⊢; exact h
    by_cases h4 : b0.toNat < 0xF0
    · rw [if_neg h1, if_neg h2, if_neg h3, if_pos h4] at h; cases h; exact absurd rfl hw
    by_cases h5 : b0.toNat < 0xF8
    · rw [if_neg h1, if_neg h2, if_neg h3, if_neg h4, if_pos h5] at h; cases h; exact absurd rfl hw
    · rw [if_neg h1, if_neg h2, if_neg h3, if_neg h4, if_neg h5] at h ⊢; exact h
  | [b0, b1, b2], h =>
    simp only [Trie.lookup, List.cons_append, List.nil_append] at h ⊢
    by_cases h1 : b0.toNat < 0x80
    · rw [if_pos h1] at h ⊢; exact h
    by_cases h2 : b0.toNat < 0xC2
    · rw [if_neg h1, if_pos h2] at h ⊢; exact h
    by_cases h3 : b0.toNat < 0xE0
    · rw [if_neg h1, if_neg h2, if_pos h3] at h ⊢; exact h
    by_cases h4 : b0.toNat < 0xF0
    · rw [if_neg h1, if_neg h2, if_neg h3, if_pos h4] at h ⊢; exact h
    by_cases h5 : b0.toNat < 0xF8
    · rw [if_neg h1, if_neg h2, if_neg h3, if_neg h4, if_pos h5] at h; cases h; exact absurd rfl hw
    · rw [if_neg h1, if_neg h2, if_neg h3, if_neg h4, if_neg h5] at h ⊢; exact h
  | b0 :: b1 :: b2 :: b3 :: t, h => exact h

theorem Utf8.first_none {p : Nat} (h : p < 0xC2 ∨ 0xF5 ≤ p) : Utf8.first p = none := by
  unfold Utf8.first
  repeat' split
  all_goals first | rfl | omega

theorem Utf8.first_two {p : Nat} (h1 : ¬ p < 0xC2) (h2 : p < 0xE0) :
    Utf8.first p = some (2, 0x80, 0xBF) := by
  unfold Utf8.first
  rw [if_neg h1, if_pos h2]

theorem Utf8.first_three {p : Nat} (h1 : ¬ p < 0xE0) (h2 : p < 0xF0) :
    ∃ lo hi, Utf8.first p = some (3, lo, hi) := by
  unfold Utf8.first
  rw [if_neg (by omega), if_neg h1]
  repeat' split
  all_goals first | exact ⟨_, _, rfl⟩ | omega

open Utf8 in
/-- Appending bytes does not change the decoded rune if lookup has not run out of data. -/
theorem Trie.decodeRune_append {T : Trie} {s : Bytes} {v w : Nat} (h : T.lookup s = .ok (v, w))
    (hw : w ≠ 0) (e : Bytes) : Utf8.decodeRune (s ++ e) = Utf8.decodeRune s := by
  match s, h with
  | [], h => simp [Trie.lookup] at h
  | [b0], h =>
    simp only [Trie.lookup] at h
    simp only [Utf8.decodeRune, List.cons_append, List.nil_append]
    by_cases h1 : b0.toNat < 0x80
    · simp only [if_pos h1]
    by_cases h2 : b0.toNat < 0xC2
    · simp only [if_neg h1, first_none (.inl h2)]
    by_cases h3 : b0.toNat < 0xE0
    · rw [if_neg h1, if_neg h2, if_pos h3] at h; cases h; exact absurd rfl hw
    by_cases h4 : b0.toNat < 0xF0
    · rw [if_neg h1, if_neg h2, if_neg h3, if_pos h4] at h; cases h; exact absurd rfl hw
    by_cases h5 : b0.toNat < 0xF8
    · rw [if_neg h1, if_neg h2, if_neg h3, if_neg h4, if_pos h5] at h; cases h; exact absurd rfl hw
    · simp only [if_neg h1, first_none (p := b0.toNat) (.inr (by omega))]
  | [b0, b1], h =>
    simp only [Trie.lookup] at h
    simp only [Utf8.decodeRune, List.cons_append, List.nil_append]
    by_cases h1 : b0.toNat < 0x80
    · simp only [if_pos h1]
    by_cases h2 : b0.toNat < 0xC2
    · simp only [if_neg h1, first_none (.inl h2)]
    by_cases h3 : b0.toNat < 0xE0
    · (simp [if_neg h1, first_two h2 h3] <;> omega)
    by_cases h4 : b0.toNat < 0xF0
    · rw [if_neg h1, if_neg h2, if_neg h3, if_pos h4] at h; cases h; exact absurd rfl hw
    by_cases h5 : b0.toNat < 0xF8
    · rw [if_neg h1, if_neg h2, if_neg h3, if_neg h4, if_pos h5] at h; cases h; exact absurd rfl hw
    · simp only [if_neg h1, first_none (p := b0.toNat) (.inr (by omega))]
  | [b0, b1, b2], h =>
    simp only [Trie.lookup] at h
    simp only [Utf8.decodeRune, List.cons_append, List.nil_append]
    by_cases h1 : b0.toNat < 0x80
    · simp only [if_pos h1]
    by_cases h2 : b0.toNat < 0xC2
    · simp only [if_neg h1, first_none (.inl h2)]
    by_cases h3 : b0.toNat < 0xE0
    · (simp [if_neg h1, first_two h2 h3] <;> omega)
    by_cases h4 : b0.toNat < 0xF0
    · obtain ⟨lo, hi, hf⟩ := first_three h3 h4
      (simp [if_neg h1, hf] <;> omega)
    by_cases h5 : b0.toNat < 0xF8
    · rw [if_neg h1, if_neg h2, if_neg h3, if_neg h4, if_pos h5] at h; cases h; exact absurd rfl hw
    · simp only [if_neg h1, first_none (p := b0.toNat) (.inr (by omega))]
  | b0 :: b1 :: b2 :: b3 :: t, h =>
    simp only [Utf8.decodeRune, List.cons_append]
    have hl : ∀ sz lo hi, Utf8.first b0.toNat = some (sz, lo, hi) → sz ≤ 4 := by
      intro sz lo hi hf
      unfold Utf8.first at hf
      repeat' split at hf
      all_goals first | (cases hf; omega) | cases hf
    split
    · rfl
    · cases hf : Utf8.first b0.toNat with
      | none => rfl
      | some r =>
        obtain ⟨sz, lo, hi⟩ := r
        have := hl _ _ _ hf
        have e1 : ¬ (b0 :: b1 :: b2 :: b3 :: (t ++ e)).length < sz := by simp; omega
        have e2 : ¬ (b0 :: b1 :: b2 :: b3 :: t).length < sz := by simp; omega
        simp only [if_neg e1, if_neg e2]

end Uax29
