import Verif.Proofs.Encode
/-! # The pages of a table: 64 characters each -/
namespace Uax29

/-- The number `n` in the list `l`. -/
abbrev nth (l : List Nat) (n : Nat) : Nat := l[n]?.getD 0

/-- An entry of a table, `0` out of range. -/
def entry (table : List (List Nat)) (o : Nat) : Nat := ((table[o / 64]?.getD [])[o % 64]?).getD 0

theorem tableAt_entry {table : List (List Nat)} {o v : Nat} (h : tableAt table o = .ok v) : entry table o = v := by
  unfold tableAt at h
  split at h
  · cases h
  · rename_i b hb
    split at h
    · cases h
    · rename_i v' hv
      cases h
      simp [entry, hb, hv]

/-- The number of the block of `T.values` for the characters `64 * p` to `64 * p + 63`. -/
def Trie.page (T : Trie) (p : Nat) : Nat :=
  if p < 2 then p
  else if p < 32 then entry T.index (0xC0 + p) + 2
  else if p < 1024 then entry T.index (entry T.index (0xE0 + p / 64) * 64 + 0x80 + p % 64) + 2
  else entry T.index (entry T.index (entry T.index (0xF0 + p / 4096) * 64 + 0x80 + p / 64 % 64) * 64 + 0x80 + p % 64) + 2

theorem Trie.Wf.prop_page {T : Trie} (hT : T.Wf) (c : Char) :
    T.prop c = entry T.values (T.page (c.val.toNat / 64) * 64 + c.val.toNat % 64) := by
  have hl := hT.lookup_char c
  rcases encode_cases c with ⟨h1, b0, he, h2⟩ | ⟨h1, h1', b0, b1, he, h2, h3⟩ |
    ⟨h1, h1', b0, b1, b2, he, h2, h3, h4⟩ | ⟨h1, h1', b0, b1, b2, b3, he, h2, h3, h4, h5⟩
  · rw [he] at hl
    simp only [Trie.lookup] at hl
    rw [if_pos (by omega)] at hl
    split at hl
    · cases hl
    · rename_i v hv
      simp only [Except.ok.injEq, Prod.mk.injEq] at hl
      rw [← hl.1, ← tableAt_entry hv, Trie.page, if_pos (by omega), h2]
      congr 1
      omega
  · rw [he] at hl
    have c1 : notCont b1.toNat = false := by simp [notCont]; omega
    simp only [Trie.lookup, c1] at hl
    rw [if_neg (by omega), if_neg (by omega), if_pos (by omega)] at hl
    simp only [Bool.false_eq_true, if_false] at hl
    split at hl
    · cases hl
    · rename_i i hi
      split at hl
      · cases hl
      · rename_i v hv
        simp only [Except.ok.injEq, Prod.mk.injEq] at hl
        rw [← hl.1, ← tableAt_entry hv, Trie.page, if_neg (by omega), if_pos (by omega)]
        rw [h2] at hi
        rw [tableAt_entry hi]
        congr 1
        omega
  · rw [he] at hl
    have c1 : notCont b1.toNat = false := by simp [notCont]; omega
    have c2 : notCont b2.toNat = false := by simp [notCont]; omega
    simp only [Trie.lookup, c1, c2] at hl
    rw [if_neg (by omega), if_neg (by omega), if_neg (by omega), if_pos (by omega)] at hl
    simp only [Bool.false_eq_true, if_false] at hl
    split at hl
    · cases hl
    · rename_i i hi
      split at hl
      · cases hl
      · rename_i j hj
        split at hl
        · cases hl
        · rename_i v hv
          simp only [Except.ok.injEq, Prod.mk.injEq] at hl
          rw [← hl.1, ← tableAt_entry hv, Trie.page, if_neg (by omega), if_neg (by omega), if_pos (by omega)]
          rw [h2] at hi
          rw [h3] at hj
          have e1 : 0xE0 + c.val.toNat / 64 / 64 = 0xE0 + c.val.toNat / 4096 := by omega
          rw [e1, tableAt_entry hi, Nat.add_assoc, tableAt_entry hj]
          congr 1
          omega
  · rw [he] at hl
    have c1 : notCont b1.toNat = false := by simp [notCont]; omega
    have c2 : notCont b2.toNat = false := by simp [notCont]; omega
    have c3 : notCont b3.toNat = false := by simp [notCont]; omega
    simp only [Trie.lookup, c1, c2, c3] at hl
    rw [if_neg (by omega), if_neg (by omega), if_neg (by omega), if_neg (by omega),
      if_pos (by omega)] at hl
    simp only [Bool.false_eq_true, if_false] at hl
    split at hl
    · cases hl
    · rename_i i hi
      split at hl
      · cases hl
      · rename_i j hj
        split at hl
        · cases hl
        · rename_i k hk
          split at hl
          · cases hl
          · rename_i v hv
            simp only [Except.ok.injEq, Prod.mk.injEq] at hl
            rw [← hl.1, ← tableAt_entry hv, Trie.page, if_neg (by omega), if_neg (by omega), if_neg (by omega)]
            rw [h2] at hi
            rw [h3] at hj
            rw [h4] at hk
            have e1 : 0xF0 + c.val.toNat / 64 / 4096 = 0xF0 + c.val.toNat / 262144 := by omega
            have e2 : c.val.toNat / 64 / 64 % 64 = c.val.toNat / 4096 % 64 := by omega
            rw [e1, e2, tableAt_entry hi, Nat.add_assoc (i * 64), tableAt_entry hj, Nat.add_assoc (j * 64), tableAt_entry hk]
            congr 1
            omega

theorem toNat_lt (c : Char) : c.val.toNat < 0x110000 := by
  have := c.valid
  simp only [UInt32.isValidChar, Nat.isValidChar] at this
  omega

/-- The entries of a block. -/
def Trie.block (T : Trie) (b : Nat) : List Nat := T.values[b]?.getD []

theorem entry_block {T : Trie} (b : Nat) {o : Nat} (ho : o < 64) :
    entry T.values (b * 64 + o) = ((T.block b)[o]?).getD 0 := by
  simp only [entry, Trie.block]
  rw [show (b * 64 + o) / 64 = b by omega, show (b * 64 + o) % 64 = o by omega]

/-- A property that only entries of the first two blocks have is one of ASCII characters. -/
theorem Trie.Wf.prop_low {T : Trie} (hT : T.Wf) {q : Nat → Bool} (h0 : q 0 = false)
    (hq : (T.values.drop 2).all (fun b => b.all fun v => !q v) = true)
    {c : Char} (hc : q (T.prop c) = true) : c.val.toNat < 128 := by
  apply Classical.byContradiction
  intro hge
  rw [hT.prop_page, entry_block _ (Nat.mod_lt _ (by decide))] at hc
  have h2 : 2 ≤ T.page (c.val.toNat / 64) := by
    unfold Trie.page
    repeat' split
    all_goals omega
  generalize T.page (c.val.toNat / 64) = p at *
  cases hg : (T.block p)[c.val.toNat % 64]? with
  | none => rw [hg] at hc; simp [h0] at hc
  | some v =>
    rw [hg] at hc
    have hmem := List.mem_of_getElem? hg
    unfold Trie.block at hmem
    cases hp : T.values[p]? with
    | none => rw [hp] at hmem; cases hmem
    | some b =>
      rw [hp] at hmem
      simp only [Option.getD_some] at hmem hc
      simp only [List.all_eq_true, Bool.not_eq_true'] at hq
      have : b ∈ T.values.drop 2 := by
        apply List.mem_of_getElem? (i := p - 2)
        rw [List.getElem?_drop, show 2 + (p - 2) = p by omega, hp]
      rw [hq b this v hmem] at hc
      cases hc

/-- A fact about ASCII characters by a check of each. -/
theorem forall_ascii {P : Char → Prop} [DecidablePred P] (h : ∀ n ∈ List.range 128, P (Char.ofNat n)) {c : Char}
    (hc : c.val.toNat < 128) : P c := by
  have := h c.val.toNat (List.mem_range.mpr hc)
  rwa [show Char.ofNat c.val.toNat = c from Char.ofNat_toNat c] at this

end Uax29
