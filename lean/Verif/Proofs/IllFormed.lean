import Verif.Proofs.Pages
import Verif.Proofs.Tables
/-! # Lookup gives no property to anything but encoded characters -/
namespace Uax29

/-- The parts of a table that would be used for encodings that are too long, for surrogates and beyond
U+10FFFF lead to the page without properties. -/
def Trie.strict (T : Trie) : Bool :=
  ((T.values[2]?).getD []).all (· == 0) && ((T.index[2]?).getD []).all (· == 0)
  && (((T.index[entry T.index 0xE0 + 2]?).getD []).take 32).all (· == 0)
  && (((T.index[entry T.index 0xED + 2]?).getD []).drop 32).all (· == 0)
  && (((T.index[entry T.index 0xF0 + 2]?).getD []).take 16).all (· == 0)
  && (((T.index[entry T.index 0xF4 + 2]?).getD []).drop 16).all (· == 0)
  && decide (entry T.index 0xF5 = 0) && decide (entry T.index 0xF6 = 0) && decide (entry T.index 0xF7 = 0)

theorem tableAt_get {table : List (List Nat)} {i c v : Nat} (h : tableAt table (i * 64 + c) = .ok v) (hc : c / 64 = 2) :
    ((table[i + 2]?).getD [])[c - 128]? = some v := by
  unfold tableAt at h
  rw [show (i * 64 + c) / 64 = i + 2 by omega, show (i * 64 + c) % 64 = c - 128 by omega] at h
  split at h
  · cases h
  · rename_i b hb
    split at h
    · cases h
    · rename_i v' hv
      cases h
      simp [hb, hv]

theorem all_get {l : List Nat} (h : l.all (· == 0) = true) {i v : Nat} (hi : l[i]? = some v) : v = 0 := by
  have := List.all_eq_true.mp h v (List.mem_of_getElem? hi)
  simpa using this

/-- What `strict` gives. -/
structure Trie.Strict (T : Trie) : Prop where
  value : ∀ c v, c / 64 = 2 → tableAt T.values (0 * 64 + c) = .ok v → v = 0
  index : ∀ c v, c / 64 = 2 → tableAt T.index (0 * 64 + c) = .ok v → v = 0
  e0 : ∀ i c v, tableAt T.index 0xE0 = .ok i → c / 64 = 2 → c < 0xA0 → tableAt T.index (i * 64 + c) = .ok v → v = 0
  ed : ∀ i c v, tableAt T.index 0xED = .ok i → c / 64 = 2 → 0xA0 ≤ c → tableAt T.index (i * 64 + c) = .ok v → v = 0
  f0 : ∀ i c v, tableAt T.index 0xF0 = .ok i → c / 64 = 2 → c < 0x90 → tableAt T.index (i * 64 + c) = .ok v → v = 0
  f4 : ∀ i c v, tableAt T.index 0xF4 = .ok i → c / 64 = 2 → 0x90 ≤ c → tableAt T.index (i * 64 + c) = .ok v → v = 0
  f5 : ∀ c i, 0xF5 ≤ c → c < 0xF8 → tableAt T.index c = .ok i → i = 0

theorem Trie.Strict.of_strict {T : Trie} (h : T.strict = true) : T.Strict := by
  simp only [Trie.strict, Bool.and_eq_true, decide_eq_true_eq] at h
  obtain ⟨⟨⟨⟨⟨⟨⟨⟨h1, h2⟩, h3⟩, h4⟩, h5⟩, h6⟩, h7⟩, h8⟩, h9⟩ := h
  constructor
  · intro c v hc hv
    exact all_get h1 (tableAt_get hv hc)
  · intro c v hc hv
    exact all_get h2 (tableAt_get hv hc)
  · intro i c v hi hc hlt hv
    rw [tableAt_entry hi] at h3
    refine all_get h3 (i := c - 128) ?_
    rw [List.getElem?_take_of_lt (by omega)]
    exact tableAt_get hv hc
  · intro i c v hi hc hlt hv
    rw [tableAt_entry hi] at h4
    refine all_get h4 (i := c - 128 - 32) ?_
    rw [List.getElem?_drop, show 32 + (c - 128 - 32) = c - 128 by omega]
    exact tableAt_get hv hc
  · intro i c v hi hc hlt hv
    rw [tableAt_entry hi] at h5
    refine all_get h5 (i := c - 128) ?_
    rw [List.getElem?_take_of_lt (by omega)]
    exact tableAt_get hv hc
  · intro i c v hi hc hlt hv
    rw [tableAt_entry hi] at h6
    refine all_get h6 (i := c - 128 - 16) ?_
    rw [List.getElem?_drop, show 16 + (c - 128 - 16) = c - 128 by omega]
    exact tableAt_get hv hc
  · intro c i hc1 hc2 hi
    have : c = 0xF5 ∨ c = 0xF6 ∨ c = 0xF7 := by omega
    rcases this with rfl | rfl | rfl
    · rw [tableAt_entry hi] at h7; exact h7
    · rw [tableAt_entry hi] at h8; exact h8
    · rw [tableAt_entry hi] at h9; exact h9

theorem Graphemes.strict : Graphemes.trie.Strict := .of_strict (by decide +kernel)
theorem Words.strict : Words.trie.Strict := .of_strict (by decide +kernel)
theorem Phrases.strict : Phrases.trie.Strict := .of_strict (by decide +kernel)
theorem Sentences.strict : Sentences.trie.Strict := .of_strict (by decide +kernel)

/-- The character with a given scalar value. -/
theorem char_of {n : Nat} (h : n < 0xD800 ∨ 0xDFFF < n ∧ n < 0x110000) : ∃ c : Char, c.val.toNat = n := by
  refine ⟨Char.ofNat n, ?_⟩
  have : n.isValidChar := h
  show (Char.ofNat n).toNat = n
  unfold Char.ofNat
  rw [dif_pos this]
  have : n < 4294967296 := by omega
  simp [Char.ofNatAux, Char.toNat]

theorem bytes1 {b0 : UInt8} (h : b0.toNat < 0x80) : ∃ c : Char, String.utf8EncodeChar c = [b0] := by
  obtain ⟨c, hc⟩ := char_of (n := b0.toNat) (by omega)
  refine ⟨c, ?_⟩
  rcases encode_cases c with ⟨h1, x0, he, h2⟩ | ⟨h1, h1', x0, x1, he, h2, h3⟩ |
    ⟨h1, h1', x0, x1, x2, he, h2, h3, h4⟩ | ⟨h1, h1', x0, x1, x2, x3, he, h2, h3, h4, h5⟩
  · rw [he, (UInt8.toNat_inj.mp (by omega) : x0 = b0)]
  all_goals omega

theorem bytes2 {b0 b1 : UInt8} (h0 : 0xC2 ≤ b0.toNat) (h0' : b0.toNat < 0xE0) (hb1 : b1.toNat / 64 = 2) :
    ∃ c : Char, String.utf8EncodeChar c = [b0, b1] := by
  obtain ⟨c, hc⟩ := char_of (n := (b0.toNat - 0xC0) * 64 + (b1.toNat - 0x80)) (by omega)
  refine ⟨c, ?_⟩
  rcases encode_cases c with ⟨h1, x0, he, h2⟩ | ⟨h1, h1', x0, x1, he, h2, h3⟩ |
    ⟨h1, h1', x0, x1, x2, he, h2, h3, h4⟩ | ⟨h1, h1', x0, x1, x2, x3, he, h2, h3, h4, h5⟩
  · omega
  · rw [he, (UInt8.toNat_inj.mp (by omega) : x0 = b0), (UInt8.toNat_inj.mp (by omega) : x1 = b1)]
  all_goals omega

theorem bytes3 {b0 b1 b2 : UInt8} (h0 : 0xE0 ≤ b0.toNat) (h0' : b0.toNat < 0xF0) (hb1 : b1.toNat / 64 = 2)
    (hb2 : b2.toNat / 64 = 2) (hlong : b0.toNat = 0xE0 → 0xA0 ≤ b1.toNat) (hsur : b0.toNat = 0xED → b1.toNat < 0xA0) :
    ∃ c : Char, String.utf8EncodeChar c = [b0, b1, b2] := by
  obtain ⟨c, hc⟩ := char_of (n := (b0.toNat - 0xE0) * 4096 + (b1.toNat - 0x80) * 64 + (b2.toNat - 0x80)) (by omega)
  refine ⟨c, ?_⟩
  rcases encode_cases c with ⟨h1, x0, he, h2⟩ | ⟨h1, h1', x0, x1, he, h2, h3⟩ |
    ⟨h1, h1', x0, x1, x2, he, h2, h3, h4⟩ | ⟨h1, h1', x0, x1, x2, x3, he, h2, h3, h4, h5⟩
  · omega
  · omega
  · rw [he, (UInt8.toNat_inj.mp (by omega) : x0 = b0), (UInt8.toNat_inj.mp (by omega) : x1 = b1),
      (UInt8.toNat_inj.mp (by omega) : x2 = b2)]
  · omega

theorem bytes4 {b0 b1 b2 b3 : UInt8} (h0 : 0xF0 ≤ b0.toNat) (h0' : b0.toNat < 0xF5) (hb1 : b1.toNat / 64 = 2)
    (hb2 : b2.toNat / 64 = 2) (hb3 : b3.toNat / 64 = 2) (hlong : b0.toNat = 0xF0 → 0x90 ≤ b1.toNat)
    (hhigh : b0.toNat = 0xF4 → b1.toNat < 0x90) : ∃ c : Char, String.utf8EncodeChar c = [b0, b1, b2, b3] := by
  obtain ⟨c, hc⟩ := char_of (n := (b0.toNat - 0xF0) * 262144 + (b1.toNat - 0x80) * 4096 + (b2.toNat - 0x80) * 64
    + (b3.toNat - 0x80)) (by omega)
  refine ⟨c, ?_⟩
  rcases encode_cases c with ⟨h1, x0, he, h2⟩ | ⟨h1, h1', x0, x1, he, h2, h3⟩ |
    ⟨h1, h1', x0, x1, x2, he, h2, h3, h4⟩ | ⟨h1, h1', x0, x1, x2, x3, he, h2, h3, h4, h5⟩
  · omega
  · omega
  · omega
  · rw [he, (UInt8.toNat_inj.mp (by omega) : x0 = b0), (UInt8.toNat_inj.mp (by omega) : x1 = b1),
      (UInt8.toNat_inj.mp (by omega) : x2 = b2), (UInt8.toNat_inj.mp (by omega) : x3 = b3)]

/-- Whatever has a property begins with an encoded character. -/
theorem Trie.Strict.lookup_ne {T : Trie} (hs : T.Strict) {d : Bytes} {v w : Nat}
    (h : T.lookup d = .ok (v, w)) (hv : v ≠ 0) :
    ∃ c rest, d = String.utf8EncodeChar c ++ rest := by
  cases d with
  | nil => simp [Trie.lookup] at h
  | cons b0 t0 =>
    simp only [Trie.lookup] at h
    split at h
    · rename_i h0
      obtain ⟨c, hc⟩ := bytes1 h0
      exact ⟨c, t0, by rw [hc]; rfl⟩
    split at h
    · simp only [Except.ok.injEq, Prod.mk.injEq] at h; exact absurd h.1.symm hv
    rename_i n0 n1
    split at h
    · rename_i h0
      cases t0 with
      | nil => simp only [Except.ok.injEq, Prod.mk.injEq] at h; exact absurd h.1.symm hv
      | cons b1 t1 =>
        simp only at h
        split at h
        · cases h
        split at h
        · simp only [Except.ok.injEq, Prod.mk.injEq] at h; exact absurd h.1.symm hv
        rename_i c1
        have c1 := notCont_false (by simpa using c1)
        obtain ⟨c, hc⟩ := bytes2 (b0 := b0) (b1 := b1) (by omega) h0 c1
        exact ⟨c, t1, by rw [hc]; rfl⟩
    rename_i n2
    split at h
    · rename_i h0
      match t0, h with
      | [], h => simp only [Except.ok.injEq, Prod.mk.injEq] at h; exact absurd h.1.symm hv
      | [_], h => simp only [Except.ok.injEq, Prod.mk.injEq] at h; exact absurd h.1.symm hv
      | b1 :: b2 :: t2, h =>
        simp only at h
        split at h
        · cases h
        rename_i i hi
        split at h
        · simp only [Except.ok.injEq, Prod.mk.injEq] at h; exact absurd h.1.symm hv
        rename_i c1
        have c1 := notCont_false (by simpa using c1)
        split at h
        · cases h
        rename_i j hj
        split at h
        · simp only [Except.ok.injEq, Prod.mk.injEq] at h; exact absurd h.1.symm hv
        rename_i c2
        have c2 := notCont_false (by simpa using c2)
        split at h
        · cases h
        rename_i v' hv'
        simp only [Except.ok.injEq, Prod.mk.injEq] at h
        have hj0 : j ≠ 0 := by
          rintro rfl
          exact hv (h.1 ▸ hs.value _ _ c2 hv')
        obtain ⟨c, hc⟩ := bytes3 (b0 := b0) (b1 := b1) (b2 := b2) (by omega) h0 c1 c2
          (by
            intro he
            apply Classical.byContradiction
            intro hlt
            rw [he] at hi
            exact hj0 (hs.e0 _ _ _ hi c1 (by omega) hj))
          (by
            intro he
            apply Classical.byContradiction
            intro hlt
            rw [he] at hi
            exact hj0 (hs.ed _ _ _ hi c1 (by omega) hj))
        exact ⟨c, t2, by rw [hc]; rfl⟩
    rename_i n3
    split at h
    · rename_i h0
      match t0, h with
      | [], h => simp only [Except.ok.injEq, Prod.mk.injEq] at h; exact absurd h.1.symm hv
      | [_], h => simp only [Except.ok.injEq, Prod.mk.injEq] at h; exact absurd h.1.symm hv
      | [_, _], h => simp only [Except.ok.injEq, Prod.mk.injEq] at h; exact absurd h.1.symm hv
      | b1 :: b2 :: b3 :: t3, h =>
        simp only at h
        split at h
        · cases h
        rename_i i hi
        split at h
        · simp only [Except.ok.injEq, Prod.mk.injEq] at h; exact absurd h.1.symm hv
        rename_i c1
        have c1 := notCont_false (by simpa using c1)
        split at h
        · cases h
        rename_i j hj
        split at h
        · simp only [Except.ok.injEq, Prod.mk.injEq] at h; exact absurd h.1.symm hv
        rename_i c2
        have c2 := notCont_false (by simpa using c2)
        split at h
        · cases h
        rename_i k hk
        split at h
        · simp only [Except.ok.injEq, Prod.mk.injEq] at h; exact absurd h.1.symm hv
        rename_i c3
        have c3 := notCont_false (by simpa using c3)
        split at h
        · cases h
        rename_i v' hv'
        simp only [Except.ok.injEq, Prod.mk.injEq] at h
        have hk0 : k ≠ 0 := by
          rintro rfl
          exact hv (h.1 ▸ hs.value _ _ c3 hv')
        have hj0 : j ≠ 0 := by
          rintro rfl
          exact hk0 (hs.index _ _ c2 hk)
        have hi0 : i ≠ 0 := by
          rintro rfl
          exact hj0 (hs.index _ _ c1 hj)
        obtain ⟨c, hc⟩ := bytes4 (b0 := b0) (b1 := b1) (b2 := b2) (b3 := b3) (by omega)
          (by
            apply Classical.byContradiction
            intro hge
            exact hi0 (hs.f5 _ _ (by omega) h0 hi)) c1 c2 c3
          (by
            intro he
            apply Classical.byContradiction
            intro hlt
            rw [he] at hi
            exact hj0 (hs.f0 _ _ _ hi c1 (by omega) hj))
          (by
            intro he
            apply Classical.byContradiction
            intro hlt
            rw [he] at hi
            exact hj0 (hs.f4 _ _ _ hi c1 (by omega) hj))
        exact ⟨c, t3, by rw [hc]; rfl⟩
    · simp only [Except.ok.injEq, Prod.mk.injEq] at h; exact absurd h.1.symm hv

/-- A chunk with a property is a character. -/
theorem Trie.Strict.chunk {T : Trie} (hs : T.Strict) (hT : T.Wf) {bs d : Bytes} {v : Nat}
    (h : T.lookup (bs ++ d) = .ok (v, bs.length)) (hv : v ≠ 0) :
    ∃ c, bs = String.utf8EncodeChar c ∧ v = T.prop c := by
  obtain ⟨c, rest, hc⟩ := hs.lookup_ne h hv
  have h2 := hT.lookup_encode c rest
  rw [← hc, h] at h2
  simp only [Except.ok.injEq, Prod.mk.injEq] at h2
  exact ⟨c, (List.append_inj hc h2.2).1, h2.1⟩

end Uax29
