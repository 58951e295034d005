import Verif.Spec.Text
import Verif.Proofs.Loop
import Verif.Proofs.Tables
/-! # Lookup and decoding of encoded characters -/
namespace Uax29
open Spec

theorem toNat_ofNat_lt {n : Nat} (h : n < 256) : (UInt8.ofNat n).toNat = n := by
  simp; omega

/-- The encodings, with the bytes as natural numbers. -/
theorem encode_cases (c : Char) :
    (c.val.toNat < 0x80 ∧ ∃ b0, String.utf8EncodeChar c = [b0] ∧ b0.toNat = c.val.toNat)
  ∨ (0x80 ≤ c.val.toNat ∧ c.val.toNat < 0x800 ∧ ∃ b0 b1, String.utf8EncodeChar c = [b0, b1]
      ∧ b0.toNat = 0xC0 + c.val.toNat / 64 ∧ b1.toNat = 0x80 + c.val.toNat % 64)
  ∨ (0x800 ≤ c.val.toNat ∧ c.val.toNat < 0x10000
      ∧ ∃ b0 b1 b2, String.utf8EncodeChar c = [b0, b1, b2]
      ∧ b0.toNat = 0xE0 + c.val.toNat / 4096 ∧ b1.toNat = 0x80 + c.val.toNat / 64 % 64
      ∧ b2.toNat = 0x80 + c.val.toNat % 64)
  ∨ (0x10000 ≤ c.val.toNat ∧ c.val.toNat < 0x110000
      ∧ ∃ b0 b1 b2 b3, String.utf8EncodeChar c = [b0, b1, b2, b3]
      ∧ b0.toNat = 0xF0 + c.val.toNat / 262144 ∧ b1.toNat = 0x80 + c.val.toNat / 4096 % 64
      ∧ b2.toNat = 0x80 + c.val.toNat / 64 % 64 ∧ b3.toNat = 0x80 + c.val.toNat % 64) := by
  have hv : c.val.toNat < 0x110000 := by
    have := c.valid
    simp only [UInt32.isValidChar, Nat.isValidChar] at this
    omega
  simp only [String.utf8EncodeChar]
  generalize c.val.toNat = v at *
  by_cases h1 : v ≤ 127
  · exact .inl ⟨by omega, _, by rw [if_pos h1], toNat_ofNat_lt (by omega)⟩
  by_cases h2 : v ≤ 2047
  · exact .inr (.inl ⟨by omega, by omega, _, _, by rw [if_neg h1, if_pos h2],
      (toNat_ofNat_lt (by omega)).trans (by omega), (toNat_ofNat_lt (by omega)).trans (by omega)⟩)
  by_cases h3 : v ≤ 65535
  · exact .inr (.inr (.inl ⟨by omega, by omega, _, _, _, by rw [if_neg h1, if_neg h2, if_pos h3],
      (toNat_ofNat_lt (by omega)).trans (by omega), (toNat_ofNat_lt (by omega)).trans (by omega),
      (toNat_ofNat_lt (by omega)).trans (by omega)⟩))
  · exact .inr (.inr (.inr ⟨by omega, by omega, _, _, _, _, by rw [if_neg h1, if_neg h2, if_neg h3],
      (toNat_ofNat_lt (by omega)).trans (by omega), (toNat_ofNat_lt (by omega)).trans (by omega),
      (toNat_ofNat_lt (by omega)).trans (by omega), (toNat_ofNat_lt (by omega)).trans (by omega)⟩))

theorem encode_pos (c : Char) : 0 < (String.utf8EncodeChar c).length := by
  rcases encode_cases c with ⟨_, _, h, _⟩ | ⟨_, _, _, _, h, _⟩ | ⟨_, _, _, _, _, h, _⟩ |
    ⟨_, _, _, _, _, _, h, _⟩ <;> simp [h]

/-- The property of a character in a table. -/
def Trie.prop (T : Trie) (c : Char) : Nat :=
  match T.lookup (String.utf8EncodeChar c) with
  | .ok (v, _) => v
  | .error _ => 0

theorem Trie.Wf.lookup_char {T : Trie} (h : T.Wf) (c : Char) :
    T.lookup (String.utf8EncodeChar c) = .ok (T.prop c, (String.utf8EncodeChar c).length) := by
  have hne : String.utf8EncodeChar c ≠ [] := by
    intro h0; have := encode_pos c; rw [h0] at this; simp at this
  obtain ⟨v, w, hl, _, _, _⟩ := h.lookup_ok hne
  have hp : T.prop c = v := by simp only [Trie.prop, hl]
  suffices hw : w = (String.utf8EncodeChar c).length by rw [hl, hp, hw]
  rcases encode_cases c with ⟨h1, b0, he, h2⟩ | ⟨h1, h1', b0, b1, he, h2, h3⟩ |
    ⟨h1, h1', b0, b1, b2, he, h2, h3, h4⟩ | ⟨h1, h1', b0, b1, b2, b3, he, h2, h3, h4, h5⟩
  · rw [he] at hl ⊢
    simp only [Trie.lookup] at hl
    rw [if_pos (by omega)] at hl
    split at hl <;> cases hl
    rfl
  · rw [he] at hl ⊢
    have c1 : notCont b1.toNat = false := by simp [notCont]; omega
    simp only [Trie.lookup, c1] at hl
    rw [if_neg (by omega), if_neg (by omega), if_pos (by omega)] at hl
    simp only [Bool.false_eq_true, if_false] at hl
    repeat' split at hl
    all_goals cases hl
    rfl
  · rw [he] at hl ⊢
    have c1 : notCont b1.toNat = false := by simp [notCont]; omega
    have c2 : notCont b2.toNat = false := by simp [notCont]; omega
    simp only [Trie.lookup, c1, c2] at hl
    rw [if_neg (by omega), if_neg (by omega), if_neg (by omega), if_pos (by omega)] at hl
    simp only [Bool.false_eq_true, if_false] at hl
    repeat' split at hl
    all_goals cases hl
    rfl
  · rw [he] at hl ⊢
    have c1 : notCont b1.toNat = false := by simp [notCont]; omega
    have c2 : notCont b2.toNat = false := by simp [notCont]; omega
    have c3 : notCont b3.toNat = false := by simp [notCont]; omega
    simp only [Trie.lookup, c1, c2, c3] at hl
    rw [if_neg (by omega), if_neg (by omega), if_neg (by omega), if_neg (by omega),
      if_pos (by omega)] at hl
    simp only [Bool.false_eq_true, if_false] at hl
    repeat' split at hl
    all_goals cases hl
    rfl

theorem Trie.Wf.lookup_encode {T : Trie} (h : T.Wf) (c : Char) (rest : Bytes) :
    T.lookup (String.utf8EncodeChar c ++ rest)
      = .ok (T.prop c, (String.utf8EncodeChar c).length) :=
  Trie.lookup_append (h.lookup_char c) (by have := encode_pos c; omega) rest

theorem Trie.Wf.prop_value {T : Trie} (h : T.Wf) (c : Char) : T.IsValue (T.prop c) := by
  have hne : String.utf8EncodeChar c ≠ [] := by
    intro h0; have := encode_pos c; rw [h0] at this; simp at this
  obtain ⟨v, w, hl, _, _, hv⟩ := h.lookup_ok hne
  rw [h.lookup_char c] at hl
  cases hl
  exact hv

/-- Go's decoder gives back an encoded character. -/
theorem decodeRune_encode (c : Char) (rest : Bytes) :
    Utf8.decodeRune (String.utf8EncodeChar c ++ rest)
      = (c.val.toNat, (String.utf8EncodeChar c).length) := by
  have hv := c.valid
  simp only [UInt32.isValidChar, Nat.isValidChar] at hv
  rcases encode_cases c with ⟨h1, b0, he, h2⟩ | ⟨h1, h1', b0, b1, he, h2, h3⟩ |
    ⟨h1, h1', b0, b1, b2, he, h2, h3, h4⟩ | ⟨h1, h1', b0, b1, b2, b3, he, h2, h3, h4, h5⟩
  · rw [he]
    simp only [Utf8.decodeRune, List.cons_append, List.nil_append, h2, if_pos h1]
    simp
  · rw [he]
    simp only [Utf8.decodeRune, List.cons_append, List.nil_append, h2, h3]
    rw [if_neg (by omega), Utf8.first_two (by omega) (by omega)]
    simp only [List.length_cons]
    rw [if_neg (by omega), if_neg (by omega), if_pos (by omega)]
    refine Prod.ext ?_ rfl
    show _ = _
    dsimp only
    omega
  · rw [he]
    simp only [Utf8.decodeRune, List.cons_append, List.nil_append, h2, h3, h4]
    rw [if_neg (by omega)]
    have hf : ∃ lo hi, Utf8.first (0xE0 + c.val.toNat / 4096) = some (3, lo, hi)
        ∧ lo ≤ 0x80 + c.val.toNat / 64 % 64 ∧ 0x80 + c.val.toNat / 64 % 64 ≤ hi := by
      generalize c.val.toNat = v at *
      unfold Utf8.first
      rw [if_neg (by omega), if_neg (by omega)]
      repeat' split
      all_goals first
        | exact ⟨_, _, rfl, by omega, by omega⟩
        | omega
    obtain ⟨lo, hi, hf, hlo, hhi⟩ := hf
    simp only [hf, List.length_cons]
    rw [if_neg (by omega), if_neg (by omega), if_neg (by omega), if_neg (by omega), if_pos (by omega)]
    refine Prod.ext ?_ rfl
    show _ = _
    dsimp only
    omega
  · rw [he]
    simp only [Utf8.decodeRune, List.cons_append, List.nil_append, h2, h3, h4, h5]
    rw [if_neg (by omega)]
    have hf : ∃ lo hi, Utf8.first (0xF0 + c.val.toNat / 262144) = some (4, lo, hi)
        ∧ lo ≤ 0x80 + c.val.toNat / 4096 % 64 ∧ 0x80 + c.val.toNat / 4096 % 64 ≤ hi := by
      generalize c.val.toNat = v at *
      unfold Utf8.first
      rw [if_neg (by omega), if_neg (by omega), if_neg (by omega), if_neg (by omega),
        if_neg (by omega), if_neg (by omega)]
      repeat' split
      all_goals first
        | exact ⟨_, _, rfl, by omega, by omega⟩
        | omega
    obtain ⟨lo, hi, hf, hlo, hhi⟩ := hf
    simp only [hf, List.length_cons]
    rw [if_neg (by omega), if_neg (by omega), if_neg (by omega), if_neg (by omega), if_neg (by omega),
      if_neg (by omega)]
    refine Prod.ext ?_ rfl
    show _ = _
    dsimp only
    omega

theorem utf8_nil : utf8 [] = [] := rfl
theorem utf8_cons (c : Char) (s : List Char) : utf8 (c :: s) = String.utf8EncodeChar c ++ utf8 s := by
  simp [utf8]
theorem utf8_append (s t : List Char) : utf8 (s ++ t) = utf8 s ++ utf8 t := by simp [utf8]

end Uax29
