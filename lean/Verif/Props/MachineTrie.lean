import Verif.Model.MachineTrie
import Verif.Proofs.GenShipped
import Verif.Model.Words
import Verif.Model.Phrases
import Verif.Model.Sentences
import Verif.Model.Graphemes
/-! # Property C65: the integers of the lookup are wide enough -/
namespace Uax29
open Spec

/-- The entries of the tables have at most `w` bits, those of the index at most 16. -/
structure FitsW (w : Nat) (T : Trie) : Prop where
  values : ∀ v ∈ T.values.flatten, v < 2 ^ w
  index : ∀ v ∈ T.index.flatten, v < 2 ^ w
  small : ∀ v ∈ T.index.flatten, v < 65536

theorem tableAt_mem {table : List (List Nat)} {o v : Nat} (h : tableAt table o = .ok v) : v ∈ table.flatten := by
  unfold tableAt at h
  split at h
  · cases h
  · rename_i b hb
    split at h
    · cases h
    · rename_i v' hv
      cases h
      exact List.mem_flatten.mpr ⟨b, List.mem_of_getElem? hb, List.mem_of_getElem? hv⟩

theorem offset_eq {w i : Nat} (h : i < 2 ^ w) (h' : i < 65536) (c : UInt8) :
    ((toUInt32 (BitVec.ofNat w i) <<< 6) + c.toUInt32).toNat = i * 64 + c.toNat := by
  have hi : (toUInt32 (BitVec.ofNat w i)).toNat = i := by
    show ((BitVec.ofNat w i).setWidth 32).toNat = i
    rw [BitVec.toNat_setWidth, BitVec.toNat_ofNat, Nat.mod_eq_of_lt h, Nat.mod_eq_of_lt (by omega)]
  have hc : c.toNat < 256 := c.toNat_lt
  rw [UInt32.toNat_add, UInt32.toNat_shiftLeft, hi, UInt8.toNat_toUInt32, Nat.shiftLeft_eq]
  show (i * 64 % 4294967296 + c.toNat) % 4294967296 = _
  omega

theorem cont_eq (c : UInt8) : (decide (c < 0x80) || decide (0xC0 ≤ c)) = notCont c.toNat := rfl

theorem byte_index (c : UInt8) : c.toUInt32.toNat = c.toNat := UInt8.toNat_toUInt32 c

theorem lookupW_eq {w : Nat} {T : Trie} (h : FitsW w T) (s : Bytes) :
    T.lookupW w s = (T.lookup s).map fun r => (BitVec.ofNat w r.1, r.2) := by
  have entry0 : ∀ (table : List (List Nat)) (c : UInt8), entryAt w table c.toUInt32
      = (tableAt table c.toNat).map (BitVec.ofNat w) := by
    intro table c
    rw [entryAt, byte_index]
    cases tableAt table c.toNat <;> rfl
  have entry : ∀ {o i : Nat} (table : List (List Nat)) (c : UInt8), tableAt T.index o = .ok i →
      entryAt w table ((toUInt32 (BitVec.ofNat w i) <<< 6) + c.toUInt32)
      = (tableAt table (i * 64 + c.toNat)).map (BitVec.ofNat w) := by
    intro o i table c hi
    rw [entryAt, offset_eq (h.index i (tableAt_mem hi)) (h.small i (tableAt_mem hi))]
    cases tableAt table (i * 64 + c.toNat) <;> rfl
  have value : ∀ {o i : Nat} (c : UInt8), tableAt T.index o = .ok i →
      T.lookupValueW w (toUInt32 (BitVec.ofNat w i)) c
      = (T.lookupValue i c.toNat).map (BitVec.ofNat w) :=
    fun c hi => entry T.values c hi
  cases s with
  | nil => rfl
  | cons c0 t0 =>
    unfold Trie.lookupW Trie.lookup
    simp only [entry0]
    by_cases h0 : c0 < 0x80
    · rw [if_pos h0, if_pos (show c0.toNat < 0x80 from h0)]
      cases tableAt T.values c0.toNat <;> rfl
    rw [if_neg h0, if_neg (show ¬ c0.toNat < 0x80 from h0)]
    by_cases h1 : c0 < 0xC2
    · rw [if_pos h1, if_pos (show c0.toNat < 0xC2 from h1)]
      rfl
    rw [if_neg h1, if_neg (show ¬ c0.toNat < 0xC2 from h1)]
    by_cases h2 : c0 < 0xE0
    · rw [if_pos h2, if_pos (show c0.toNat < 0xE0 from h2)]
      cases t0 with
      | nil => rfl
      | cons c1 t1 =>
        cases hi : tableAt T.index c0.toNat with
        | error f => rfl
        | ok i =>
          simp only [Except.map]
          by_cases nc1 : notCont c1.toNat = true
          · rw [cont_eq c1, if_pos nc1, if_pos nc1]; rfl
          · rw [cont_eq c1, if_neg nc1, if_neg nc1]
            rw [value c1 hi]
            cases T.lookupValue i c1.toNat <;> rfl
    rw [if_neg h2, if_neg (show ¬ c0.toNat < 0xE0 from h2)]
    by_cases h3 : c0 < 0xF0
    · rw [if_pos h3, if_pos (show c0.toNat < 0xF0 from h3)]
      match t0 with
      | [] => rfl
      | [_] => rfl
      | c1 :: c2 :: t2 =>
        cases hi : tableAt T.index c0.toNat with
        | error f => rfl
        | ok i =>
          simp only [Except.map]
          by_cases nc1 : notCont c1.toNat = true
          · rw [cont_eq c1, if_pos nc1, if_pos nc1]; rfl
          · rw [cont_eq c1, if_neg nc1, if_neg nc1]
            rw [entry T.index c1 hi]
            cases hj : tableAt T.index (i * 64 + c1.toNat) with
            | error f => rfl
            | ok j =>
              simp only [Except.map]
              by_cases nc2 : notCont c2.toNat = true
              · rw [cont_eq c2, if_pos nc2, if_pos nc2]; rfl
              · rw [cont_eq c2, if_neg nc2, if_neg nc2]
                rw [value c2 hj]
                cases T.lookupValue j c2.toNat <;> rfl
    rw [if_neg h3, if_neg (show ¬ c0.toNat < 0xF0 from h3)]
    by_cases h4 : c0 < 0xF8
    · rw [if_pos h4, if_pos (show c0.toNat < 0xF8 from h4)]
      match t0 with
      | [] => rfl
      | [_] => rfl
      | [_, _] => rfl
      | c1 :: c2 :: c3 :: t2 =>
        cases hi : tableAt T.index c0.toNat with
        | error f => rfl
        | ok i =>
          simp only [Except.map]
          by_cases nc1 : notCont c1.toNat = true
          · rw [cont_eq c1, if_pos nc1, if_pos nc1]; rfl
          · rw [cont_eq c1, if_neg nc1, if_neg nc1]
            rw [entry T.index c1 hi]
            cases hj : tableAt T.index (i * 64 + c1.toNat) with
            | error f => rfl
            | ok j =>
              simp only [Except.map]
              by_cases nc2 : notCont c2.toNat = true
              · rw [cont_eq c2, if_pos nc2, if_pos nc2]; rfl
              · rw [cont_eq c2, if_neg nc2, if_neg nc2]
                rw [entry T.index c2 hj]
                cases hk : tableAt T.index (j * 64 + c2.toNat) with
                | error f => rfl
                | ok k =>
                  simp only [Except.map]
                  by_cases nc3 : notCont c3.toNat = true
                  · rw [cont_eq c3, if_pos nc3, if_pos nc3]; rfl
                  · rw [cont_eq c3, if_neg nc3, if_neg nc3]
                    rw [value c3 hk]
                    cases T.lookupValue k c3.toNat <;> rfl
    rw [if_neg h4, if_neg (show ¬ c0.toNat < 0xF8 from h4)]
    rfl

theorem lookup_lt {w : Nat} {T : Trie} (h : FitsW w T) {s : Bytes} {v n : Nat} (e : T.lookup s = .ok (v, n)) : v < 2 ^ w := by
  have hv : ∀ {o u : Nat}, tableAt T.values o = .ok u → u < 2 ^ w := fun e => h.values _ (tableAt_mem e)
  have h0 : 0 < 2 ^ w := Nat.two_pow_pos w
  cases s with
  | nil => cases e
  | cons c0 t0 =>
    simp only [Trie.lookup, Trie.lookupValue] at e
    repeat' split at e
    all_goals first
      | (cases e; done)
      | (cases e; exact h0)
      | (cases e; exact hv (by assumption))

/-- **C65** Looking up with the integers of Go, in the width of `property`, gives what looking up with natural numbers
gives, on all texts. -/
theorem C65_lookup (w : Nat) (T : Trie)
    (h : (w, T) ∈ [(32, Graphemes.trie), (32, Words.trie), (32, Phrases.trie), (16, Sentences.trie)]) (s : Bytes) :
    (T.lookupW w s).map (fun r => (r.1.toNat, r.2)) = T.lookup s := by
  have hf : FitsW w T := by
    simp only [List.mem_cons, Prod.mk.injEq, List.not_mem_nil, or_false] at h
    rcases h with ⟨rfl, rfl⟩ | ⟨rfl, rfl⟩ | ⟨rfl, rfl⟩ | ⟨rfl, rfl⟩ <;>
      exact ⟨Gen.flatten_lt (by decide +kernel), Gen.flatten_lt (by decide +kernel), Gen.flatten_lt (by decide +kernel)⟩
  rw [lookupW_eq hf]
  cases e : T.lookup s with
  | error f => rfl
  | ok r =>
    obtain ⟨v, n⟩ := r
    show Except.ok ((BitVec.ofNat w v).toNat, n) = _
    rw [BitVec.toNat_ofNat, Nat.mod_eq_of_lt (lookup_lt hf e)]

/-- C65, the test for properties. -/
theorem C65_is {w : Nat} (p q : BitVec w) : isW p q = is p.toNat q.toNat := by
  unfold isW is
  rw [← BitVec.toNat_and, Bool.eq_iff_iff]
  simp only [bne_iff_ne, ne_eq]
  exact not_congr ⟨fun h => by rw [h]; rfl, fun h => BitVec.eq_of_toNat_eq h⟩

/-- C65, and unions of properties. -/
theorem C65_or {w : Nat} (p q : BitVec w) : (p ||| q).toNat = p.toNat ||| q.toNat := BitVec.toNat_or ..

-- U+1F600: Extended_Pictographic, four bytes. With a `property` of 8 bits the index would wrap and the property be lost.
example : Words.trie.lookupW 32 (utf8 ['😀', 'a']) = .ok (BitVec.ofNat 32 Words._ExtendedPictographic, 4)
    ∧ Words.trie.lookupW 8 (utf8 ['😀', 'a']) = .ok (0, 4) ∧ Words._ExtendedPictographic < 2 ^ 8 := by decide +kernel
-- An incomplete encoding, and one with a letter in place of a continuation byte.
example : Sentences.trie.lookupW 16 [0xE3, 0x80] = .ok (0, 0) ∧ Sentences.trie.lookupW 16 [0xE3, 0x80, 0x61] = .ok (0, 2) := by
  decide +kernel

end Uax29
