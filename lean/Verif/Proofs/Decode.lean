import Verif.Proofs.Lookup
/-! # The rune of a chunk does not depend on what follows it -/
namespace Uax29

theorem Utf8.first_some {p sz lo hi : Nat} (h : Utf8.first p = some (sz, lo, hi)) :
    0x80 ≤ lo ∧ hi ≤ 0xBF ∧ 0xC2 ≤ p ∧ p < 0xF5 ∧ (sz = 2 ∧ p < 0xE0 ∨ sz = 3 ∧ 0xE0 ≤ p ∧ p < 0xF0 ∨ sz = 4 ∧ 0xF0 ≤ p) := by
  unfold Utf8.first at h
  repeat' split at h
  all_goals first | (cases h; done) | (simp only [Option.some.injEq, Prod.mk.injEq] at h; obtain ⟨rfl, rfl, rfl⟩ := h; omega)

/-- How many bytes at the start of `s` lookup takes as a unit: the first byte and as many continuation
bytes as it asks for. -/
theorem Trie.lookup_conts {T : Trie} {s : Bytes} {v w : Nat} (h : T.lookup s = .ok (v, w)) :
    w ≤ 4 ∧ ∀ b0 t, s = b0 :: t → 0xC2 ≤ b0.toNat → b0.toNat < 0xF8 → w ≠ 0 →
      w ≤ (if b0.toNat < 0xE0 then 2 else if b0.toNat < 0xF0 then 3 else 4)
      ∧ (w < (if b0.toNat < 0xE0 then 2 else if b0.toNat < 0xF0 then 3 else 4) →
        ∃ c, t[w - 1]? = some c ∧ notCont c.toNat = true) := by
  match s, h with
  | [], h => simp [Trie.lookup] at h
  | b0 :: t0, h =>
    simp only [Trie.lookup] at h
    split at h
    · split at h
      · cases h
      · cases h
        refine ⟨by omega, ?_⟩
        intro b t he; cases he; intros; omega
    split at h
    · cases h
      refine ⟨by omega, ?_⟩
      intro b t he; cases he; intros; omega
    split at h
    · rename_i hlt
      split at h
      · split at h
        · cases h
        · split at h
          · rename_i hc
            cases h
            refine ⟨by omega, ?_⟩
            intro b t he; cases he; intros
            rw [if_pos hlt]
            exact ⟨by omega, fun _ => ⟨_, rfl, hc⟩⟩
          · split at h
            · cases h
            · cases h
              refine ⟨by omega, ?_⟩
              intro b t he; cases he; intros
              rw [if_pos hlt]
              exact ⟨by omega, by omega⟩
      · cases h
        refine ⟨by omega, ?_⟩
        intro b t he; cases he; intros; omega
    split at h
    · rename_i hge hlt
      split at h
      · split at h
        · cases h
        · split at h
          · rename_i hc
            cases h
            refine ⟨by omega, ?_⟩
            intro b t he; cases he; intros
            rw [if_neg hge, if_pos hlt]
            exact ⟨by omega, fun _ => ⟨_, rfl, hc⟩⟩
          · split at h
            · cases h
            · split at h
              · rename_i hc
                cases h
                refine ⟨by omega, ?_⟩
                intro b t he; cases he; intros
                rw [if_neg hge, if_pos hlt]
                exact ⟨by omega, fun _ => ⟨_, rfl, hc⟩⟩
              · split at h
                · cases h
                · cases h
                  refine ⟨by omega, ?_⟩
                  intro b t he; cases he; intros
                  rw [if_neg hge, if_pos hlt]
                  exact ⟨by omega, by omega⟩
      · cases h
        refine ⟨by omega, ?_⟩
        intro b t he; cases he; intros; omega
    split at h
    · rename_i hge hge' hlt
      split at h
      · split at h
        · cases h
        · split at h
          · rename_i hc
            cases h
            refine ⟨by omega, ?_⟩
            intro b t he; cases he; intros
            rw [if_neg hge, if_neg hge']
            exact ⟨by omega, fun _ => ⟨_, rfl, hc⟩⟩
          · split at h
            · cases h
            · split at h
              · rename_i hc
                cases h
                refine ⟨by omega, ?_⟩
                intro b t he; cases he; intros
                rw [if_neg hge, if_neg hge']
                exact ⟨by omega, fun _ => ⟨_, rfl, hc⟩⟩
              · split at h
                · cases h
                · split at h
                  · rename_i hc
                    cases h
                    refine ⟨by omega, ?_⟩
                    intro b t he; cases he; intros
                    rw [if_neg hge, if_neg hge']
                    exact ⟨by omega, fun _ => ⟨_, rfl, hc⟩⟩
                  · split at h
                    · cases h
                    · cases h
                      refine ⟨by omega, ?_⟩
                      intro b t he; cases he; intros
                      rw [if_neg hge, if_neg hge']
                      exact ⟨by omega, by omega⟩
      · cases h
        refine ⟨by omega, ?_⟩
        intro b t he; cases he; intros; omega
    · cases h
      refine ⟨by omega, ?_⟩
      intro b t he; cases he; intros; omega

theorem notCont_iff {c : Nat} : notCont c = true ↔ c < 0x80 ∨ 0xBF < c := by
  simp [notCont]; omega

open Utf8 in
/-- The rune at a chunk is that of the bytes of the chunk. -/
theorem Trie.decodeRune_chunk {T : Trie} {bs d : Bytes} {v : Nat} (h : T.lookup (bs ++ d) = .ok (v, bs.length))
    (hne : bs ≠ []) : (decodeRune (bs ++ d)).1 = (decodeRune bs).1 := by
  obtain ⟨h4, hc⟩ := T.lookup_conts h
  obtain ⟨b0, t0, rfl⟩ := List.exists_cons_of_ne_nil hne
  have hc := hc b0 (t0 ++ d) rfl
  simp only [List.cons_append, decodeRune]
  split
  · rfl
  cases hf : Utf8.first b0.toNat with
  | none => rfl
  | some r =>
    obtain ⟨sz, lo, hi⟩ := r
    obtain ⟨f1, f2, f3, f4, f5⟩ := Utf8.first_some hf
    have hc := hc f3 (by omega) (by simp)
    have hsz : (if b0.toNat < 0xE0 then 2 else if b0.toNat < 0xF0 then 3 else 4) = sz := by
      rcases f5 with ⟨rfl, h⟩ | ⟨rfl, h, h'⟩ | ⟨rfl, h⟩
      · rw [if_pos h]
      · rw [if_neg (by omega), if_pos h']
      · rw [if_neg (by omega), if_neg (by omega)]
    rw [hsz] at hc
    obtain ⟨hc1, hc2⟩ := hc
    simp only [List.length_cons] at hc1 hc2
    have hsz4 : 2 ≤ sz ∧ sz ≤ 4 := by omega
    match t0 with
    | [] =>
      obtain ⟨c, hg, hn⟩ := hc2 (by simp; omega)
      rw [notCont_iff] at hn
      cases d with
      | nil => rfl
      | cons b1 d =>
        simp at hg; subst hg
        have : b1.toNat < lo ∨ hi < b1.toNat := by omega
        simp only [List.nil_append, if_pos this]
        simp
    | [b1] =>
      by_cases h3 : sz = 2
      · subst h3
        simp; (repeat' split) <;> first | rfl | (exfalso; omega)
      · obtain ⟨c, hg, hn⟩ := hc2 (by simp; omega)
        rw [notCont_iff] at hn
        cases d with
        | nil => rfl
        | cons b2 d =>
          simp at hg; subst hg
          simp [hn]
          (repeat' split) <;> first | rfl | (exfalso; omega)
    | [b1, b2] =>
      by_cases h3 : sz = 2 ∨ sz = 3
      · simp; (repeat' split) <;> first | rfl | (exfalso; omega)
      · obtain ⟨c, hg, hn⟩ := hc2 (by simp; omega)
        rw [notCont_iff] at hn
        cases d with
        | nil => rfl
        | cons b3 d =>
          simp at hg; subst hg
          simp [hn]
          (repeat' split) <;> first | rfl | (exfalso; omega)
    | b1 :: b2 :: b3 :: t =>
      have e1 : ¬ (b0 :: (b1 :: b2 :: b3 :: t ++ d)).length < sz := by simp; omega
      have e2 : ¬ (b0 :: b1 :: b2 :: b3 :: t).length < sz := by simp; omega
      simp only [if_neg e1, if_neg e2]
      rfl

end Uax29
