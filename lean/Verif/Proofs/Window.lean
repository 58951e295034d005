import Verif.Proofs.CostLower
/-! # How many bytes a split function needs to see -/
namespace Uax29
open Spec

theorem lookupAt_short {T : Trie} {d : Bytes} {p v : Nat} (h : T.lookupAt d p = .ok (v, 0)) : d.length ≤ p + 3 := by
  have hp := lookupAt_pos_lt h
  rw [lookupAt_eq (by omega)] at h
  have h1 : (d.drop p).length ≤ 3 := by
    generalize d.drop p = d at h
    cases d with
    | nil => exact absurd h lookup_nil
    | cons b rest =>
      have h1 := announced_le b
      have hw := lookup_width h
      rw [List.length_cons]
      by_cases h2 : rest.length + 1 < announced b
      · omega
      · rw [if_neg h2] at hw
        simp only [pieceLength] at hw
        omega
  simp only [List.length_drop] at h1
  omega

/-- Characters with the property `P` from position `p` to position `E`. -/
inductive CharRun (T : Trie) (P : Nat → Prop) (d : Bytes) : Nat → Nat → Prop
  | nil {p} : p ≤ d.length → CharRun T P d p p
  | cons {p v w E} : T.lookupAt d p = .ok (v, w) → w ≠ 0 → P v → CharRun T P d (p + w) E → CharRun T P d p E

theorem CharRun.le {T : Trie} {P : Nat → Prop} {d : Bytes} {p E : Nat} (h : CharRun T P d p E) : p ≤ E ∧ E ≤ d.length := by
  induction h with
  | nil h => exact ⟨Nat.le_refl _, h⟩
  | cons _ _ _ _ ih => omega

theorem CharRun.append {T : Trie} {P : Nat → Prop} {d : Bytes} {p E : Nat} (h : CharRun T P d p E) (e : Bytes) :
    CharRun T P (d ++ e) p E := by
  induction h with
  | nil h => exact .nil (by rw [List.length_append]; omega)
  | cons h1 h2 h3 _ ih => exact .cons (lookupAt_append h1 h2 e) h2 h3 ih

theorem CharRun.drop {T : Trie} {P : Nat → Prop} {d : Bytes} {q E : Nat} (h : CharRun T P d q E) :
    ∀ {k p : Nat}, q = k + p → CharRun T P (d.drop k) p (E - k) := by
  induction h with
  | @nil q h =>
    rintro k p rfl
    have : k + p - k = p := by omega
    rw [this]
    exact .nil (by rw [List.length_drop]; omega)
  | @cons q v w E h1 h2 h3 _ ih =>
    rintro k p rfl
    have := lookupAt_pos_lt h1
    exact .cons (by rw [lookupAt_drop (by omega)]; exact h1) h2 h3 (ih (by omega))

theorem Trie.Wf.lookupAt_le {T : Trie} (hT : T.Wf) {d : Bytes} {p v w : Nat} (h : T.lookupAt d p = .ok (v, w)) :
    p + w ≤ d.length := by
  obtain ⟨v', w', h1, h2, _⟩ := hT.lookupAt_ok (lookupAt_pos_lt h)
  rw [h1] at h
  cases h
  exact h2

/-- What follows from `more`: characters that are ignored, nearly to the end. -/
theorem subsequentLoop_more {T : Trie} (hT : T.Wf) (ignore props : Nat) (data : Bytes) : ∀ fuel i a, i ≤ data.length →
    subsequentLoop T ignore props data false fuel i = .ok (a, true) →
    ∃ E, CharRun T (fun v => is v ignore = true) data i E ∧ data.length ≤ E + 3 := by
  intro fuel
  induction fuel with
  | zero => intro i a _ h; simp [subsequentLoop] at h
  | succ fuel ih =>
    intro i a hi h
    simp only [subsequentLoop] at h
    split at h
    · rename_i hlt
      split at h
      · cases h
      · rename_i v w hv
        split at h
        · rename_i hw
          subst hw
          exact ⟨i, .nil hi, lookupAt_short hv⟩
        · rename_i hw
          split at h
          · rename_i hig
            obtain ⟨E, h1, h2⟩ := ih (i + w) a (hT.lookupAt_le hv) h
            exact ⟨E, .cons hv hw hig h1, h2⟩
          · split at h <;> simp at h
    · exact ⟨i, .nil hi, by omega⟩

theorem CharRun.undrop {T : Trie} {P : Nat → Prop} {d : Bytes} {k p E : Nat} (hk : k ≤ d.length) (h : CharRun T P (d.drop k) p E) :
    CharRun T P d (k + p) (k + E) := by
  induction h with
  | nil h => exact .nil (by rw [List.length_drop] at h; omega)
  | cons h1 h2 h3 _ ih =>
    have := lookupAt_pos_lt h1
    rw [List.length_drop] at this
    rw [lookupAt_drop (by omega)] at h1
    exact .cons h1 h2 h3 (by rw [Nat.add_assoc]; exact ih)

theorem subsequentFrom_more {T : Trie} (hT : T.Wf) {ignore props : Nat} {data : Bytes} {i : Nat} {a : Int}
    (hi : i ≤ data.length) (h : subsequentFrom T ignore props data i false = .ok (a, true)) :
    ∃ E, CharRun T (fun v => is v ignore = true) data i E ∧ data.length ≤ E + 3 := by
  simp only [subsequentFrom, sliceFrom_ok hi, subsequent] at h
  obtain ⟨E, h1, h2⟩ := subsequentLoop_more hT _ _ _ _ 0 a (Nat.zero_le _) h
  refine ⟨i + E, h1.undrop hi, ?_⟩
  rw [List.length_drop] at h2
  omega

/-- What is found lies behind what is ignored. -/
theorem CharRun.subsequentLoop {T : Trie} (hT : T.Wf) {ignore props : Nat} {data : Bytes} {i E : Nat}
    (h : CharRun T (fun v => is v ignore = true) data i E) {eof m : Bool} {a : Int} : ∀ {fuel : Nat}, data.length < fuel + i →
    subsequentLoop T ignore props data eof fuel i = .ok (a, m) → a = notfound ∨ (E : Int) ≤ a := by
  induction h with
  | @nil p h =>
    intro fuel hf h'
    obtain ⟨a', m', h1, _, h2⟩ := subsequentLoop_ok hT ignore props data eof fuel p h hf
    rw [h1] at h'
    cases h'
    rcases h2 with h2 | ⟨j, h2, h3, _⟩
    · exact .inl h2
    · exact .inr (by rw [h2, Int.ofNat_eq_natCast]; omega)
  | @cons p v w E h1 h2 h3 _ ih =>
    intro fuel hf h
    cases fuel with
    | zero => simp [Uax29.subsequentLoop] at h
    | succ fuel =>
      simp only [Uax29.subsequentLoop, if_pos (lookupAt_pos_lt h1), h1, if_neg h2, if_pos h3] at h
      exact ih (by omega) h

theorem CharRun.subsequentFrom {T : Trie} (hT : T.Wf) {ignore props : Nat} {data : Bytes} {i E : Nat}
    (h : CharRun T (fun v => is v ignore = true) data i E) {eof m : Bool} {a : Int}
    (hs : subsequentFrom T ignore props data i eof = .ok (a, m)) : a = notfound ∨ E ≤ i + a.toNat := by
  have hle := h.le
  simp only [Uax29.subsequentFrom, sliceFrom_ok (Nat.le_trans hle.1 hle.2), subsequent] at hs
  rcases (h.drop (k := i) (p := 0) (by omega)).subsequentLoop hT (by omega) hs with h | h
  · exact .inl h
  · exact .inr (by omega)

/-! ## Loops -/

/-- A loop over the first bytes that asks for more, and the loop over all bytes. -/
theorem runLoop_more {σ : Type} {body body' : σ → Step σ} (h : ∀ s, Step.Stable (body s) (body' s)) {inv : σ → Prop}
    (hinv : ∀ s s', inv s → body s = .cont s' → inv s') {p : Nat} : ∀ f f' s, inv s → runLoop body f s = .more →
    runLoop body' f' s = .brk p → ∃ s' f'', inv s' ∧ body s' = .more ∧ runLoop body' f'' s' = .brk p := by
  intro f
  induction f with
  | zero => intro f' s _ h; simp [runLoop] at h
  | succ f ih =>
    intro f' s hi h1 h2
    simp only [runLoop] at h1
    cases hb : body s with
    | cont s' =>
      rw [hb] at h1
      cases f' with
      | zero => simp [runLoop] at h2
      | succ f' =>
        rw [runLoop, (h s).1 s' hb] at h2
        exact ih f' s' (hinv s s' hi hb) h1 h2
    | brk q => rw [hb] at h1; cases h1
    | more => exact ⟨s, f', hi, hb, h2⟩
    | fault g => rw [hb] at h1; cases h1

/-- A loop that goes forward. -/
theorem runLoop_ge {σ : Type} {body : σ → Step σ} {pos : σ → Nat} {inv : σ → Prop}
    (hc : ∀ s s', inv s → body s = .cont s' → inv s' ∧ pos s ≤ pos s') (hb : ∀ s p, inv s → body s = .brk p → pos s ≤ p) {p : Nat} :
    ∀ f s, inv s → runLoop body f s = .brk p → pos s ≤ p := by
  intro f
  induction f with
  | zero => intro s _ h; simp [runLoop] at h
  | succ f ih =>
    intro s hi h
    simp only [runLoop] at h
    cases hs : body s with
    | cont s' =>
      rw [hs] at h
      have h1 := hc s s' hi hs
      have := ih s' h1.1 h
      omega
    | brk q => rw [hs] at h; cases h; exact hb s _ hi hs
    | more => rw [hs] at h; cases h
    | fault g => rw [hs] at h; cases h

/-- A loop that passes the characters of a chain. -/
theorem CharRun.run {T : Trie} {P : Nat → Prop} {d : Bytes} {q E : Nat} (h : CharRun T P d q E) {σ : Type} {body : σ → Step σ}
    {pos : σ → Nat} {ctx inv : σ → Prop}
    (hstep : ∀ s v w, ctx s → T.lookupAt d (pos s) = .ok (v, w) → w ≠ 0 → P v → ∃ s', body s = .cont s' ∧ ctx s' ∧ pos s' = pos s + w)
    (hinv : ∀ s, ctx s → pos s ≤ d.length → inv s)
    (hc : ∀ s s', inv s → body s = .cont s' → inv s' ∧ pos s ≤ pos s') (hb : ∀ s p, inv s → body s = .brk p → pos s ≤ p) {p : Nat} :
    ∀ f s, pos s = q → ctx s → runLoop body f s = .brk p → E ≤ p := by
  induction h with
  | nil h =>
    rintro f s rfl hs hr
    exact runLoop_ge hc hb f s (hinv s hs h) hr
  | cons h1 h2 h3 _ ih =>
    rintro f s rfl hs hr
    obtain ⟨s', h4, h5, h6⟩ := hstep s _ _ hs h1 h2 h3
    cases f with
    | zero => simp [runLoop] at hr
    | succ f =>
      rw [runLoop, h4] at hr
      exact ih f s' h6 h5 hr

/-! ## Split functions -/

/-- What the loop of a split function does with the first bytes and with all bytes. -/
theorem splitWith_more {σ : Type} {T : Trie} (init : Bytes → Nat → Nat → Res σ) (body : Bytes → Bool → σ → Step σ)
    (hinit : ∀ data e v w, T.lookupAt data 0 = .ok (v, w) → w ≠ 0 → init (data ++ e) v w = init data v w)
    (hbody : ∀ data e eof s, Step.Stable (body data false s) (body (data ++ e) eof s))
    {split : SplitFn} (hsplit : split = fun data eof =>
      (if data.length = 0 then .ok .requestMore
       else match T.lookupAt data 0 with
        | .error f => .error f
        | .ok (v, w) =>
          if w = 0 then
            if !eof then .ok .requestMore else finish data (.brk data.length)
          else match init data v w with
            | .error f => .error f
            | .ok s => finish data (runLoop (body data eof) (loopFuel data) s)))
    (hgood : ∀ d eof, GoodSplit d eof (split d eof)) (inv : Bytes → σ → Prop)
    (hinv0 : ∀ data v w s, T.lookupAt data 0 = .ok (v, w) → w ≠ 0 → init data v w = .ok s → inv data s)
    (hinv : ∀ data s s', inv data s → body data false s = .cont s' → inv data s') (C : Bytes → Bytes → Nat → Prop)
    (h0 : ∀ data e p, data.length ≤ p + 3 → C data e p)
    (hmore : ∀ data e s f p, inv data s → body data false s = .more → runLoop (body (data ++ e) true) f s = .brk p → C data e p)
    (data e : Bytes) (h : split data false = .ok .requestMore) : C data e (splitAdv split (data ++ e)) := by
  by_cases hd : data = []
  · exact h0 _ _ _ (by simp [hd])
  have hl0 : data.length ≠ 0 := fun h => hd (List.length_eq_zero_iff.mp h)
  have hl1 : (data ++ e).length ≠ 0 := by rw [List.length_append]; omega
  have h1 := h
  have h2 := hgood (data ++ e) true
  rw [hsplit] at h1
  simp only [if_neg hl0] at h1
  cases hl : T.lookupAt data 0 with
  | error f => rw [hl] at h1; cases h1
  | ok r =>
    obtain ⟨v, w⟩ := r
    simp only [hl] at h1
    by_cases hw : w = 0
    · subst hw
      have := lookupAt_short hl
      exact h0 _ _ _ (by omega)
    · rw [if_neg hw] at h1
      cases hi : init data v w with
      | error f => rw [hi] at h1; cases h1
      | ok s =>
        simp only [hi] at h1
        have hr : runLoop (body data false) (loopFuel data) s = .more := by
          cases hr : runLoop (body data false) (loopFuel data) s with
          | more => rfl
          | fault f => rw [hr] at h1; cases h1
          | brk p =>
            rw [hr, finish] at h1
            split at h1
            · cases h1
            · cases h1
        rcases h2 with ⟨_, h2⟩ | ⟨k, hk1, hk2, h3⟩
        · rcases h2 with h2 | h2
          · exact absurd h2 (by simp [hd])
          · cases h2
        · have hk : splitAdv split (data ++ e) = k := by simp [splitAdv, h3]
          rw [hsplit] at h3
          simp only [if_neg hl1, lookupAt_append hl hw e, if_neg hw, hinit data e v w hl hw, hi] at h3
          obtain ⟨p, hp, hpk, _, _⟩ := finish_brk h3
          have hpk : k = p := by exact_mod_cast hpk
          subst hpk
          obtain ⟨s', f'', h4, h5, h6⟩ := runLoop_more (fun s => hbody data e true s) (hinv data) _ _ s (hinv0 _ _ _ _ hl hw hi) hr hp
          rw [hk]
          exact hmore data e s' f'' k h4 h5 h6

end Uax29
