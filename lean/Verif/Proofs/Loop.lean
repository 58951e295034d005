import Verif.Proofs.Lookup
/-! # Generic facts about slices, loops and `subsequent` -/
namespace Uax29

theorem sliceFrom_ok {data : Bytes} {i : Nat} (h : i ≤ data.length) :
    sliceFrom data i = .ok (data.drop i) := by simp [sliceFrom, h]

theorem sliceTo_ok {data : Bytes} {i : Nat} (h : i ≤ data.length) :
    sliceTo data i = .ok (data.take i) := by simp [sliceTo, h]

theorem lookupAt_eq {T : Trie} {data : Bytes} {pos : Nat} (h : pos ≤ data.length) :
    T.lookupAt data pos = T.lookup (data.drop pos) := by
  simp [Trie.lookupAt, sliceFrom_ok h]

theorem Trie.Wf.lookupAt_ok {T : Trie} (hT : T.Wf) {data : Bytes} {pos : Nat}
    (h : pos < data.length) :
    ∃ v w, T.lookupAt data pos = .ok (v, w) ∧ pos + w ≤ data.length ∧ w ≤ 4 ∧ T.IsValue v := by
  rw [lookupAt_eq (Nat.le_of_lt h)]
  have hne : data.drop pos ≠ [] := by simp; omega
  obtain ⟨v, w, h1, h2, h3, h4⟩ := hT.lookup_ok hne
  refine ⟨v, w, h1, ?_, h3, h4⟩
  simp at h2; omega

theorem lookupAt_pos_lt {T : Trie} {data : Bytes} {pos : Nat} {r : Nat × Nat}
    (h : T.lookupAt data pos = .ok r) : pos < data.length := by
  simp only [Trie.lookupAt, sliceFrom] at h
  split at h
  · cases h
  · rename_i s hs
    split at hs
    · cases hs
      rename_i hle
      rcases Nat.lt_or_ge pos data.length with h' | h'
      · exact h'
      · rw [List.drop_of_length_le h'] at h
        simp [Trie.lookup] at h
    · cases hs

theorem lookupAt_append {T : Trie} {data : Bytes} {pos v w : Nat}
    (h : T.lookupAt data pos = .ok (v, w)) (hw : w ≠ 0) (e : Bytes) :
    T.lookupAt (data ++ e) pos = .ok (v, w) := by
  have hp := lookupAt_pos_lt h
  rw [lookupAt_eq (by omega)] at h
  rw [lookupAt_eq (by simp; omega), List.drop_append_of_le_length (by omega)]
  exact Trie.lookup_append h hw e

theorem lookupAt_drop {T : Trie} {data : Bytes} {k pos : Nat} (h : k + pos ≤ data.length) :
    T.lookupAt (data.drop k) pos = T.lookupAt data (k + pos) := by
  rw [lookupAt_eq h, lookupAt_eq (by simp; omega), List.drop_drop]

/-- What `subsequent` returns. -/
theorem subsequentLoop_ok {T : Trie} (hT : T.Wf) (ignore props : Nat) (data : Bytes) (eof : Bool) :
    ∀ fuel i, i ≤ data.length → data.length < fuel + i →
    ∃ a m, subsequentLoop T ignore props data eof fuel i = .ok (a, m) ∧
      (m = true → eof = false) ∧ (a = notfound ∨ ∃ j, a = Int.ofNat j ∧ i ≤ j ∧ j < data.length ∧
        ∃ v w, T.lookupAt data j = .ok (v, w) ∧ w ≠ 0 ∧ is v ignore = false ∧ is v props = true) := by
  intro fuel
  induction fuel with
  | zero => intro i h1 h2; omega
  | succ fuel ih =>
    intro i h1 h2
    simp only [subsequentLoop]
    split
    · rename_i hlt
      obtain ⟨v, w, hv, hw, _, _⟩ := hT.lookupAt_ok hlt
      simp only [hv]
      split
      · cases eof
        · exact ⟨notfound, true, by simp, by simp, .inl rfl⟩
        · exact ⟨notfound, false, by simp, by simp, .inl rfl⟩
      · split
        · obtain ⟨a, m, h3, h4, h5⟩ := ih (i + w) hw (by omega)
          refine ⟨a, m, h3, h4, ?_⟩
          rcases h5 with h5 | ⟨j, hj, h6, h7⟩
          · exact .inl h5
          · exact .inr ⟨j, hj, by omega, h7⟩
        · split
          · rename_i hw0 hign hp
            exact ⟨Int.ofNat i, false, rfl, by simp,
              .inr ⟨i, rfl, by omega, hlt, v, w, hv, hw0, by simpa using hign, hp⟩⟩
          · exact ⟨notfound, false, rfl, by simp, .inl rfl⟩
    · cases eof
      · exact ⟨notfound, true, by simp, by simp, .inl rfl⟩
      · exact ⟨notfound, false, by simp, by simp, .inl rfl⟩

theorem subsequentFrom_ok {T : Trie} (hT : T.Wf) (ignore props : Nat) {data : Bytes} {i : Nat}
    (hi : i ≤ data.length) (eof : Bool) :
    ∃ a m, subsequentFrom T ignore props data i eof = .ok (a, m) ∧
      (m = true → eof = false) ∧ (a = notfound ∨ ∃ j, a = Int.ofNat j ∧ i + j < data.length ∧
        ∃ v w, T.lookupAt data (i + j) = .ok (v, w) ∧ w ≠ 0 ∧ is v ignore = false ∧ is v props = true) := by
  simp only [subsequentFrom, sliceFrom_ok hi, subsequent]
  obtain ⟨a, m, h1, h2, h3⟩ := subsequentLoop_ok hT ignore props (data.drop i) eof
    ((data.drop i).length + 1) 0 (by simp) (by omega)
  refine ⟨a, m, h1, h2, ?_⟩
  rcases h3 with h3 | ⟨j, hj, _, h4, v, w, h5, h6⟩
  · exact .inl h3
  · simp at h4
    rw [lookupAt_drop (by omega)] at h5
    exact .inr ⟨j, hj, by omega, v, w, h5, h6⟩

/-- Appending bytes does not change a result of `subsequent` that does not ask for more. -/
theorem subsequentLoop_append {T : Trie} (ignore props : Nat) (data e : Bytes) (eof : Bool) :
    ∀ fuel fuel' i a, fuel ≤ fuel' →
    subsequentLoop T ignore props data false fuel i = .ok (a, false) →
    subsequentLoop T ignore props (data ++ e) eof fuel' i = .ok (a, false) := by
  intro fuel
  induction fuel with
  | zero => intro fuel' i a _ h; simp [subsequentLoop] at h
  | succ fuel ih =>
    intro fuel' i a hf h
    obtain ⟨fuel', rfl⟩ : ∃ n, fuel' = n + 1 := ⟨fuel' - 1, by omega⟩
    simp only [subsequentLoop] at h ⊢
    split at h
    · rename_i hlt
      rw [if_pos (by simp; omega)]
      split at h
      · cases h
      · rename_i v w hv
        split at h
        · simp at h
        · rename_i hw
          simp only [lookupAt_append hv hw e, if_neg hw]
          split
          · rename_i hig
            rw [if_pos hig] at h
            exact ih fuel' (i + w) a (by omega) h
          · rename_i hig
            rw [if_neg hig] at h
            exact h
    · simp at h

theorem subsequentFrom_append {T : Trie} {ignore props : Nat} {data : Bytes} {i : Nat} {a : Int}
    (h : subsequentFrom T ignore props data i false = .ok (a, false)) (e : Bytes) (eof : Bool) :
    subsequentFrom T ignore props (data ++ e) i eof = .ok (a, false) := by
  have hi : i ≤ data.length := by
    rcases Nat.lt_or_ge data.length i with h' | h'
    · simp [subsequentFrom, sliceFrom, Nat.not_le.mpr h'] at h
    · exact h'
  simp only [subsequentFrom, sliceFrom_ok hi, subsequent] at h
  simp only [subsequentFrom, sliceFrom_ok (data := data ++ e) (i := i) (by simp; omega), subsequent]
  rw [List.drop_append_of_le_length hi]
  exact subsequentLoop_append _ _ _ e eof _ _ _ _ (by simp) h

/-- The loop rule: an invariant, a measure and a postcondition. -/
theorem runLoop_rule {σ : Type} (body : σ → Step σ) (inv : σ → Prop) (m : σ → Nat)
    (post : LoopOut → Prop)
    (hstep : ∀ s, inv s → match body s with
      | .cont s' => inv s' ∧ m s' < m s
      | .brk p => post (.brk p)
      | .more => post .more
      | .fault f => post (.fault f)) :
    ∀ fuel s, inv s → m s < fuel → post (runLoop body fuel s) := by
  intro fuel
  induction fuel with
  | zero => intro s _ h; omega
  | succ fuel ih =>
    intro s hi hm
    have := hstep s hi
    simp only [runLoop]
    split at this
    · rename_i s' hb
      simp only [hb]
      exact ih s' this.1 (by omega)
    all_goals (rename_i hb; simp only [hb]; exact this)

/-- `y` repeats `x` wherever `x` is not `more` or a fault. -/
def Step.Stable {σ : Type} (x y : Step σ) : Prop :=
  (∀ s, x = .cont s → y = .cont s) ∧ (∀ p, x = .brk p → y = .brk p)

theorem Step.Stable.refl {σ : Type} (x : Step σ) : Step.Stable x x := ⟨fun _ h => h, fun _ h => h⟩

theorem Step.Stable.more {σ : Type} (y : Step σ) : Step.Stable .more y := by
  constructor <;> intro _ h <;> cases h

theorem Step.Stable.fault {σ : Type} (f : Fault) (y : Step σ) : Step.Stable (.fault f) y := by
  constructor <;> intro _ h <;> cases h

theorem runLoop_stable {σ : Type} {body body' : σ → Step σ}
    (h : ∀ s, Step.Stable (body s) (body' s)) {p : Nat} :
    ∀ f f' s, f ≤ f' → runLoop body f s = .brk p → runLoop body' f' s = .brk p := by
  intro f
  induction f with
  | zero => intro f' s _ h; simp [runLoop] at h
  | succ f ih =>
    intro f' s hf hr
    obtain ⟨f', rfl⟩ : ∃ n, f' = n + 1 := ⟨f' - 1, by omega⟩
    simp only [runLoop] at hr ⊢
    cases hb : body s with
    | cont s' =>
      rw [hb] at hr
      rw [(h s).1 s' hb]
      exact ih f' s' (by omega) hr
    | brk q =>
      rw [hb] at hr
      rw [(h s).2 q hb]
      exact hr
    | more => rw [hb] at hr; cases hr
    | fault f => rw [hb] at hr; cases hr

/-- What a `SplitFunc` of the library returns for a buffer: no error; nothing, or a non-empty prefix
of the buffer. -/
def GoodSplit (data : Bytes) (eof : Bool) (r : Res SplitRes) : Prop :=
  (r = .ok .requestMore ∧ (data = [] ∨ eof = false)) ∨
  ∃ k, 0 < k ∧ k ≤ data.length ∧ r = .ok ⟨k, some (data.take k), none⟩

/-- The result of a loop that can be finished. -/
def GoodOut (data : Bytes) (eof : Bool) : LoopOut → Prop
  | .brk p => 0 < p ∧ p ≤ data.length
  | .more => eof = false
  | .fault _ => False

theorem finish_good {data : Bytes} {eof : Bool} {o : LoopOut} (h : GoodOut data eof o) :
    GoodSplit data eof (finish data o) := by
  cases o with
  | brk p => exact .inr ⟨p, h.1, h.2, by simp [finish, sliceTo_ok h.2]⟩
  | more => exact .inl ⟨rfl, .inr h⟩
  | fault f => exact absurd h (by simp [GoodOut])

end Uax29
