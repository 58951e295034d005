import Verif.Proofs.WindowWords
/-! # How many bytes phrases needs to see -/
namespace Uax29.Phrases
open Words (is_or')

/-- The properties that end a line. -/
def nl : Nat := _Newline ||| _CR ||| _LF

theorem rules_ignored {data : Bytes} {eof : Bool} {s next : State} (h1 : is next.current _Ignore = true)
    (h2 : is next.current nl = false) (h3 : is s.current nl = false) : rules data eof s next = .cont next := by
  have h4 : is (s.current ||| next.current) (_Newline ||| _CR ||| _LF) = false := by
    have : is (s.current ||| next.current) nl = false := by rw [is_or', h2, h3]; rfl
    exact this
  have h5 : is next.current (_Extend ||| _Format ||| _ZWJ) = true := h1
  rw [rules_eq]
  unfold rulesWith
  have h6 : next.current ||| s.current ≠ 0 := by
    intro h
    rw [(Nat.or_eq_zero_iff.mp h).1] at h1
    simp [is] at h1
  rw [if_neg h6, if_neg (by rw [h4]; decide : ¬ is (s.current ||| next.current) (_Newline ||| _CR ||| _LF) = true), if_pos h5]
  repeat' split
  all_goals rfl

/-- A line end is not ignored. -/
theorem ignore_nl {v : Nat} (h : trie.IsValue v) (hi : is v _Ignore = true) : is v nl = false := by
  have := h.of_all (p := fun v => !is v _Ignore || !is v nl) (by decide +kernel)
  simpa [hi] using this

/-- What the rules may do. -/
theorem rules_step {data : Bytes} {eof : Bool} {s next : State} {E : Nat} (hE : CharRun trie (fun v => is v _Ignore = true) data next.pos E) :
    (∀ s'', rules data eof s next = .cont s'' → (s''.pos = next.pos ∧ s''.current = next.current) ∨ E ≤ s''.pos)
    ∧ ∀ p, rules data eof s next = .brk p → p = s.pos := by
  rw [rules_eq]
  refine rulesWith_rel (R := fun x _ => (∀ s'', x = .cont s'' → (s''.pos = next.pos ∧ s''.current = next.current) ∨ E ≤ s''.pos)
    ∧ ∀ p, x = .brk p → p = s.pos) (a2 := fun _ x => x) ?_ ?_ ?_
  · intro s' h1 h2
    exact ⟨fun s'' e => by cases e; exact .inl ⟨h1, h2⟩, fun p e => by cases e⟩
  · exact ⟨fun s'' e => (by cases e), fun p e => by cases e; rfl⟩
  · intro q x _ hx
    unfold lookAhead
    cases hs : subsequentFrom trie _Ignore q data next.pos eof with
    | error f => exact ⟨fun s'' e => (by cases e), fun p e => by cases e⟩
    | ok r =>
      obtain ⟨a, m⟩ := r
      dsimp only
      cases m with
      | true => exact ⟨fun s'' e => (by cases e), fun p e => by cases e⟩
      | false =>
        simp only [Bool.false_eq_true, if_false]
        by_cases ha : a = notfound
        · rw [if_neg (by simpa using ha)]; exact hx
        · rw [if_pos ha]
          refine ⟨fun s'' e => ?_, fun p e => by cases e⟩
          cases e
          exact .inr ((hE.subsequentFrom wf hs).resolve_left ha)

theorem rules_more {data : Bytes} {s next : State} (hn : next.pos ≤ data.length) (h : rules data false s next = .more) :
    is s.current nl = false ∧ is next.current nl = false
      ∧ ∃ E, CharRun trie (fun v => is v _Ignore = true) data next.pos E ∧ data.length ≤ E + 3 := by
  rw [rules_eq] at h
  have h1 : is (s.current ||| next.current) nl = false := by
    cases h' : is (s.current ||| next.current) nl with
    | false => rfl
    | true =>
      have h' : is (s.current ||| next.current) (_Newline ||| _CR ||| _LF) = true := h'
      unfold rulesWith at h
      rw [if_pos h'] at h
      repeat' split at h
      all_goals cases h
  rw [is_or', Bool.or_eq_false_iff] at h1
  refine ⟨h1.1, h1.2, ?_⟩
  revert h
  refine rulesWith_rel (R := fun x _ => x = .more → ∃ E, CharRun trie (fun v => is v _Ignore = true) data next.pos E ∧ data.length ≤ E + 3)
    (a2 := fun _ x => x) (fun _ _ _ e => by cases e) (fun e => by cases e) ?_
  intro q x _ hx h
  unfold lookAhead at h
  cases hs : subsequentFrom trie _Ignore q data next.pos false with
  | error f => rw [hs] at h; cases h
  | ok r =>
    obtain ⟨a, m⟩ := r
    rw [hs] at h
    dsimp only at h
    cases m with
    | true => exact subsequentFrom_more wf hn hs
    | false =>
      simp only [Bool.false_eq_true, if_false] at h
      split at h
      · cases h
      · exact hx h

/-- The passes go forward. -/
theorem step_forward {d : Bytes} {eof : Bool} :
    (∀ s s', (0 < s.pos ∧ s.pos ≤ d.length) → step d eof s = .cont s' → (0 < s'.pos ∧ s'.pos ≤ d.length) ∧ s.pos ≤ s'.pos)
    ∧ ∀ (s : State) p, (0 < s.pos ∧ s.pos ≤ d.length) → step d eof s = .brk p → s.pos ≤ p := by
  refine ⟨fun s s' hs h => ?_, fun s p hs h => ?_⟩
  · have := step_good (eof := eof) s hs
    rw [h] at this
    have h1 : (0 < s'.pos ∧ s'.pos ≤ d.length) ∧ d.length - s'.pos < d.length - s.pos := this
    exact ⟨h1.1, by omega⟩
  · unfold step at h
    split at h
    · split at h
      · cases h
      · cases h; exact Nat.le_refl _
    · split at h
      · cases h
      · rename_i v w hl
        split at h
        · split at h
          · cases h; exact hs.2
          · cases h
        · have := (rules_step (.nil (wf.lookupAt_le hl))).2 p h
          omega

/-- Ignored characters are passed. -/
theorem step_ignored {d : Bytes} {eof : Bool} {s : State} {v w : Nat} (hs : is s.current nl = false)
    (hl : trie.lookupAt d s.pos = .ok (v, w)) (hw : w ≠ 0) (hv : is v _Ignore = true) :
    ∃ s', step d eof s = .cont s' ∧ is s'.current nl = false ∧ s'.pos = s.pos + w := by
  have hlt := lookupAt_pos_lt hl
  obtain ⟨v0, w0, h1, _, _, hval⟩ := wf.lookupAt_ok hlt
  rw [hl] at h1
  cases h1
  have hn := ignore_nl hval hv
  unfold step
  rw [if_neg (by omega)]
  simp only [hl, if_neg hw]
  rw [rules_ignored hv hn hs]
  exact ⟨_, rfl, hn, rfl⟩

/-- A token holds the ignored characters after its first character. -/
theorem adv_chain {d : Bytes} {v w E : Nat} (hl : trie.lookupAt d 0 = .ok (v, w)) (hw : w ≠ 0)
    (hv : is v nl = false) (hE : CharRun trie (fun v => is v _Ignore = true) d w E) : E ≤ splitAdv splitFunc d := by
  have hlt := lookupAt_pos_lt hl
  have hle := hE.le
  rcases splitFunc_good d true with ⟨_, h | h⟩ | ⟨k, hk1, hk2, h⟩
  · rw [h] at hlt; simp at hlt
  · cases h
  · have hk : splitAdv splitFunc d = k := by simp [splitAdv, h]
    unfold splitFunc at h
    rw [if_neg (by omega)] at h
    simp only [hl, if_neg hw] at h
    obtain ⟨p, hp, hpk, _, _⟩ := finish_brk h
    have hpk : k = p := by exact_mod_cast hpk
    subst hpk
    rw [hk]
    exact hE.run (ctx := fun s => is s.current nl = false ∧ 0 < s.pos) (inv := fun s => 0 < s.pos ∧ s.pos ≤ d.length) (pos := WordState.pos)
      (fun s v w hs h1 h2 h3 => by
        obtain ⟨s', h4, h5, h6⟩ := step_ignored (eof := true) hs.1 h1 h2 h3
        exact ⟨s', h4, ⟨h5, by omega⟩, h6⟩)
      (fun s hs hle => ⟨hs.2, hle⟩) step_forward.1 step_forward.2 _ _ rfl ⟨hv, by simp; omega⟩ hp

/-- If phrases needs more than the first bytes of a text, then its first two phrases reach to nearly the end of them. -/
theorem window (data e : Bytes) (h : splitFunc data false = .ok .requestMore) :
    data.length ≤ splitAdv splitFunc (data ++ e) + 3
    ∨ (splitAdv splitFunc (data ++ e) < (data ++ e).length
      ∧ data.length ≤ splitAdv splitFunc (data ++ e)
        + splitAdv splitFunc ((data ++ e).drop (splitAdv splitFunc (data ++ e))) + 3) := by
  refine splitWith_more (T := trie)
    (fun _ v w => .ok (init v w)) step (fun _ _ _ _ _ _ => rfl) (fun data e eof s => step_stable data e eof s) rfl splitFunc_good
    (fun data s => 0 < s.pos ∧ s.pos ≤ data.length) ?_ (fun data s s' hs h => (step_forward.1 s s' hs h).1)
    (fun data e p => data.length ≤ p + 3 ∨ (p < (data ++ e).length
      ∧ data.length ≤ p + splitAdv splitFunc ((data ++ e).drop p) + 3)) (fun _ _ _ h => .inl h) ?_ data e h
  · intro data v w s hl hw hi
    cases hi
    exact ⟨by simp [init]; omega, by have := wf.lookupAt_le hl; simp [init]; omega⟩
  · clear h data e
    intro data e s f p hs hm hr
    cases f with
    | zero => simp [runLoop] at hr
    | succ f =>
    have hge := runLoop_ge (pos := WordState.pos) (step_forward (d := data ++ e) (eof := true)).1
      step_forward.2 _ s ⟨hs.1, by rw [List.length_append]; omega⟩ hr
    unfold step at hm
    split at hm
    · exact .inl (by omega)
    · rename_i hne
      split at hm
      · cases hm
      · rename_i v w hl
        split at hm
        · rename_i hw
          subst hw
          have := lookupAt_short hl
          exact .inl (by omega)
        · rename_i hw
          · have hlt := lookupAt_pos_lt hl
            obtain ⟨h1, h2, E, h3, h4⟩ := rules_more (wf.lookupAt_le hl) hm
            have h3 : CharRun trie (fun v => is v _Ignore = true) data (s.pos + w) E := h3
            have h3' := h3.append e
            have hle := h3'.le
            have hv : is v nl = false := h2
            obtain ⟨next, hn1, hn2, hstep⟩ : ∃ next : State, next.pos = s.pos + w ∧ next.current = v
                ∧ step (data ++ e) true s = rules (data ++ e) true s next := by
              refine ⟨{ pos := s.pos + w, current := v,
                        lastExIgnore := if !is s.current _Ignore then s.current else s.lastExIgnore,
                        lastLastExIgnore := if !is s.current _Ignore then s.lastExIgnore else s.lastLastExIgnore,
                        regionalIndicatorCount := s.regionalIndicatorCount }, rfl, rfl, ?_⟩
              unfold step
              rw [if_neg (by rw [List.length_append]; omega)]
              simp only [lookupAt_append hl hw e, if_neg hw]
            have hrs := rules_step (data := data ++ e) (eof := true) (s := s) (next := next) (by rw [hn1]; exact h3')
            rw [← hstep] at hrs
            rw [runLoop] at hr
            cases hb : step (data ++ e) true s with
            | fault g => rw [hb] at hr; cases hr
            | more => rw [hb] at hr; cases hr
            | brk q =>
              rw [hb] at hr
              cases hr
              have hp := hrs.2 _ hb
              subst hp
              refine .inr ⟨by rw [List.length_append]; omega, ?_⟩
              have := adv_chain (d := (data ++ e).drop s.pos) (v := v) (w := w) (E := E - s.pos)
                (by rw [lookupAt_drop (by rw [List.length_append]; omega)]; exact lookupAt_append hl hw e) hw hv (h3'.drop rfl)
              omega
            | cont s'' =>
              rw [hb] at hr
              have hin := step_forward.1 s s'' ⟨hs.1, by rw [List.length_append]; omega⟩ hb
              left
              rcases hrs.1 s'' hb with ⟨h5, h6⟩ | h5
              · have := h3'.run (ctx := fun s => is s.current nl = false ∧ 0 < s.pos)
                  (inv := fun s => 0 < s.pos ∧ s.pos ≤ (data ++ e).length) (pos := WordState.pos)
                  (fun s v w hs h1 h2 h3 => by
                    obtain ⟨s', h4, h5, h6⟩ := step_ignored (eof := true) hs.1 h1 h2 h3
                    exact ⟨s', h4, ⟨h5, by omega⟩, h6⟩)
                  (fun s hs hle => ⟨hs.2, hle⟩) step_forward.1 step_forward.2 _ _ (h5.trans hn1) ⟨by rw [h6, hn2]; exact h2, hin.1.1⟩ hr
                omega
              · have := runLoop_ge (pos := WordState.pos) (step_forward (d := data ++ e) (eof := true)).1
                  step_forward.2 _ s'' hin.1 hr
                omega

end Uax29.Phrases
