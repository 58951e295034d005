import Verif.Proofs.WindowWords
/-! # How many bytes sentences and graphemes need to see -/
namespace Uax29.Sentences
open Words (is_or')

/-- The properties at which the inner loop of SB8 stops. -/
def stop8 : Nat := _OLetter ||| _Upper ||| _Lower ||| _ParaSep ||| _SATerm

theorem stop8_not_ignored {v : Nat} (h : trie.IsValue v) (hi : is v stop8 = true) : is v _Ignore = false := by
  have := h.of_all (p := fun v => !is v stop8 || !is v _Ignore) (by decide +kernel)
  simpa [hi] using this

theorem scan8_more {data : Bytes} : ∀ {fuel p : Nat}, p ≤ data.length → scan8 data false fuel p = .more →
    ∃ E, CharRun trie (fun v => is v stop8 = false) data p E ∧ data.length ≤ E + 3 := by
  intro fuel
  induction fuel with
  | zero => intro p _ h; cases h
  | succ fuel ih =>
    intro p hp h
    simp only [scan8] at h
    split at h
    · split at h
      · cases h
      · rename_i v w hl
        split at h
        · rename_i hw
          subst hw
          exact ⟨p, .nil hp, lookupAt_short hl⟩
        · rename_i hw
          split at h
          · cases h
          · rename_i hv
            obtain ⟨E, h1, h2⟩ := ih (wf.lookupAt_le hl) h
            exact ⟨E, .cons hl hw (Bool.not_eq_true _ ▸ hv) h1, h2⟩
    · cases h

theorem scan8_stop {data : Bytes} {eof : Bool} : ∀ {fuel p q : Nat}, p ≤ data.length → scan8 data eof fuel p = .stop q →
    CharRun trie (fun v => is v stop8 = false) data p q
      ∧ (q = data.length ∨ ∃ v w, trie.lookupAt data q = .ok (v, w) ∧ w ≠ 0 ∧ is v stop8 = true) := by
  intro fuel
  induction fuel with
  | zero => intro p q _ h; cases h
  | succ fuel ih =>
    intro p q hp h
    simp only [scan8] at h
    split at h
    · split at h
      · cases h
      · rename_i v w hl
        split at h
        · split at h <;> cases h
        · rename_i hw
          split at h
          · rename_i hv
            cases h
            exact ⟨.nil hp, .inr ⟨v, w, hl, hw, hv⟩⟩
          · rename_i hv
            obtain ⟨h1, h2⟩ := ih (wf.lookupAt_le hl) h
            exact ⟨.cons hl hw (Bool.not_eq_true _ ▸ hv) h1, h2⟩
    · cases h
      exact ⟨.nil hp, .inl (by omega)⟩

theorem scan8_reach {data : Bytes} {eof : Bool} {p E : Nat} (h : CharRun trie (fun v => is v stop8 = false) data p E) :
    ∀ {fuel q : Nat}, scan8 data eof fuel p = .stop q → E ≤ q := by
  induction h with
  | nil h => intro fuel q hq; exact (scan8_stop h hq).1.le.1
  | cons h1 h2 h3 _ ih =>
    intro fuel q hq
    cases fuel with
    | zero => cases hq
    | succ fuel =>
      have h3 : ¬ is _ (_OLetter ||| _Upper ||| _Lower ||| _ParaSep ||| _SATerm) = true := Bool.not_eq_true _ ▸ h3
      simp only [scan8, if_pos (lookupAt_pos_lt h1), h1, if_neg h2, if_neg h3] at hq
      exact ih hq

theorem ahead8_more {data : Bytes} {s next : State} {x : Step State} (hp : s.pos ≤ data.length) (hx : x ≠ .more)
    (h : ahead8 data false s next x = .more) :
    ∃ E, CharRun trie (fun v => is v stop8 = false) data s.pos E ∧ data.length ≤ E + 3 := by
  unfold ahead8 at h
  split at h
  · cases h
  · rename_i h8; exact scan8_more hp h8
  · cases h
  · rename_i p h8
    obtain ⟨h1, h2 | ⟨v, w, h2, h3, h4⟩⟩ := scan8_stop hp h8
    · exact ⟨p, h1, by omega⟩
    · split at h
      · cases h
      · rename_i a m hs
        split at h
        · rename_i hm
          subst hm
          exfalso
          have hlt := lookupAt_pos_lt h2
          have hi : ¬ is v _Ignore = true := by
            obtain ⟨v0, w0, h5, _, _, hval⟩ := wf.lookupAt_ok hlt
            rw [h2] at h5
            cases h5
            simp [stop8_not_ignored hval h4]
          simp only [subsequentFrom, sliceFrom_ok (Nat.le_of_lt hlt), subsequent] at hs
          have h6 : trie.lookupAt (data.drop p) 0 = .ok (v, w) := by
            rw [lookupAt_drop (by omega)]; simpa using h2
          have h7 : 0 < (data.drop p).length := by rw [List.length_drop]; omega
          rw [subsequentLoop] at hs
          simp only [if_pos h7, h6, if_neg h3, if_neg hi] at hs
          split at hs <;> cases hs
        · split at h
          · cases h
          · exact absurd h hx

/-- What a pass may do over a chain. -/
theorem step_reach {d : Bytes} {s : State} (hs : Inv d s) {E : Nat} (hE : CharRun trie (fun v => is v stop8 = false) d s.pos E) :
    (∀ s', step d true s = .cont s' → Inv d s' ∧ ((∃ v w, trie.lookupAt d s.pos = .ok (v, w) ∧ w ≠ 0 ∧ s'.pos = s.pos + w) ∨ E ≤ s'.pos))
    ∧ ∀ p, step d true s = .brk p → p = s.pos ∨ p = d.length := by
  have hg := step_good (eof := true) s hs
  refine ⟨fun s' h => ?_, fun p h => ?_⟩
  · rw [h] at hg
    refine ⟨hg.1, ?_⟩
    unfold step at h
    split at h
    · cases h
    · split at h
      · cases h
      · rename_i v w hl
        split at h
        · cases h
        · rename_i hw
          rw [rules_eq] at h
          revert h
          refine rulesWith_rel (R := fun x _ => x = .cont s' → (∃ v w, trie.lookupAt d s.pos = .ok (v, w) ∧ w ≠ 0 ∧ s'.pos = s.pos + w) ∨ E ≤ s'.pos)
            (a2 := fun x => x) (fun e => by cases e; exact .inl ⟨v, w, hl, hw, rfl⟩) (fun e => by cases e) ?_
          intro _ x hx h
          unfold ahead8 at h
          split at h
          · cases h
          · cases h
          · cases h
          · rename_i q h8
            split at h
            · cases h
            · split at h
              · cases h
              · split at h
                · cases h
                  have := scan8_reach hE h8
                  exact .inr (by simp; omega)
                · exact hx h
  · unfold step at h
    split at h
    · rename_i he; cases h; exact .inl rfl
    · split at h
      · cases h
      · rename_i v w hl
        split at h
        · cases h; exact .inr rfl
        · rw [rules_eq] at h
          revert h
          refine rulesWith_rel (R := fun x _ => x = .brk p → p = s.pos ∨ p = d.length)
            (a2 := fun x => x) (fun e => by cases e) (fun e => by cases e; exact .inl rfl) ?_
          intro _ x hx h
          unfold ahead8 at h
          split at h
          · cases h
          · cases h
          · cases h; exact .inr rfl
          · split at h
            · cases h
            · split at h
              · cases h
              · split at h
                · cases h
                · exact hx h

theorem run_ge {d : Bytes} {p f : Nat} {s : State} (hs : Inv d s) (h : runLoop (step d true) f s = .brk p) : s.pos ≤ p :=
  runLoop_ge (pos := State.pos) (inv := Inv d)
    (fun s s' hs h => by
      have h1 := (step_reach hs (.nil hs.2.1)).1 s' h
      exact ⟨h1.1, by rcases h1.2 with ⟨v, w, _, _, h2⟩ | h2 <;> omega⟩)
    (fun s p hs h => by have := hs.2.1; rcases (step_reach hs (.nil hs.2.1)).2 p h with h | h <;> omega) f s hs h

/-- A sentence ends behind a chain or within it. -/
theorem run_chain {d : Bytes} {q E p : Nat} (hE : CharRun trie (fun v => is v stop8 = false) d q E) : ∀ {f : Nat} {s : State}, s.pos = q → Inv d s →
    runLoop (step d true) f s = .brk p → E ≤ p ∨ CharRun trie (fun v => is v stop8 = false) d p E := by
  induction hE with
  | nil h => rintro f s rfl hs hr; exact .inl (run_ge hs hr)
  | @cons q v w E h1 h2 h3 h4 ih =>
    rintro f s rfl hs hr
    cases f with
    | zero => cases hr
    | succ f =>
      have hreach := step_reach hs (.cons h1 h2 h3 h4)
      have hle := h4.le
      rw [runLoop] at hr
      cases hb : step d true s with
      | fault g => rw [hb] at hr; cases hr
      | more => rw [hb] at hr; cases hr
      | brk q =>
        rw [hb] at hr
        cases hr
        rcases hreach.2 _ hb with h | h
        · subst h; exact .inr (.cons h1 h2 h3 h4)
        · exact .inl (by omega)
      | cont s' =>
        rw [hb] at hr
        obtain ⟨h5, ⟨v', w', h6, _, h7⟩ | h6⟩ := hreach.1 s' hb
        · rw [h1] at h6
          cases h6
          exact ih h7 h5 hr
        · have := run_ge h5 hr
          exact .inl (by omega)

/-- Without an end of a sentence. -/
def free (v : Nat) : Prop := is v _ATerm = false ∧ is v _SATerm = false ∧ is v _ParaSep = false

theorem free_zero : free 0 := ⟨by decide, by decide, by decide⟩

theorem is_mask {v : Nat} (m : Nat) (h : is v stop8 = false) (hm : stop8 &&& m = m) : is v m = false := by
  simp only [is, bne_eq_false_iff_eq] at h ⊢
  rw [← hm, ← Nat.and_assoc, h, Nat.zero_and]

theorem free_of {v : Nat} (h : is v stop8 = false) : free v :=
  ⟨is_mask _ h (by decide), is_mask _ h (by decide), is_mask _ h (by decide)⟩

/-- Nothing that was seen ends a sentence. -/
structure Quiet (s : State) : Prop where
  current : free s.current
  last : free s.lastExIgnore
  sp : free s.lastExIgnoreSp
  close : free s.lastExIgnoreClose
  spClose : free s.lastExIgnoreSpClose
  all : free s.lastExIgnoreParaSepSpClose

theorem Quiet.remember {s : State} (h : Quiet s) : Quiet (remember s) := by
  obtain ⟨h1, h2, h3, h4, h5, h6⟩ := h
  have hi : ∀ {c : Prop} [Decidable c] {a b : Nat}, free a → free b → free (if c then a else b) :=
    fun ha hb => by split <;> assumption
  have a1 : free (Sentences.remember s).lastExIgnore := hi h1 h2
  have a2 : free (Sentences.remember s).lastExIgnoreSp := hi a1 h3
  have a3 : free (Sentences.remember s).lastExIgnoreClose := hi a1 h4
  have a4 : free (Sentences.remember s).lastExIgnoreSpClose := hi a2 h5
  have a5 : free (Sentences.remember s).lastExIgnoreParaSepSpClose := hi a4 h6
  exact ⟨h1, a1, a2, a3, a4, a5⟩

theorem step_quiet {d : Bytes} {s : State} {v w : Nat} (hs : Quiet s) (hl : trie.lookupAt d s.pos = .ok (v, w)) (hw : w ≠ 0)
    (hv : is v stop8 = false) : ∃ s', step d true s = .cont s' ∧ Quiet s' ∧ s'.pos = s.pos + w := by
  have hlt := lookupAt_pos_lt hl
  have hr := hs.remember
  have hf := free_of hv
  unfold step
  rw [if_neg (by omega)]
  simp only [hl, if_neg hw]
  refine ⟨{ remember s with pos := s.pos + w, current := v }, ?_, ⟨hf, hr.last, hr.sp, hr.close, hr.spClose, hr.all⟩, rfl⟩
  simp only [rules, hs.current.2.2, hr.spClose.1, stepRest, hr.spClose.2.1, hr.close.2.1, hr.last.2.1, hr.all.2.1]
  simp

/-- If sentences needs more than the first bytes of a text, then its first two sentences reach to nearly the end of them. -/
theorem window (data e : Bytes) (h : splitFunc data false = .ok .requestMore) :
    data.length ≤ splitAdv splitFunc (data ++ e) + 3
    ∨ (splitAdv splitFunc (data ++ e) < (data ++ e).length
      ∧ data.length ≤ splitAdv splitFunc (data ++ e)
        + splitAdv splitFunc ((data ++ e).drop (splitAdv splitFunc (data ++ e))) + 3) := by
  refine splitWith_more (T := trie)
    (fun _ v w => .ok (init v w)) step (fun _ _ _ _ _ _ => rfl) (fun data e eof s => step_stable data e eof s) rfl splitFunc_good
    Inv ?_ (fun data s s' hs h => ?_)
    (fun data e p => data.length ≤ p + 3 ∨ (p < (data ++ e).length
      ∧ data.length ≤ p + splitAdv splitFunc ((data ++ e).drop p) + 3)) (fun _ _ _ h => .inl h) ?_ data e h
  · intro data v w s hl hw hi
    cases hi
    obtain ⟨v0, w0, h5, _, _, hval⟩ := wf.lookupAt_ok (lookupAt_pos_lt hl)
    rw [hl] at h5
    cases h5
    exact ⟨by simp [init]; omega, by have := wf.lookupAt_le hl; simp [init]; omega, hval⟩
  · have := step_good (eof := false) s hs
    rw [h] at this
    exact this.1
  · clear h data e
    intro data e s f p hs hm hr
    have hsd : Inv (data ++ e) s := ⟨hs.1, by have := hs.2.1; rw [List.length_append]; omega, hs.2.2⟩
    have hge := run_ge hsd hr
    have hE : ∃ E, CharRun trie (fun v => is v stop8 = false) data s.pos E ∧ data.length ≤ E + 3 := by
      unfold step at hm
      split at hm
      · exact ⟨s.pos, .nil hs.2.1, by omega⟩
      · split at hm
        · cases hm
        · rename_i v w hl
          split at hm
          · rename_i hw
            subst hw
            exact ⟨s.pos, .nil hs.2.1, lookupAt_short hl⟩
          · rw [rules_eq] at hm
            have hx : ∀ next, stepRest s next ≠ .more := fun next =>
              stepRest_rel (R := fun x => x ≠ .more) (fun e => by cases e) (fun e => by cases e)
            unfold rulesWith at hm
            repeat' split at hm
            all_goals first | cases hm | exact absurd hm (hx _) | exact ahead8_more hs.2.1 (hx _) hm
    obtain ⟨E, h1, h2⟩ := hE
    rcases run_chain (h1.append e) rfl hsd hr with h3 | h3
    · exact .inl (by omega)
    · cases h3 with
      | nil => exact .inl h2
      | @cons _ v w _ h4 h5 h6 h7 =>
        have hlt := lookupAt_pos_lt h4
        refine .inr ⟨hlt, ?_⟩
        have h7' : CharRun trie (fun v => is v stop8 = false) ((data ++ e).drop p) w (E - p) := h7.drop rfl
        have h4' : trie.lookupAt ((data ++ e).drop p) 0 = .ok (v, w) := by
          rw [lookupAt_drop (by omega)]; simpa using h4
        have hlt' : 0 < ((data ++ e).drop p).length := by rw [List.length_drop]; omega
        have : E - p ≤ splitAdv splitFunc ((data ++ e).drop p) := by
          generalize (data ++ e).drop p = d at h7' h4' hlt'
          rcases splitFunc_good d true with ⟨_, h | h⟩ | ⟨k, hk1, hk2, h⟩
          · rw [h] at hlt'; simp at hlt'
          · cases h
          · have hk : splitAdv splitFunc d = k := by simp [splitAdv, h]
            unfold splitFunc at h
            rw [if_neg (by omega)] at h
            simp only [h4', if_neg h5] at h
            obtain ⟨p', hp, hpk, _, _⟩ := finish_brk h
            have hpk : k = p' := by exact_mod_cast hpk
            subst hpk
            rw [hk]
            obtain ⟨v0, w0, h8, _, _, hval⟩ := wf.lookupAt_ok hlt'
            rw [h4'] at h8
            cases h8
            have hq : Quiet (init v w) := ⟨free_of h6, free_zero, free_zero, free_zero, free_zero, free_zero⟩
            have hgen : ∀ {q E : Nat}, CharRun trie (fun v => is v stop8 = false) d q E → ∀ (f : Nat) (s : State), s.pos = q → Inv d s → Quiet s →
                runLoop (step d true) f s = .brk k → E ≤ k := by
              intro q E hc
              induction hc with
              | nil h => rintro f s rfl hs _ hr; exact run_ge hs hr
              | cons g1 g2 g3 _ ih =>
                rintro f s rfl hs hq hr
                obtain ⟨s', g4, g5, g6⟩ := step_quiet hq g1 g2 g3
                cases f with
                | zero => cases hr
                | succ f =>
                  rw [runLoop, g4] at hr
                  exact ih f s' g6 ((step_reach hs (.nil hs.2.1)).1 s' g4).1 g5 hr
            exact hgen h7' _ (init v w) rfl ⟨by simp [init]; omega, wf.lookupAt_le h4' |> (by simpa [init] using ·), hval⟩ hq hp
        omega

end Uax29.Sentences

namespace Uax29.Graphemes

/-- If graphemes needs more than the first bytes of a text, then its first cluster reaches to nearly the end of them. -/
theorem window (data e : Bytes) (h : splitFunc data false = .ok .requestMore) : data.length ≤ splitAdv splitFunc (data ++ e) + 3 := by
  have hfw : ∀ {d : Bytes} {eof : Bool}, (∀ s s', (0 < s.pos ∧ s.pos ≤ d.length) → step d eof s = .cont s' → (0 < s'.pos ∧ s'.pos ≤ d.length) ∧ s.pos ≤ s'.pos)
      ∧ ∀ (s : State) p, (0 < s.pos ∧ s.pos ≤ d.length) → step d eof s = .brk p → s.pos ≤ p := by
    intro d eof
    refine ⟨fun s s' hs h => ?_, fun s p hs h => ?_⟩
    · have := step_good (eof := eof) s hs
      rw [h] at this
      have h1 : (0 < s'.pos ∧ s'.pos ≤ d.length) ∧ d.length - s'.pos < d.length - s.pos := this
      exact ⟨h1.1, by omega⟩
    · unfold step at h
      split at h
      · split at h
        · cases h
        · cases h; exact Nat.le_refl _
      · split at h
        · cases h
        · split at h
          · split at h
            · cases h; exact hs.2
            · cases h
          · revert h
            refine rules_rel (R := fun x => x = .brk p → s.pos ≤ p) ?_ ?_
            · intro s' _ e; cases e
            · intro e; cases e; exact Nat.le_refl _
  refine splitWith_more (T := trie)
    (fun _ v w => .ok (init v w)) step (fun _ _ _ _ _ _ => rfl) (fun data e eof s => step_stable data e eof s) rfl splitFunc_good
    (fun data s => 0 < s.pos ∧ s.pos ≤ data.length) ?_ (fun data s s' hs h => (hfw.1 s s' hs h).1)
    (fun data e p => data.length ≤ p + 3) (fun _ _ _ h => h) ?_ data e h
  · intro data v w s hl hw hi
    cases hi
    exact ⟨by simp [init]; omega, by have := wf.lookupAt_le hl; simp [init]; omega⟩
  · clear h data e
    intro data e s f p hs hm hr
    have hge := runLoop_ge (pos := State.pos) (hfw (d := data ++ e) (eof := true)).1
      hfw.2 _ s ⟨hs.1, by rw [List.length_append]; omega⟩ hr
    unfold step at hm
    split at hm
    · omega
    · split at hm
      · cases hm
      · rename_i v w hl
        split at hm
        · rename_i hw
          subst hw
          have := lookupAt_short hl
          omega
        · exfalso
          revert hm
          exact rules_rel (R := fun x => x ≠ .more) (fun _ _ e => by cases e) (fun e => by cases e)

end Uax29.Graphemes
