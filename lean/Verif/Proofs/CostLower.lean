import Verif.Proofs.CostAnsi
import Verif.Proofs.CostQuad
import Verif.Proofs.Pieces
/-! # Every byte costs: a lower bound on the work -/
namespace Uax29
open Spec

theorem announced_le (b : UInt8) : announced b ≤ 4 := by
  unfold announced
  repeat' split
  all_goals omega

theorem lookup_four {T : Trie} {d : Bytes} {v w : Nat} (h : T.lookup d = .ok (v, w)) :
    w ≤ 4 ∧ (w = 0 → d.length ≤ 4) := by
  cases d with
  | nil => exact absurd h lookup_nil
  | cons b rest =>
    have h1 := announced_le b
    rw [lookup_width h]
    by_cases h2 : rest.length + 1 < announced b
    · rw [if_pos h2, List.length_cons]; omega
    · rw [if_neg h2]
      simp only [pieceLength]
      have h3 := (List.takeWhile_prefix (l := rest.take (announced b - 1)) continuation).length_le
      rw [List.length_take] at h3
      omega

theorem lookupAt_four {T : Trie} {d : Bytes} {p v w : Nat} (h : T.lookupAt d p = .ok (v, w)) :
    w ≤ 4 ∧ (w = 0 → d.length ≤ p + 4) := by
  have hp := lookupAt_pos_lt h
  rw [lookupAt_eq (by omega)] at h
  have := lookup_four h
  simp only [List.length_drop] at this
  omega

/-- Four bytes at most for each unit of work. -/
def Paid {σ : Type} (pos : σ → Nat) (p : Nat) (x : Counted (Step σ)) : Prop :=
  (∀ s, x.2 = .cont s → pos s ≤ p + 4 * x.1) ∧ ∀ b, x.2 = .brk b → b ≤ p + 4 * x.1

theorem Paid.cont {σ : Type} {pos : σ → Nat} {p n : Nat} {s : σ} (h : pos s ≤ p + 4 * n) :
    Paid pos p (n, .cont s) :=
  ⟨fun _ e => by cases e; exact h, fun _ e => by cases e⟩

theorem Paid.brk {σ : Type} {pos : σ → Nat} {p b n : Nat} (h : b ≤ p + 4 * n) : Paid pos p (n, .brk b) :=
  ⟨fun _ e => (by cases e), fun _ e => by cases e; exact h⟩

theorem Paid.more {σ : Type} {pos : σ → Nat} {p n : Nat} : Paid pos p (n, .more) :=
  ⟨fun _ e => (by cases e), fun _ e => by cases e⟩

theorem Paid.fault {σ : Type} {pos : σ → Nat} {p n : Nat} {f : Fault} : Paid pos p (n, .fault f) :=
  ⟨fun _ e => (by cases e), fun _ e => by cases e⟩

theorem Paid.after {σ : Type} {pos : σ → Nat} {p q n : Nat} {x : Counted (Step σ)} (h : Paid pos q x)
    (hq : q ≤ p + 4 * n) : Paid pos p (after n x) := by
  refine ⟨fun s e => ?_, fun b e => ?_⟩
  · have := h.1 s e
    rw [after_fst]; omega
  · have := h.2 b e
    rw [after_fst]; omega

theorem runLoopC_paid {σ : Type} {pos : σ → Nat} {body : σ → Counted (Step σ)}
    (h : ∀ s, Paid pos (pos s) (body s)) : ∀ fuel s b, (runLoopC body fuel s).2 = .brk b →
    b ≤ pos s + 4 * (runLoopC body fuel s).1 := by
  intro fuel
  induction fuel with
  | zero => intro s b e; cases e
  | succ fuel ih =>
    intro s b e
    have h1 := h s
    simp only [runLoopC] at e ⊢
    rcases hx : body s with ⟨n, x⟩
    rw [hx] at e h1
    cases x with
    | cont s' =>
      simp only at e ⊢
      have h2 := h1.1 s' rfl
      have h3 := ih s' b e
      rw [after_fst]
      simp only at h2
      omega
    | brk p => cases e; exact h1.2 b rfl
    | more => cases e
    | fault f => cases e

theorem subsequentLoopC_paid {T : Trie} (ig props : Nat) (data : Bytes) (eof : Bool) : ∀ fuel i a mo,
    (subsequentLoopC T ig props data eof fuel i).2 = .ok (a, mo) →
    a.toNat ≤ i + 4 * (subsequentLoopC T ig props data eof fuel i).1 := by
  intro fuel
  induction fuel with
  | zero => intro i a mo e; cases e
  | succ fuel ih =>
    intro i a mo e
    simp only [subsequentLoopC] at e ⊢
    by_cases hi : i < data.length
    · rw [if_pos hi] at e ⊢
      rcases hl : T.lookupAt data i with f | ⟨v, w⟩
      · rw [hl] at e; cases e
      · rw [hl] at e
        have h4 := (lookupAt_four hl).1
        simp only at e ⊢
        by_cases hw : w = 0
        · rw [if_pos hw] at e ⊢
          cases eof <;> cases e <;> simp [notfound]
        · rw [if_neg hw] at e ⊢
          split at e
          · rename_i hg
            rw [if_pos hg, after_fst]
            have := ih (i + w) a mo e
            omega
          · rename_i hg
            rw [if_neg hg]
            split at e
            · rename_i hp
              rw [if_pos hp]
              cases e
              simp
            · rename_i hp
              rw [if_neg hp]
              cases e
              simp [notfound]
    · rw [if_neg hi] at e ⊢
      cases eof <;> cases e <;> simp [notfound]

theorem subsequentFromC_paid {T : Trie} (ig props : Nat) (data : Bytes) (i : Nat) (eof : Bool) {a mo}
    (h : (subsequentFromC T ig props data i eof).2 = .ok (a, mo)) :
    a.toNat ≤ 4 * (subsequentFromC T ig props data i eof).1 := by
  simp only [subsequentFromC] at h ⊢
  cases hs : sliceFrom data i with
  | error f => rw [hs] at h; cases h
  | ok d =>
    rw [hs] at h
    have := subsequentLoopC_paid ig props d eof (d.length + 1) 0 a mo h
    simp only
    omega

/-- What the end of the loop means for the split function. -/
theorem finishC_paid {data : Bytes} {q : Nat} {x : Counted LoopOut} (h : ∀ b, x.2 = .brk b → b ≤ q + 4 * x.1)
    {r : SplitRes} (hr : (finishC data x).2 = .ok r) : r.advance.toNat ≤ q + 4 * (finishC data x).1 := by
  obtain ⟨n, x⟩ := x
  simp only [finishC] at hr ⊢
  cases x with
  | brk b =>
    have := h b rfl
    simp only [finish] at hr
    split at hr
    · cases hr
    · cases hr; simpa using this
  | more => simp only [finish] at hr; cases hr; simp [SplitRes.requestMore]
  | fault f => cases hr

/-- The split function does a unit of work for every four bytes of its token. -/
def PaidSplit (split : SplitFnC) : Prop :=
  ∀ d r, (split d true).2 = .ok r → r.advance.toNat ≤ 4 * (split d true).1

namespace Words

theorem lookAheadC_paid {props : Nat} {data : Bytes} {eof : Bool} {next : State} {o : Counted (Step State)}
    (h : Paid (·.pos) next.pos o) : Paid (·.pos) next.pos (lookAheadC props data eof next o) := by
  have hs := fun a mo => subsequentFromC_paid (T := trie) _Ignore props data next.pos eof (a := a) (mo := mo)
  simp only [lookAheadC]
  generalize subsequentFromC trie _Ignore props data next.pos eof = x at hs ⊢
  obtain ⟨n, f | ⟨a, mo⟩⟩ := x
  · exact .fault
  · have := hs a mo rfl
    simp only at this ⊢
    split
    · exact .more
    split
    · exact .cont (by simp only; omega)
    · exact h.after (by omega)

theorem stepRest3_paid {s next : State} (h : s.pos ≤ next.pos) : Paid (·.pos) next.pos (0, stepRest3 s next) := by
  simp only [stepRest3]
  repeat' split
  all_goals first | exact .brk (by omega) | exact .cont (by simp)

theorem rulesC_paid {data : Bytes} {eof : Bool} {s next : State} (h : s.pos ≤ next.pos) :
    Paid (·.pos) next.pos (rulesC data eof s next) := by
  have h2 : Paid (·.pos) next.pos (stepRest2C data eof s next) := by
    simp only [stepRest2C]
    repeat' split
    all_goals first | exact .cont (by simp) | exact lookAheadC_paid (stepRest3_paid h) | exact stepRest3_paid h
  have h1 : Paid (·.pos) next.pos (stepRest1C data eof s next) := by
    simp only [stepRest1C]
    repeat' split
    all_goals first | exact .cont (by simp) | exact lookAheadC_paid h2 | exact h2
  simp only [rulesC]
  repeat' split
  all_goals first | exact .cont (by simp) | exact .brk (by omega) | exact lookAheadC_paid h1 | exact h1

theorem stepC_paid (mid : Option (List Int)) (d : Bytes) (eof : Bool) (s : State) :
    Paid (·.pos) s.pos (stepC mid d eof s) := by
  simp only [stepC]
  split
  · split
    · exact .more
    · exact .brk (by omega)
  · rcases hl : trie.lookupAt d s.pos with f | ⟨v, w⟩
    · exact .fault
    · obtain ⟨h1, h2⟩ := lookupAt_four hl
      simp only
      split
      · split
        · exact .brk (by have := h2 ‹_›; omega)
        · exact .more
      · rcases applyJoiner mid _MidNumLet d s.pos v with f | v'
        · exact .fault
        · exact (rulesC_paid (by simp only; omega)).after (by simp only; omega)

theorem paidSplit (j : Option Joiners) : PaidSplit (joinersSplitFuncC j) := by
  intro d r hr
  simp only [joinersSplitFuncC] at hr ⊢
  by_cases h0 : d.length = 0
  · rw [if_pos h0] at hr
    cases hr; simp [SplitRes.requestMore]
  · rw [if_neg h0] at hr ⊢
    rcases hl : trie.lookupAt d 0 with f | ⟨v, w⟩
    · rw [hl] at hr; cases hr
    · obtain ⟨h1, h2⟩ := lookupAt_four hl
      rw [hl] at hr
      simp only at hr ⊢
      by_cases hw : w = 0
      · rw [if_pos hw] at hr ⊢
        simp only [Bool.not_true, Bool.false_eq_true, if_false] at hr ⊢
        have := finishC_paid (data := d) (q := 0) (x := (1, .brk d.length))
          (fun b e => by cases e; have := h2 hw; simp only; omega) hr
        simpa [finishC] using this
      · rw [if_neg hw] at hr ⊢
        rcases hj : applyJoiner (j.bind Joiners.leading) _AHLetter d 0 v with f | v'
        · rw [hj] at hr; cases hr
        · rw [hj] at hr
          simp only [after_snd] at hr
          have := finishC_paid (fun b e => runLoopC_paid (stepC_paid _ d true) _ _ b e) hr
          simp only [after_fst] at this ⊢
          omega

end Words
namespace Phrases

theorem lookAheadC_paid {props : Nat} {data : Bytes} {eof : Bool} {next : State} {o : Counted (Step State)}
    (h : Paid (·.pos) next.pos o) : Paid (·.pos) next.pos (lookAheadC props data eof next o) := by
  have hs := fun a mo => subsequentFromC_paid (T := trie) _Ignore props data next.pos eof (a := a) (mo := mo)
  simp only [lookAheadC]
  generalize subsequentFromC trie _Ignore props data next.pos eof = x at hs ⊢
  obtain ⟨n, f | ⟨a, mo⟩⟩ := x
  · exact .fault
  · have := hs a mo rfl
    simp only at this ⊢
    split
    · exact .more
    split
    · exact .cont (by simp only; omega)
    · exact h.after (by omega)

theorem stepRest3_paid {s next : State} (h : s.pos ≤ next.pos) : Paid (·.pos) next.pos (0, stepRest3 s next) := by
  simp only [stepRest3]
  repeat' split
  all_goals first | exact .brk (by omega) | exact .cont (by simp)

theorem rulesC_paid {data : Bytes} {eof : Bool} {s next : State} (h : s.pos ≤ next.pos) :
    Paid (·.pos) next.pos (rulesC data eof s next) := by
  have h2 : Paid (·.pos) next.pos (stepRest2C data eof s next) := by
    simp only [stepRest2C]
    repeat' split
    all_goals first | exact .cont (by simp) | exact lookAheadC_paid (stepRest3_paid h) | exact stepRest3_paid h
  have h1 : Paid (·.pos) next.pos (stepRest1C data eof s next) := by
    simp only [stepRest1C]
    repeat' split
    all_goals first | exact .cont (by simp) | exact lookAheadC_paid h2 | exact h2
  simp only [rulesC]
  repeat' split
  all_goals first | exact .cont (by simp) | exact .brk (by omega) | exact lookAheadC_paid h1 | exact h1

theorem stepC_paid (d : Bytes) (eof : Bool) (s : State) : Paid (·.pos) s.pos (stepC d eof s) := by
  simp only [stepC]
  split
  · split
    · exact .more
    · exact .brk (by omega)
  · rcases hl : trie.lookupAt d s.pos with f | ⟨v, w⟩
    · exact .fault
    · obtain ⟨h1, h2⟩ := lookupAt_four hl
      simp only
      split
      · split
        · exact .brk (by have := h2 ‹_›; omega)
        · exact .more
      · exact (rulesC_paid (by simp only; omega)).after (by simp only; omega)

theorem paidSplit : PaidSplit splitFuncC := by
  intro d r hr
  simp only [splitFuncC] at hr ⊢
  by_cases h0 : d.length = 0
  · rw [if_pos h0] at hr
    cases hr; simp [SplitRes.requestMore]
  · rw [if_neg h0] at hr ⊢
    rcases hl : trie.lookupAt d 0 with f | ⟨v, w⟩
    · rw [hl] at hr; cases hr
    · obtain ⟨h1, h2⟩ := lookupAt_four hl
      rw [hl] at hr
      simp only at hr ⊢
      by_cases hw : w = 0
      · rw [if_pos hw] at hr ⊢
        simp only [Bool.not_true, Bool.false_eq_true, if_false] at hr ⊢
        have := finishC_paid (data := d) (q := 0) (x := (1, .brk d.length))
          (fun b e => by cases e; have := h2 hw; simp only; omega) hr
        simpa [finishC] using this
      · rw [if_neg hw] at hr ⊢
        simp only [after_snd] at hr
        have := finishC_paid (fun b e => runLoopC_paid (stepC_paid d true) _ _ b e) hr
        simp only [after_fst] at this ⊢
        omega

end Phrases

namespace Sentences

theorem scan8C_paid (data : Bytes) (eof : Bool) : ∀ fuel i,
    (∀ p, (scan8C data eof fuel i).2 = .stop p → p ≤ i + 4 * (scan8C data eof fuel i).1)
    ∧ ((scan8C data eof fuel i).2 = .breakMain → data.length ≤ i + 4 * (scan8C data eof fuel i).1) := by
  intro fuel
  induction fuel with
  | zero => intro i; exact ⟨fun p e => (by cases e), fun e => by cases e⟩
  | succ fuel ih =>
    intro i
    simp only [scan8C]
    split
    · rcases hl : trie.lookupAt data i with f | ⟨v, w⟩
      · exact ⟨fun p e => (by cases e), fun e => by cases e⟩
      · obtain ⟨h1, h2⟩ := lookupAt_four hl
        simp only
        split
        · split
          · exact ⟨fun p e => (by cases e), fun _ => by have := h2 ‹_›; simp only; omega⟩
          · exact ⟨fun p e => (by cases e), fun e => by cases e⟩
        split
        · exact ⟨fun p e => (by cases e; simp only; omega), fun e => by cases e⟩
        · obtain ⟨h3, h4⟩ := ih (i + w)
          refine ⟨fun p e => ?_, fun e => ?_⟩
          · have := h3 p e
            rw [after_fst]; omega
          · have := h4 e
            rw [after_fst]; omega
    · exact ⟨fun p e => (by cases e; simp only; omega), fun e => by cases e⟩

theorem stepRest_paid {s next : State} {n : Nat} (h : s.pos ≤ next.pos) :
    Paid (·.pos) next.pos (n, stepRest s next) := by
  simp only [stepRest]
  repeat' split
  all_goals first | exact .brk (by omega) | exact .cont (by simp)

theorem rulesC_paid {data : Bytes} {eof : Bool} {s next : State} (h : s.pos ≤ next.pos) :
    Paid (·.pos) next.pos (rulesC data eof s next) := by
  have h8 := scan8C_paid data eof (data.length + 1) s.pos
  have hs := fun p a mo => subsequentFromC_paid (T := trie) _Ignore _Lower data p eof (a := a) (mo := mo)
  simp only [rulesC]
  generalize scan8C data eof (data.length + 1) s.pos = x at h8 ⊢
  obtain ⟨n, x⟩ := x
  have h8' : Paid (·.pos) next.pos (match (n, x) with
      | (n, .fault f) => (n, .fault f)
      | (n, .more) => (n, .more)
      | (n, .breakMain) => (n, .brk data.length)
      | (n, .stop p) =>
        match subsequentFromC trie _Ignore _Lower data p eof with
        | (m, .error f) => (n + m, .fault f)
        | (m, .ok (advance, more)) =>
          if more then (n + m, .more)
          else if advance ≠ notfound then (n + m, .cont { next with pos := p + advance.toNat })
          else (n + m, stepRest s next)) := by
    cases x with
    | fault f => exact .fault
    | more => exact .more
    | breakMain =>
      have := h8.2 rfl
      simp only at this
      exact .brk (by omega)
    | stop p =>
      have h9 := h8.1 p rfl
      have hs' := hs p
      simp only at h9 ⊢
      generalize subsequentFromC trie _Ignore _Lower data p eof = y at hs' ⊢
      obtain ⟨m, f | ⟨a, mo⟩⟩ := y
      · exact .fault
      · have := hs' a mo rfl
        simp only at this ⊢
        split
        · exact .more
        split
        · exact .cont (by simp only; omega)
        · exact stepRest_paid h
  repeat' first | exact h8' | exact .cont (by simp) | exact .brk (by omega) | exact stepRest_paid h | split

theorem stepC_paid (d : Bytes) (eof : Bool) (s : State) : Paid (·.pos) s.pos (stepC d eof s) := by
  simp only [stepC]
  split
  · split
    · exact .more
    · exact .brk (by omega)
  · rcases hl : trie.lookupAt d s.pos with f | ⟨v, w⟩
    · exact .fault
    · obtain ⟨h1, h2⟩ := lookupAt_four hl
      simp only
      split
      · split
        · exact .brk (by have := h2 ‹_›; omega)
        · exact .more
      · exact (rulesC_paid (by simp only; omega)).after (by simp only; omega)

theorem paidSplit : PaidSplit splitFuncC := by
  intro d r hr
  simp only [splitFuncC] at hr ⊢
  by_cases h0 : d.length = 0
  · rw [if_pos h0] at hr
    cases hr; simp [SplitRes.requestMore]
  · rw [if_neg h0] at hr ⊢
    rcases hl : trie.lookupAt d 0 with f | ⟨v, w⟩
    · rw [hl] at hr; cases hr
    · obtain ⟨h1, h2⟩ := lookupAt_four hl
      rw [hl] at hr
      simp only at hr ⊢
      by_cases hw : w = 0
      · rw [if_pos hw] at hr ⊢
        simp only [Bool.not_true, Bool.false_eq_true, if_false] at hr ⊢
        have := finishC_paid (data := d) (q := 0) (x := (1, .brk d.length))
          (fun b e => by cases e; have := h2 hw; simp only; omega) hr
        simpa [finishC] using this
      · rw [if_neg hw] at hr ⊢
        simp only [after_snd] at hr
        have := finishC_paid (fun b e => runLoopC_paid (stepC_paid d true) _ _ b e) hr
        simp only [after_fst] at this ⊢
        omega

end Sentences

namespace Graphemes

theorem rules_paid {s next : State} (h : s.pos ≤ next.pos) : Paid (·.pos) next.pos (0, rules s next) := by
  exact rules_rel (s := s) (next := next) (R := fun x => Paid (·.pos) next.pos (0, x))
    (fun s' h' => .cont (s := s') (by rw [h']; omega)) (.brk (by omega))

theorem stepC_paid (d : Bytes) (eof : Bool) (s : State) : Paid (·.pos) s.pos (stepC d eof s) := by
  simp only [stepC]
  split
  · split
    · exact .more
    · exact .brk (by omega)
  · rcases hl : trie.lookupAt d s.pos with f | ⟨v, w⟩
    · exact .fault
    · obtain ⟨h1, h2⟩ := lookupAt_four hl
      simp only
      split
      · split
        · exact .brk (by have := h2 ‹_›; omega)
        · exact .more
      · refine Paid.after (n := 1) (rules_paid ?_) ?_ <;> simp only <;> omega

theorem paidSplit : PaidSplit splitFuncC := by
  intro d r hr
  simp only [splitFuncC] at hr ⊢
  by_cases h0 : d.length = 0
  · rw [if_pos h0] at hr
    cases hr; simp [SplitRes.requestMore]
  · rw [if_neg h0] at hr ⊢
    rcases hl : trie.lookupAt d 0 with f | ⟨v, w⟩
    · rw [hl] at hr; cases hr
    · obtain ⟨h1, h2⟩ := lookupAt_four hl
      rw [hl] at hr
      simp only at hr ⊢
      by_cases hw : w = 0
      · rw [if_pos hw] at hr ⊢
        simp only [Bool.not_true, Bool.false_eq_true, if_false] at hr ⊢
        have := finishC_paid (data := d) (q := 0) (x := (1, .brk d.length))
          (fun b e => by cases e; have := h2 hw; simp only; omega) hr
        simpa [finishC] using this
      · rw [if_neg hw] at hr ⊢
        simp only [after_snd] at hr
        have := finishC_paid (fun b e => runLoopC_paid (stepC_paid d true) _ _ b e) hr
        simp only [after_fst] at this ⊢
        omega

end Graphemes

/-! ## The iterators -/

/-- A call of `Next` that returns true pays for every four bytes. -/
def PaidNext (p : Nat) (x : Counted (Iter × NextOut)) : Prop :=
  ∀ it, x.2 = (it, .ret true) → it.pos ≤ p + 4 * x.1

theorem PaidNext.fault {p n : Nat} {it : Iter} {f : Fault} : PaidNext p (n, it, .fault f) :=
  fun _ e => by cases e

theorem PaidNext.ret {p n : Nat} {it : Iter} {b : Bool} (h : it.pos ≤ p + 4 * n) : PaidNext p (n, it, .ret b) :=
  fun _ e => by cases e; exact h

theorem PaidNext.after {p q n : Nat} {x : Counted (Iter × NextOut)} (h : PaidNext q x)
    (h1 : q ≤ p + 4 * n) : PaidNext p (after n x) := by
  intro it e
  have := h it e
  rw [after_fst]; omega

theorem PaidNext.mono {p q : Nat} {x : Counted (Iter × NextOut)} (h : PaidNext q x) (h1 : q ≤ p) : PaidNext p x := by
  intro it e
  have := h it e
  omega

theorem callSplitC_paid {split : SplitFnC} (h : PaidSplit split) (it : Iter) :
    PaidNext it.pos (it.callSplitC split) := by
  simp only [Iter.callSplitC]
  cases sliceFrom it.data it.pos with
  | error f => exact .fault
  | ok d =>
    have hd := h d
    simp only
    generalize split d true = x at hd ⊢
    obtain ⟨n, f | r⟩ := x
    · exact .fault
    · have := hd r rfl
      cases hr : r.err with
      | some e => simp only [hr]; exact .fault
      | none =>
        simp only [hr] at this ⊢
        split
        · exact .fault
        split
        · exact .fault
        · exact .ret (by simp only; omega)

theorem countWhileC_paid (p : UInt8 → Bool) : ∀ d, (countWhileC p d).2 ≤ (countWhileC p d).1
  | [] => Nat.le_refl _
  | b :: d => by
    have := countWhileC_paid p d
    simp only [countWhileC]
    split
    · simp only; omega
    · simp only; omega

theorem Words.nextC_paid {split : SplitFnC} (h : PaidSplit split) (it : Iter) :
    PaidNext it.pos (Words.nextC split it) := by
  simp only [Words.nextC]
  have hc := callSplitC_paid h { it with start := it.pos }
  simp only at hc
  split
  · exact .ret (by omega)
  cases index it.data it.pos with
  | error f => exact .fault
  | ok b =>
    have hw := countWhileC_paid isASCIIAlphanumeric (it.data.drop (it.pos + 1))
    simp only
    generalize countWhileC isASCIIAlphanumeric (it.data.drop (it.pos + 1)) = x at hw ⊢
    obtain ⟨n, k⟩ := x
    simp only at hw ⊢
    split
    · split
      · exact .ret (by simp only; omega)
      · exact hc.after (by omega)
    · exact hc.after (by omega)

theorem nextSkippingC_paid {split : SplitFnC} (h : PaidSplit split) (it : Iter) :
    PaidNext it.pos (Iter.nextSkippingC split it) := by
  simp only [Iter.nextSkippingC]
  split
  · exact .ret (by omega)
  have hw := countWhileC_paid isASCIIAlphanumericOrSpace (it.data.drop it.pos)
  generalize countWhileC isASCIIAlphanumericOrSpace (it.data.drop it.pos) = x at hw ⊢
  obtain ⟨n, k⟩ := x
  simp only at hw ⊢
  split
  · exact .ret (by simp only; omega)
  split
  · exact (callSplitC_paid h { it with start := it.pos, pos := it.pos + k - 1 }).after (by simp only; omega)
  · exact (callSplitC_paid h { it with start := it.pos, pos := it.pos + k }).after (by simp only; omega)

namespace Graphemes

theorem csiLoopC_paid : ∀ (d : Bytes) (seen : Bool) (i : Nat), (csiLoopC seen i d).2 ≤ i + (csiLoopC seen i d).1
  | [], _, _ => Nat.zero_le _
  | x :: d, seen, i => by
    have h1 := csiLoopC_paid d seen (i + 1)
    have h2 := csiLoopC_paid d true (i + 1)
    simp only [csiLoopC]
    repeat' split
    all_goals simp only [after_fst, after_snd]
    all_goals omega

theorem oscLoopC_paid : ∀ (d : Bytes) (i b : Nat), (oscLoopC i d).2 = some b → b ≤ i + 1 + (oscLoopC i d).1
  | [], _, _ => by intro h; cases h
  | x :: d, i, b => by
    have h1 := oscLoopC_paid d (i + 1) b
    simp only [oscLoopC]
    repeat' split
    all_goals simp only [after_fst, after_snd]
    all_goals intro h
    all_goals first | (have := h1 h; omega) | (cases h; omega)

theorem stLoopC_paid : ∀ (d : Bytes) (i b : Nat), (stLoopC i d).2 = some b → b ≤ i + 1 + (stLoopC i d).1
  | [], _, _ => by intro h; cases h
  | x :: d, i, b => by
    have h1 := stLoopC_paid d (i + 1) b
    simp only [stLoopC]
    repeat' split
    all_goals simp only [after_fst, after_snd]
    all_goals intro h
    all_goals first | (have := h1 h; omega) | (cases h; omega)

theorem oscLoopC1C_paid : ∀ (d : Bytes) (i b : Nat), (oscLoopC1C i d).2 = some b → b ≤ i + (oscLoopC1C i d).1
  | [], _, _ => by intro h; cases h
  | x :: d, i, b => by
    have h1 := oscLoopC1C_paid d (i + 1) b
    simp only [oscLoopC1C]
    repeat' split
    all_goals simp only [after_fst, after_snd]
    all_goals intro h
    all_goals first | (have := h1 h; omega) | (cases h; omega)

theorem stLoopC1C_paid : ∀ (d : Bytes) (i b : Nat), (stLoopC1C i d).2 = some b → b ≤ i + (stLoopC1C i d).1
  | [], _, _ => by intro h; cases h
  | x :: d, i, b => by
    have h1 := stLoopC1C_paid d (i + 1) b
    simp only [stLoopC1C]
    repeat' split
    all_goals simp only [after_fst, after_snd]
    all_goals intro h
    all_goals first | (have := h1 h; omega) | (cases h; omega)

theorem nfLoopC_paid : ∀ (d : Bytes) (i : Nat), (nfLoopC i d).2 ≤ i + (nfLoopC i d).1
  | [], _ => Nat.zero_le _
  | x :: d, i => by
    have h1 := nfLoopC_paid d (i + 1)
    simp only [nfLoopC]
    repeat' split
    all_goals simp only [after_fst, after_snd]
    all_goals omega

theorem ansiEscapeLengthC_paid (d : Bytes) : (ansiEscapeLengthC d).2 ≤ 3 + (ansiEscapeLengthC d).1 := by
  rcases d with _ | ⟨x0, _ | ⟨x1, d⟩⟩
  · exact Nat.zero_le _
  · exact Nat.zero_le _
  have h1 := csiLoopC_paid d false 0
  have h2 := oscLoopC_paid d 0
  have h3 := stLoopC_paid d 0
  have h4 := nfLoopC_paid d 2
  simp only [ansiEscapeLengthC]
  generalize csiLoopC false 0 d = a at h1 ⊢
  generalize oscLoopC 0 d = b at h2 ⊢
  generalize stLoopC 0 d = c at h3 ⊢
  obtain ⟨n1, a⟩ := a
  obtain ⟨n2, b⟩ := b
  obtain ⟨n3, c⟩ := c
  have h2' : ∀ b', b = some b' → b' ≤ 1 + n2 := fun b' e => by have := h2 b' e; simp only at this; omega
  have h3' : ∀ b', c = some b' → b' ≤ 1 + n3 := fun b' e => by have := h3 b' e; simp only at this; omega
  simp only at h1
  cases b <;> cases c <;> simp only [Option.some.injEq, forall_eq', reduceCtorEq] at h2' h3' ⊢ <;>
    repeat' split
  all_goals first | omega | (simp only; omega)

theorem ansiEscapeLength8BitC_paid (d : Bytes) :
    (ansiEscapeLength8BitC d).2 ≤ 1 + (ansiEscapeLength8BitC d).1 := by
  rcases d with _ | ⟨x0, d⟩
  · exact Nat.zero_le _
  have h1 := csiLoopC_paid d false 0
  have h2 := oscLoopC1C_paid d 0
  have h3 := stLoopC1C_paid d 0
  simp only [ansiEscapeLength8BitC]
  generalize csiLoopC false 0 d = a at h1 ⊢
  generalize oscLoopC1C 0 d = b at h2 ⊢
  generalize stLoopC1C 0 d = c at h3 ⊢
  obtain ⟨n1, a⟩ := a
  obtain ⟨n2, b⟩ := b
  obtain ⟨n3, c⟩ := c
  have h2' : ∀ b', b = some b' → b' ≤ n2 := fun b' e => by have := h2 b' e; simp only at this; omega
  have h3' : ∀ b', c = some b' → b' ≤ n3 := fun b' e => by have := h3 b' e; simp only at this; omega
  simp only at h1
  cases b <;> cases c <;> simp only [Option.some.injEq, forall_eq', reduceCtorEq] at h2' h3' ⊢ <;>
    repeat' split
  all_goals first | omega | (simp only; omega)

/-- The first byte has been paid for. -/
theorem nextPlainC_paid {split : SplitFnC} (h : PaidSplit split) (it : Iter) (b : Nat) :
    PaidNext (it.pos + 4) (nextPlainC split it b) := by
  have hc := callSplitC_paid h it
  simp only [nextPlainC]
  split
  · split
    · exact .ret (by simp only; omega)
    · cases index it.data (it.pos + 1) with
      | error f => exact .fault
      | ok b1 =>
        simp only
        split
        · exact .ret (by simp only; omega)
        · exact hc.after (by omega)
  · exact hc.mono (by omega)

theorem next8C_paid {split : SplitFnC} (h : PaidSplit split) (o : Options) (it : Iter) (b : Nat) :
    PaidNext (it.pos + 4) (next8C split o it b) := by
  have hp := nextPlainC_paid h it b
  simp only [next8C]
  split
  · cases sliceFrom it.data it.pos with
    | error f => exact .fault
    | ok d =>
      have ha := ansiEscapeLength8BitC_paid d
      simp only
      generalize ansiEscapeLength8BitC d = x at ha ⊢
      obtain ⟨n, a⟩ := x
      simp only at ha ⊢
      split
      · exact .ret (by simp only; omega)
      · exact hp.after (by omega)
  · exact hp

theorem nextC_paid {split : SplitFnC} (h : PaidSplit split) (o : Options) (it : Iter) :
    PaidNext it.pos (nextC split o it) := by
  have hp := next8C_paid h o { it with start := it.pos }
  simp only [nextC]
  simp only at hp
  split
  · exact .ret (by omega)
  cases index it.data it.pos with
  | error f => exact .fault
  | ok x =>
    simp only
    split
    · cases sliceFrom it.data it.pos with
      | error f => exact .fault
      | ok d =>
        have ha := ansiEscapeLengthC_paid d
        simp only
        generalize ansiEscapeLengthC d = y at ha ⊢
        obtain ⟨n, a⟩ := y
        simp only at ha ⊢
        split
        · exact .ret (by simp only; omega)
        · exact (hp _).after (by omega)
    · exact (hp _).after (by omega)

end Graphemes

/-- The work of the user's loop, if every call of `Next` pays. -/
theorem collectC_paid {split : SplitFn} {next : Iter → Iter × NextOut} {adv : Bytes → Nat}
    (hn : NextSpec split next adv) {nextC : Iter → Counted (Iter × NextOut)}
    (he : ∀ it, it.split = split → (nextC it).2 = next it)
    (hz : ∀ it : Iter, it.split = split → it.data.length ≤ it.pos → (nextC it).1 = 0)
    (hp : ∀ it : Iter, PaidNext it.pos (nextC it)) (fuel : Nat) (it : Iter) (h0 : it.split = split) (h1 : it.pos = 0)
    (h2 : it.data.length < fuel) : it.data.length ≤ 4 * (collectC nextC fuel it).1 := by
  have := collectC_inv hn he hz (Q := fun d t => d.length ≤ 4 * t) (Nat.zero_le _)
    (fun it hs hlt t ht => by
      have h3 := hp it _ (by rw [he it hs, hn.next_lt it hs hlt])
      simp only [List.length_drop] at h3 ht ⊢
      omega)
    fuel it h0 (by omega) (by omega)
  rw [h1, List.drop_zero] at this
  exact this

theorem tokensC_ge (p : Pkg) (c : Config p) (data : Bytes) : data.length ≤ 4 * (tokensC p c data).1 := by
  cases p with
  | graphemes =>
    exact collectC_paid (Graphemes.next_spec c Graphemes.good) (nextC := Graphemes.nextC Graphemes.splitFuncC c)
      (fun it hs => Graphemes.nextC_snd (fun d e => by rw [hs]; exact Graphemes.splitFuncC_snd d e) c)
      (fun it _ hp => Graphemes.nextC_done hp) (Graphemes.nextC_paid Graphemes.paidSplit c)
      (data.length + 1) (Graphemes.fromBytes data) rfl rfl (by simp [Graphemes.fromBytes])
  | words =>
    exact collectC_paid (Words.next_spec (Words.joiners_good c)) (nextC := Words.nextC (Words.joinersSplitFuncC c))
      (fun it hs => Words.nextC_snd fun d e => by rw [hs]; exact Words.joinersSplitFuncC_snd c d e)
      (fun it _ hp => Words.nextC_done hp) (Words.nextC_paid (Words.paidSplit c))
      (data.length + 1) (Words.setJoiners (Words.fromBytes data) c) rfl rfl
      (by simp [Words.setJoiners, Words.fromBytes, Iter.setSplit])
  | phrases =>
    exact collectC_paid Phrases.next_spec (nextC := Iter.nextSkippingC Phrases.splitFuncC)
      (fun it hs => nextSkippingC_snd fun d e => by rw [hs]; exact Phrases.splitFuncC_snd d e)
      (fun it _ hp => nextSkippingC_done hp) (nextSkippingC_paid Phrases.paidSplit)
      (data.length + 1) (Phrases.fromBytes data) rfl rfl (by simp [Phrases.fromBytes])
  | sentences =>
    exact collectC_paid Sentences.next_spec (nextC := Iter.nextSkippingC Sentences.splitFuncC)
      (fun it hs => nextSkippingC_snd fun d e => by rw [hs]; exact Sentences.splitFuncC_snd d e)
      (fun it _ hp => nextSkippingC_done hp) (nextSkippingC_paid Sentences.paidSplit)
      (data.length + 1) (Sentences.fromBytes data) rfl rfl (by simp [Sentences.fromBytes])

end Uax29
