import Verif.Proofs.CostIter
import Verif.Proofs.SentencesFast
/-! # The work of the sentences, and of the ANSI options -/
namespace Uax29

theorem subsequentLoopC_len {T : Trie} (hT : T.Wf) (ig props : Nat) (data : Bytes) (eof : Bool) : ∀ fuel i,
    i ≤ data.length → (subsequentLoopC T ig props data eof fuel i).1 ≤ data.length - i := by
  intro fuel
  induction fuel with
  | zero => intro i _; exact Nat.zero_le _
  | succ fuel ih =>
    intro i h1
    simp only [subsequentLoopC]
    by_cases hi : i < data.length
    · obtain ⟨v, w, e, h3, h4, _⟩ := hT.lookupAt_ok hi
      rw [if_pos hi, e]
      simp only
      by_cases hw : w = 0
      · rw [if_pos hw]
        split <;> simp only <;> omega
      · rw [if_neg hw]
        split
        · have := ih (i + w) h3
          rw [after_fst]
          omega
        · split <;> simp only <;> omega
    · rw [if_neg hi]
      split <;> exact Nat.zero_le _

theorem subsequentFromC_len {T : Trie} (hT : T.Wf) (ig props : Nat) (data : Bytes) (i : Nat) (eof : Bool) :
    (subsequentFromC T ig props data i eof).1 ≤ data.length := by
  simp only [subsequentFromC]
  by_cases hi : i ≤ data.length
  · rw [sliceFrom_ok hi]
    have := subsequentLoopC_len hT ig props (data.drop i) eof ((data.drop i).length + 1) 0 (Nat.zero_le _)
    simp only [List.length_drop] at this ⊢
    omega
  · simp [sliceFrom, hi]

/-- A loop whose passes cost at most `K`, with a measure `m` that is at least `f b` when it ends at `b`. -/
theorem runLoopC_quad {σ : Type} {body : σ → Counted (Step σ)} {inv : σ → Prop} {m : σ → Nat} {f : Nat → Nat} {K : Nat}
    (hK : ∀ s, inv s → (body s).1 ≤ K)
    (hm : ∀ s s', inv s → (body s).2 = .cont s' → inv s' ∧ m s' < m s)
    (hb : ∀ s b, inv s → (body s).2 = .brk b → f b ≤ m s) :
    ∀ fuel s n b, inv s → runLoopC body fuel s = (n, .brk b) → f b ≤ m s ∧ n ≤ K * (m s - f b + 1) := by
  intro fuel
  induction fuel with
  | zero => intro s n b _ h; cases h
  | succ fuel ih =>
    intro s n b hs h
    have h1 := hK s hs
    have h2 := hm s
    have h3 := hb s
    simp only [runLoopC] at h
    rcases hx : body s with ⟨c, x⟩
    rw [hx] at h h1 h2 h3
    cases x with
    | cont s' =>
      simp only at h
      rcases hr : runLoopC body fuel s' with ⟨n', o⟩
      rw [hr] at h
      simp only [after] at h
      cases h
      obtain ⟨h4, h5⟩ := h2 s' hs rfl
      obtain ⟨h6, h7⟩ := ih s' n' b h4 hr
      refine ⟨by omega, ?_⟩
      have : K * (m s' - f b + 1) + K ≤ K * (m s - f b + 1) := by
        rw [← Nat.mul_succ]
        exact Nat.mul_le_mul_left _ (by omega)
      simp only at h1
      omega
    | brk p =>
      simp only at h
      cases h
      refine ⟨h3 b hs rfl, ?_⟩
      exact Nat.le_trans h1 (Nat.le_mul_of_pos_right _ (by omega))
    | more => cases h
    | fault f => cases h

namespace Sentences

theorem scan8C_len (data : Bytes) (eof : Bool) : ∀ fuel p, p ≤ data.length →
    (scan8C data eof fuel p).1 ≤ data.length - p := by
  intro fuel
  induction fuel with
  | zero => intro i _; exact Nat.zero_le _
  | succ fuel ih =>
    intro i h1
    simp only [scan8C]
    by_cases hi : i < data.length
    · obtain ⟨v, w, e, h3, h4, _⟩ := wf.lookupAt_ok hi
      rw [if_pos hi, e]
      simp only
      by_cases hw : w = 0
      · rw [if_pos hw]
        split <;> simp only <;> omega
      · rw [if_neg hw]
        split
        · simp only; omega
        · have := ih (i + w) h3
          rw [after_fst]
          omega
    · rw [if_neg hi]
      exact Nat.zero_le _

theorem stepC_le (data : Bytes) (eof : Bool) (s : State) (hs : s.pos ≤ data.length) :
    (stepC data eof s).1 ≤ 2 * data.length + 1 := by
  have h8 := scan8C_len data eof (data.length + 1) s.pos hs
  unfold stepC
  split
  · split <;> exact Nat.zero_le _
  · rcases trie.lookupAt data s.pos with f | ⟨v, w⟩
    · simp only; omega
    · simp only
      split
      · split <;> simp only <;> omega
      · rw [after_fst]
        have : ∀ next : State, (rulesC data eof s next).1 ≤ 2 * data.length := by
          intro next
          simp only [rulesC]
          split
          · exact Nat.zero_le _
          split
          · exact Nat.zero_le _
          split
          · exact Nat.zero_le _
          split
          · exact Nat.zero_le _
          split
          · exact Nat.zero_le _
          split
          · exact Nat.zero_le _
          split
          · generalize scan8C data eof (data.length + 1) s.pos = x at h8 ⊢
            obtain ⟨n, r⟩ := x
            simp only at h8
            cases r with
            | stop p =>
              have h9 := subsequentFromC_len wf _Ignore _Lower data p eof
              simp only
              generalize subsequentFromC trie _Ignore _Lower data p eof = y at h9 ⊢
              obtain ⟨m, r⟩ := y
              simp only at h9
              cases r with
              | error f => simp only; omega
              | ok q =>
                obtain ⟨a, mo⟩ := q
                simp only
                split
                · simp only; omega
                split <;> simp only <;> omega
            | _ => simp only; omega
          · exact Nat.zero_le _
        exact Nat.le_trans (Nat.add_le_add_left (this _) 1) (by omega)

theorem step_brk {data : Bytes} {s : State} {b : Nat} (h : step data true s = .brk b) (hs : s.pos ≤ data.length) :
    s.pos ≤ b := by
  unfold step at h
  split at h
  · simp at h; omega
  · split at h
    · cases h
    · split at h
      · simp at h; omega
      · rw [rules_eq] at h
        revert h
        refine rulesWith_rel (R := fun x _ => x = .brk b → s.pos ≤ b) (a2 := fun x => x) ?_ ?_ ?_
        · intro h; cases h
        · intro h; cases h; exact Nat.le_refl _
        · intro _ x hx h
          unfold ahead8 at h
          split at h
          · cases h
          · cases h
          · cases h; exact hs
          · split at h
            · cases h
            · split at h
              · cases h
              · split at h
                · cases h
                · exact hx h

theorem erase : (fun d e => (splitFuncC d e).2) = splitFunc := by
  funext d e; exact splitFuncC_snd d e

theorem splitFuncC_le (d : Bytes) (hd : d ≠ []) :
    (splitFuncC d true).1 ≤ (4 * d.length + 3) * splitAdv splitFunc d := by
  obtain ⟨v, w, e, h1, _, hv⟩ := wf.lookup_ok hd
  have h0 := List.length_pos_iff.mpr hd
  have h0' : ¬ d.length = 0 := by omega
  obtain ⟨b, tok, g1, g2, g3⟩ := good d hd
  have hadv : splitAdv splitFunc d = b := by simp [splitAdv, g3]
  rw [hadv]
  have hmul : 4 * d.length + 3 ≤ (4 * d.length + 3) * b := Nat.le_mul_of_pos_right _ g1
  have e' : trie.lookupAt d 0 = .ok (v, w) := by rw [lookupAt_eq (by omega)]; exact e
  by_cases hw : w = 0
  · simp only [splitFuncC, if_neg h0', e', if_pos hw]
    simp only [Bool.not_true, Bool.false_eq_true, if_false]
    omega
  · rw [← splitFuncC_snd] at g3
    simp only [splitFuncC, if_neg h0', e', if_neg hw, after_fst, after_snd, finishC] at g3 ⊢
    generalize hs0 : (⟨w, v, 0, 0, 0, 0, 0, 0⟩ : State) = s0 at *
    rcases hr : runLoopC (stepC d true) (loopFuel d) s0 with ⟨n, o⟩
    have ho : o = .brk b := by
      rw [hr] at g3
      cases o with
      | brk p =>
        simp only [finish] at g3
        split at g3
        · cases g3
        · cases g3; rfl
      | more => simp [finish, SplitRes.requestMore] at g3; omega
      | fault f => simp [finish] at g3
    subst ho
    have hq := runLoopC_quad (inv := Inv d) (m := measure d) (f := fun b => 2 * (d.length - b)) (K := 2 * d.length + 1)
      (fun s hs => stepC_le d true s hs.2.1)
      (fun s s' hs h => by
        rw [stepC_snd] at h
        have := step_good (eof := true) s hs
        rw [h] at this
        exact this)
      (fun s b hs h => by
        rw [stepC_snd] at h
        have := step_brk h hs.2.1
        unfold measure
        omega)
      (loopFuel d) s0 n b (by rw [← hs0]; exact ⟨by simp only; omega, by simp only; exact h1, hv⟩) hr
    have hm : measure d s0 ≤ 2 * (d.length - w) + 1 := by
      rw [← hs0]
      unfold measure
      simp only
      split <;> omega
    have h5 : measure d s0 - 2 * (d.length - b) + 1 ≤ 2 * b := by omega
    have h6 := Nat.le_trans hq.2 (Nat.mul_le_mul_left _ h5)
    have h7 : (2 * d.length + 1) * (2 * b) = (4 * d.length + 2) * b := by
      rw [← Nat.mul_assoc]
      congr 1
      omega
    have h8 : (4 * d.length + 3) * b = (4 * d.length + 2) * b + b := by rw [← Nat.succ_mul]
    omega

theorem work_quad (N : Nat) (d : Bytes) (hd : d ≠ []) (t : Nat)
    (ht : (d.drop (skipAdv splitFunc d)).length ≤ N → t ≤ (4 * N + 5) * (d.drop (skipAdv splitFunc d)).length) :
    d.length ≤ N → skipWork splitFuncC d + t ≤ (4 * N + 5) * d.length := by
  intro hN
  obtain ⟨hle, hall⟩ := countWhileC_le isASCIIAlphanumericOrSpace d
  have hcl := countWhile_le isASCIIAlphanumericOrSpace d
  have h0 := List.length_pos_iff.mpr hd
  have hb1 := next_spec.adv_pos d hd
  have hb2 := next_spec.adv_le d hd
  have ht := ht (by simp only [List.length_drop]; omega)
  have key : skipWork splitFuncC d ≤ (4 * N + 5) * skipAdv splitFunc d := by
    have hmul : ∀ k, (4 * N + 5) * k = (4 * N + 3) * k + 2 * k := fun k => by rw [← Nat.add_mul]
    simp only [skipAdv, skipWork] at *
    generalize (countWhileC isASCIIAlphanumericOrSpace d).1 = n at *
    generalize countWhile isASCIIAlphanumericOrSpace d = c at *
    by_cases hf : c ≥ d.length
    · rw [if_pos hf] at hb1 ⊢
      rw [if_pos hf, hmul]
      omega
    · rw [if_neg hf] at hb1 ⊢
      rw [if_neg hf]
      have hne : d.drop (c - 1) ≠ [] := by simp; omega
      obtain ⟨g1, g2⟩ := good.adv hne
      have h1 := splitFuncC_le (d.drop (c - 1)) hne
      generalize splitAdv splitFunc (d.drop (c - 1)) = k at *
      have h2 : (4 * (d.drop (c - 1)).length + 3) * k ≤ (4 * N + 3) * k := by
        apply Nat.mul_le_mul_right
        simp only [List.length_drop]
        omega
      have h3 : (4 * N + 3) * k ≤ (4 * N + 3) * (c - 1 + k) := Nat.mul_le_mul_left _ (by omega)
      rw [hmul]
      omega
  have h3 : (4 * N + 5) * d.length = (4 * N + 5) * skipAdv splitFunc d + (4 * N + 5) * (d.drop (skipAdv splitFunc d)).length := by
    rw [← Nat.mul_add, List.length_drop]
    congr 1
    omega
  omega

theorem tokensC_le (data : Bytes) : (tokensC data).1 ≤ (4 * data.length + 5) * data.length := by
  have h := collectC_le next_spec (nextC := Iter.nextSkippingC splitFuncC)
    (fun it hs => nextSkippingC_snd fun d e => by rw [hs]; exact splitFuncC_snd d e)
    (fun it _ hp => nextSkippingC_work hp) (fun it _ hp => nextSkippingC_done hp)
    (Q := fun d t => d.length ≤ data.length → t ≤ (4 * data.length + 5) * d.length)
    (fun _ => Nat.zero_le _) (work_quad data.length)
    (data.length + 1) (fromBytes data) rfl (Nat.zero_le _) (by simp [fromBytes])
  exact h (Nat.le_refl _)

theorem tokensC_snd (data : Bytes) : (tokensC data).2 = tokens data := by
  have hn := next_spec
  refine collectC_snd (split := splitFunc)
    (fun it hs => nextSkippingC_snd fun d e => by rw [hs]; exact splitFuncC_snd d e) (fun it hs => ?_) _ _ rfl
  rcases Nat.lt_or_ge it.pos it.data.length with hp | hp
  · have := hn.next_lt it hs hp
    unfold next at this
    rw [this]; exact hs
  · have := hn.next_ge it hs hp
    unfold next at this
    rw [this]; exact hs

/-! ### A text on which the work is quadratic: a full stop and closing parentheses -/

/-- `.))))` with `n` parentheses. -/
def closes (n : Nat) : Bytes := 0x2E :: List.replicate n 0x29

theorem closes_drop {n p : Nat} (h : 0 < p) : (closes n).drop p = List.replicate (n + 1 - p) 0x29 := by
  obtain ⟨p, rfl⟩ : ∃ q, p = q + 1 := ⟨p - 1, by omega⟩
  simp [closes]

theorem closes_lookup {n p : Nat} (h : 0 < p) (hp : p ≤ n) : trie.lookupAt (closes n) p = .ok (_Close, 1) := by
  rw [lookupAt_eq (by simp [closes]; omega), closes_drop h,
    show n + 1 - p = (n - p) + 1 by omega, List.replicate_succ]
  have h1 : trie.ascii 0x29 = _Close := by decide +kernel
  rw [(wf.lookup_ascii (b := 0x29) (by decide) _).1, h1]

theorem closes_scan8 (n : Nat) : ∀ m fuel p, 0 < p → p + m = n + 1 → m < fuel →
    scan8C (closes n) true fuel p = (m, .stop (n + 1)) := by
  intro m
  induction m with
  | zero =>
    intro fuel p h1 h2 h3
    obtain ⟨fuel, rfl⟩ : ∃ f, fuel = f + 1 := ⟨fuel - 1, by omega⟩
    have : ¬ p < (closes n).length := by simp [closes]; omega
    simp only [scan8C, if_neg this]
    rw [show p = n + 1 by omega]
  | succ m ih =>
    intro fuel p h1 h2 h3
    obtain ⟨fuel, rfl⟩ : ∃ f, fuel = f + 1 := ⟨fuel - 1, by omega⟩
    have : p < (closes n).length := by simp [closes]; omega
    simp only [scan8C, if_pos this, closes_lookup h1 (show p ≤ n by omega)]
    rw [if_neg (by decide), if_neg (by decide), ih fuel (p + 1) (by omega) (by omega) (by omega)]
    simp [after, Nat.add_comm]

/-- The states on this text. -/
def ClosesInv (s : State) : Prop :=
  s.current = _ATerm ∨ (s.current = _Close ∧ s.lastExIgnoreClose = _ATerm ∧ s.lastExIgnoreSpClose = _ATerm)

theorem closes_step {n : Nat} {s : State} (h0 : 0 < s.pos) (hp : s.pos ≤ n) (hs : ClosesInv s) :
    ∃ s', stepC (closes n) true s = (1 + (n + 1 - s.pos), .cont s') ∧ s'.pos = s.pos + 1 ∧ ClosesInv s' := by
  have hne : ¬ s.pos = (closes n).length := by simp [closes]; omega
  have hlen : (closes n).length = n + 1 := by simp [closes]
  have h8 := closes_scan8 n (n + 1 - s.pos) ((closes n).length + 1) s.pos h0 (by omega) (by omega)
  have hsub : subsequentFromC trie _Ignore _Lower (closes n) (n + 1) true = (0, .ok (notfound, false)) := by
    simp [subsequentFromC, sliceFrom_ok, subsequentLoopC, closes]
  have hlast : s.current = _ATerm ∨ s.current = _Close := by
    rcases hs with h | ⟨h, _⟩
    · exact .inl h
    · exact .inr h
  have hrem : (remember s).lastExIgnoreClose = _ATerm ∧ (remember s).lastExIgnoreSpClose = _ATerm
      ∧ is (remember s).lastExIgnore _ATerm = decide (s.current = _ATerm) := by
    rcases hs with h | ⟨h, h1, h2⟩
    · have k1 : is _ATerm _Ignore = false := by decide
      have k2 : is _ATerm _Sp = false := by decide
      have k3 : is _ATerm _Close = false := by decide
      simp only [remember, h, k1, k2, k3, Bool.not_false, if_true]
      decide
    · have k1 : is _Close _Ignore = false := by decide
      have k2 : is _Close _Sp = false := by decide
      have k3 : is _Close _Close = true := by decide
      simp only [remember, h, k1, k2, k3, Bool.not_false, Bool.not_true, if_true, h1, h2]
      decide
  refine ⟨{ remember s with pos := s.pos + 1, current := _Close }, ?_, rfl, .inr ⟨rfl, hrem.1, hrem.2.1⟩⟩
  have hz : ¬ (_Close ||| s.current) = 0 := by rcases hlast with h | h <;> rw [h] <;> decide
  have hps : is s.current _ParaSep = false := by rcases hlast with h | h <;> rw [h] <;> decide
  have c1 : is _Close _LF = false := by decide
  have c2 : is _Close (_Extend ||| _Format) = false := by decide
  have c3 : is _Close _Numeric = false := by decide
  have c4 : is _Close _Upper = false := by decide
  have c5 : is _ATerm _ATerm = true := by decide
  have c6 : is _Close (_SContinue ||| _SATerm) = false := by decide
  have c7 : is _Close (_Close ||| _Sp ||| _ParaSep) = true := by decide
  have c8 : is _ATerm _SATerm = true := by decide
  simp only [stepC, if_neg hne, closes_lookup h0 hp, if_neg (show ¬ (1 : Nat) = 0 by decide), rulesC, if_neg hz, c1,
    c2, c3, c4, hps, hrem.1, hrem.2.1, h8, hsub, stepRest, c5, c6, c7, c8, Bool.false_and, Bool.false_eq_true,
    if_false, if_true, Bool.and_self, after]
  simp

theorem closes_loop (n : Nat) : ∀ m fuel s, 0 < s.pos → s.pos + m = n + 1 → m < fuel → ClosesInv s →
    ∃ c, runLoopC (stepC (closes n) true) fuel s = (c, .brk (n + 1)) ∧ m * m ≤ 2 * c := by
  intro m
  induction m with
  | zero =>
    intro fuel s h1 h2 h3 _
    obtain ⟨fuel, rfl⟩ : ∃ f, fuel = f + 1 := ⟨fuel - 1, by omega⟩
    have h4 : s.pos = (closes n).length := by simp [closes]; omega
    have h5 : s.pos = n + 1 := by omega
    refine ⟨0, ?_, Nat.le_refl _⟩
    simp only [runLoopC, stepC, if_pos h4, Bool.not_true, Bool.false_eq_true, if_false]
    rw [h5]
  | succ m ih =>
    intro fuel s h1 h2 h3 hs
    obtain ⟨fuel, rfl⟩ : ∃ f, fuel = f + 1 := ⟨fuel - 1, by omega⟩
    obtain ⟨s', e, hp, hs'⟩ := closes_step (n := n) h1 (by omega) hs
    obtain ⟨c, e', hc⟩ := ih fuel s' (by omega) (by omega) (by omega) hs'
    refine ⟨1 + (n + 1 - s.pos) + c, ?_, ?_⟩
    · simp only [runLoopC, e, e', after]
    · have : (m + 1) * (m + 1) = m * m + 2 * m + 1 := by
        rw [Nat.mul_add, Nat.add_mul]; omega
      omega

theorem closes_split (n : Nat) : n * n ≤ 2 * (splitFuncC (closes n) true).1 := by
  have h0 : ¬ (closes n).length = 0 := by simp [closes]
  have hl : trie.lookupAt (closes n) 0 = .ok (_ATerm, 1) := by
    rw [lookupAt_eq (Nat.zero_le _)]
    have h1 : trie.ascii 0x2E = _ATerm := by decide +kernel
    have := (wf.lookup_ascii (b := 0x2E) (by decide) (List.replicate n 0x29)).1
    rw [h1] at this
    exact this
  obtain ⟨c, e, hc⟩ := closes_loop n n (loopFuel (closes n)) ⟨1, _ATerm, 0, 0, 0, 0, 0, 0⟩ (by decide) (by simp; omega)
    (by simp [loopFuel, closes]; omega) (.inl rfl)
  simp only [splitFuncC, if_neg h0, hl, if_neg (show ¬ (1 : Nat) = 0 by decide), e, finishC, after_fst]
  omega

theorem closes_tokens (n : Nat) : n * n ≤ 2 * (tokensC (closes n)).1 := by
  have h := collectC_le next_spec (nextC := Iter.nextSkippingC splitFuncC)
    (fun it hs => nextSkippingC_snd fun d e => by rw [hs]; exact splitFuncC_snd d e)
    (fun it _ hp => nextSkippingC_work hp) (fun it _ hp => nextSkippingC_done hp)
    (Q := fun d t => d = closes n → n * n ≤ 2 * t)
    (fun h => by cases h)
    (fun d _ t _ h => by
      subst h
      have h1 := closes_split n
      have h2 : countWhile isASCIIAlphanumericOrSpace (closes n) = 0 := by
        simp only [closes, countWhile]
        exact if_neg (by decide)
      have h3 : ¬ 0 ≥ (closes n).length := by simp [closes]
      simp only [skipWork, h2, if_neg h3]
      rw [List.drop_zero]
      omega)
    ((closes n).length + 1) (fromBytes (closes n)) rfl (Nat.zero_le _) (by simp [fromBytes])
  exact h rfl

theorem closes_superlinear (c : Nat) : c * (closes (2 * c + 3)).length < (tokensC (closes (2 * c + 3))).1 := by
  have h := closes_tokens (2 * c + 3)
  have hl : (closes (2 * c + 3)).length = 2 * c + 4 := by simp [closes]
  rw [hl]
  have e1 : (2 * c + 3) * (2 * c + 3) = 4 * (c * c) + 12 * c + 9 := by
    rw [Nat.mul_add, Nat.add_mul]
    have : 2 * c * (2 * c) = 4 * (c * c) := by rw [Nat.mul_assoc, Nat.mul_left_comm c 2 c]; omega
    omega
  have e2 : c * (2 * c + 4) = 2 * (c * c) + 4 * c := by
    rw [Nat.mul_add, Nat.mul_left_comm]; omega
  omega

end Sentences
end Uax29
