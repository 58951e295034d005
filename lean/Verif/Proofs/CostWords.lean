import Verif.Proofs.CostBound
import Verif.Proofs.WordsFast
/-! # The work of the words, phrases and graphemes -/
namespace Uax29

/-- What the rules of words and phrases cost and where they lead, with at most `m` look-aheads over the
`k` bytes of ignorable pieces at `q`. -/
def LookOk {σ : Type} (pos : σ → Nat) (m k p q : Nat) (x : Counted (Step σ)) : Prop :=
  x.1 ≤ m * (k + 1) ∧ (x.2 = .brk p ∨ ∃ s, x.2 = .cont s ∧ (pos s = q ∨ pos s = q + k))

theorem LookOk.brk {σ : Type} {pos : σ → Nat} {m k p q : Nat} : LookOk pos m k p q (0, .brk p) :=
  ⟨Nat.zero_le _, .inl rfl⟩

theorem LookOk.cont {σ : Type} {pos : σ → Nat} {m k p q : Nat} {s : σ} (h : pos s = q) :
    LookOk pos m k p q (0, .cont s) := ⟨Nat.zero_le _, .inr ⟨s, rfl, .inl h⟩⟩

theorem LookOk.mono {σ : Type} {pos : σ → Nat} {m m' k p q : Nat} {x : Counted (Step σ)} (h : LookOk pos m k p q x)
    (hm : m ≤ m') : LookOk pos m' k p q x := ⟨Nat.le_trans h.1 (Nat.mul_le_mul_right _ hm), h.2⟩

theorem lookup_drop {T : Trie} (hT : T.Wf) {d : Bytes} {p v w : Nat} (hp : p ≤ d.length)
    (h : T.lookup (d.drop p) = .ok (v, w)) : p ≠ d.length ∧ p + w ≤ d.length ∧ T.lookupAt d p = .ok (v, w) := by
  have e : T.lookupAt d p = .ok (v, w) := by rw [lookupAt_eq hp]; exact h
  have hlt := lookupAt_pos_lt e
  obtain ⟨v', w', e', h2, _, _⟩ := hT.lookupAt_ok hlt
  rw [e] at e'
  cases e'
  exact ⟨by omega, h2, e⟩

theorem lookup_length {T : Trie} {d : Bytes} {r : Nat × Nat} (h : T.lookup d = .ok r) : ¬ d.length = 0 := by
  intro e
  have : d = [] := by cases d <;> simp_all
  exact lookup_nil (this ▸ h)

namespace Words

theorem lookAheadC_ok {props : Nat} {data : Bytes} {next : State} {m k p : Nat} {o : Counted (Step State)}
    (hn : next.pos ≤ data.length) (hk : Ign trie _Ignore (data.drop next.pos) k)
    (h : LookOk (·.pos) m k p next.pos o) :
    LookOk (·.pos) (m + 1) k p next.pos (lookAheadC props data true next o) := by
  obtain ⟨n, a, h1, h2, h3⟩ := subsequentFromC_cost wf _Ignore props hn hk
  simp only [lookAheadC, h1]
  simp only [Bool.false_eq_true, if_false]
  rcases h3 with rfl | rfl
  · simp only [ne_eq, not_true_eq_false, if_false]
    refine ⟨?_, h.2⟩
    have := h.1
    simp only [after_fst, Nat.add_mul]
    omega
  · have : Int.ofNat k ≠ notfound := by simp [notfound]
    simp only [ne_eq, this, not_false_eq_true, if_true]
    refine ⟨?_, .inr ⟨_, rfl, .inr (by simp)⟩⟩
    simp only [Nat.add_mul]
    omega

theorem stepRest3_ok {s next : State} {k : Nat} : LookOk (·.pos) 0 k s.pos next.pos (0, stepRest3 s next) := by
  simp only [stepRest3]
  repeat' split
  all_goals first | exact .brk | exact .cont rfl

theorem rulesC_ok {data : Bytes} {s next : State} {k : Nat} (hn : next.pos ≤ data.length)
    (hk : Ign trie _Ignore (data.drop next.pos) k) :
    LookOk (·.pos) 3 k s.pos next.pos (rulesC data true s next) := by
  have h3 := stepRest3_ok (s := s) (next := next) (k := k)
  have h2 : LookOk (·.pos) 1 k s.pos next.pos (stepRest2C data true s next) := by
    simp only [stepRest2C]
    repeat' split
    all_goals first | exact .cont rfl | exact lookAheadC_ok hn hk h3 | exact h3.mono (by omega)
  have h1 : LookOk (·.pos) 2 k s.pos next.pos (stepRest1C data true s next) := by
    simp only [stepRest1C]
    repeat' split
    all_goals first | exact .cont rfl | exact lookAheadC_ok hn hk h2 | exact h2.mono (by omega)
  simp only [rulesC]
  repeat' split
  all_goals first | exact .brk | exact .cont rfl | exact lookAheadC_ok hn hk h1 | exact h1.mono (by omega)

theorem rulesC_ign {data : Bytes} {s next : State} (hi : is next.current _Ignore = true) :
    LookOk (·.pos) 0 0 s.pos next.pos (rulesC data true s next) := by
  have : is next.current (_Extend ||| _Format ||| _ZWJ) = true := hi
  simp only [rulesC, this, if_true]
  repeat' split
  all_goals first | exact .brk | exact .cont rfl

theorem applyJoiner_ign {runes : Option (List Int)} {bits : Nat} (hb : is bits _Ignore = false) {data : Bytes}
    {pos c c' : Nat} (h : applyJoiner runes bits data pos c = .ok c') : is c' _Ignore = is c _Ignore := by
  cases runes with
  | none => cases h; rfl
  | some rs =>
    simp only [applyJoiner] at h
    split at h
    · cases h
    · cases h
      split
      · rw [or_is, hb, Bool.or_false]
      · rfl

theorem stepC_ok (mid : Option (List Int)) (d : Bytes) (s : State) (hs : s.pos ≤ d.length) :
    PassCost trie _Ignore 3 d (·.pos) s.pos (stepC mid d true s) := by
  have hstep : ∀ v w, trie.lookup (d.drop s.pos) = .ok (v, w) → s.pos ≠ d.length ∧ s.pos + w ≤ d.length ∧
      trie.lookupAt d s.pos = .ok (v, w) := fun v w => lookup_drop wf hs
  refine ⟨fun h => ?_, fun v h => ?_, fun v w h hw hi => ?_, fun v w k h hw hi hk => ?_⟩
  · simp only [stepC, h, if_true, Bool.not_true, Bool.false_eq_true, if_false]
  · obtain ⟨h1, h2, e⟩ := hstep _ _ h
    simp only [stepC, if_neg h1, e, if_true]
  · obtain ⟨h1, h2, e⟩ := hstep _ _ h
    obtain ⟨v', hv'⟩ := applyJoiner_ok mid _MidNumLet (data := d) (pos := s.pos) v hs
    simp only [stepC, if_neg h1, e, if_neg hw, hv']
    have hi' : is v' _Ignore = true := by rw [applyJoiner_ign (by decide) hv']; exact hi
    obtain ⟨h3, h4⟩ := rulesC_ign (data := d) (s := s) (next := ⟨s.pos + w, v',
      if (!is s.current _Ignore) = true then s.current else s.lastExIgnore,
      if (!is s.current _Ignore) = true then s.lastExIgnore else s.lastLastExIgnore, s.regionalIndicatorCount⟩) hi'
    refine ⟨by rw [after_fst]; omega, ?_⟩
    rw [after_snd]
    simpa using h4
  · obtain ⟨h1, h2, e⟩ := hstep _ _ h
    obtain ⟨v', hv'⟩ := applyJoiner_ok mid _MidNumLet (data := d) (pos := s.pos) v hs
    simp only [stepC, if_neg h1, e, if_neg hw, hv']
    obtain ⟨h3, h4⟩ := rulesC_ok (data := d) (s := s) (next := ⟨s.pos + w, v',
      if (!is s.current _Ignore) = true then s.current else s.lastExIgnore,
      if (!is s.current _Ignore) = true then s.lastExIgnore else s.lastLastExIgnore, s.regionalIndicatorCount⟩)
      h2 hk
    exact ⟨by rw [after_fst]; omega, by rw [after_snd]; exact h4⟩

theorem erase (j : Option Joiners) : (fun d e => (joinersSplitFuncC j d e).2) = joinersSplitFunc j := by
  funext d e; exact joinersSplitFuncC_snd j d e

theorem potSplit (j : Option Joiners) : PotSplit trie _Ignore 3 (joinersSplitFuncC j) := by
  refine potSplit_of (σ := State) (pos := (·.pos)) wf (.inr rfl) (by rw [erase]; exact joiners_good j) ?_ ?_
  · intro d v w h
    have h0 := lookup_length h
    have e : trie.lookupAt d 0 = .ok (v, w) := by rw [lookupAt_eq (by omega)]; exact h
    refine ⟨fun hw => ?_, fun hw => ?_⟩
    · simp only [joinersSplitFuncC, if_neg h0, e, if_pos hw]
      rfl
    · obtain ⟨v', hv'⟩ := applyJoiner_ok (j.bind Joiners.leading) _AHLetter (data := d) (pos := 0) v (by omega)
      refine ⟨stepC (j.bind Joiners.middle) d true, ⟨w, v', 0, 0, 0⟩, loopFuel d, ?_, rfl, stepC_ok _ d⟩
      simp only [joinersSplitFuncC, if_neg h0, e, if_neg hw, hv']
  · intro d v h
    have h0 := lookup_length h
    have e : trie.lookupAt d 0 = .ok (v, 0) := by rw [lookupAt_eq (by omega)]; exact h
    rw [erase]
    simp only [splitAdv, joinersSplitFunc, if_neg h0, e, if_true, Bool.not_true, Bool.false_eq_true, if_false,
      finish, sliceTo_ok (Nat.le_refl _)]
    simp

/-- The split function does not stop within a run of letters and digits. -/
theorem splitAdv_run_le (j : Option Joiners) {b : UInt8} {run rest : Bytes}
    (hb : isASCIIAlphanumeric b = true) (hrun : ∀ x ∈ run, isASCIIAlphanumeric x = true) :
    1 + run.length ≤ splitAdv (joinersSplitFunc j) (b :: run ++ rest) := by
  obtain ⟨l, t, hdec⟩ := wf.decodes rest
  have hasc : ∀ x ∈ b :: run, x.toNat < 0x80 := by
    intro x hx
    rcases List.mem_cons.mp hx with rfl | hx
    · exact (ascii_alnum hb).1
    · exact (ascii_alnum (hrun x hx)).1
  have hdec' := wf.decodes_ascii hdec (b :: run) hasc
  have hfirst := fast_cell hb (.inl rfl) (j.bind (·.leading))
  obtain ⟨f1, f2, f3, f4, f5⟩ := fastCell.ok hfirst
  rw [follows_joiners_at j _ _ _ (by simp) hdec' (by
    intro x hx
    simp at hx
    subst hx
    exact ⟨f1, fun h => by rw [f3] at h; cases h⟩)]
  generalize hmid : j.bind (·.middle) = mid at *
  generalize hlead : j.bind (·.leading) = lead at *
  have hcells : (run.map (fun b => (trie.ascii b, [b]))).map (joinCell mid _MidNumLet)
      = run.map (fun b => joinCell mid _MidNumLet (trie.ascii b, [b])) := by
    rw [List.map_map]; rfl
  obtain ⟨m, hgrow⟩ : ∃ m, grow J [joinCell lead _AHLetter (trie.ascii b, [b])]
      (run.map (fun b => joinCell mid _MidNumLet (trie.ascii b, [b])) ++ l.map (joinCell mid _MidNumLet))
      = run.length + m := by
    rw [grow_append]
    · rw [List.length_map]
      exact ⟨_, rfl⟩
    · intro i hi
      rw [List.length_map] at hi
      obtain ⟨y, r', hy⟩ := List.exists_cons_of_ne_nil (l := run.drop i) (by simp; omega)
      have hym : y ∈ run := List.mem_of_mem_drop (by rw [hy]; exact List.mem_cons_self)
      rw [← List.map_drop, ← List.map_take, hy, ← List.map_reverse, List.map_cons, List.cons_append]
      obtain ⟨a, A, hA⟩ := List.exists_cons_of_ne_nil
        (l := (run.take i).reverse.map (fun b => joinCell mid _MidNumLet (trie.ascii b, [b]))
          ++ [joinCell lead _AHLetter (trie.ascii b, [b])]) (by simp)
      rw [hA]
      refine J_fast A _ ?_ (fast_cell (hrun y hym) (.inr rfl) mid)
      have ham : a ∈ (run.take i).reverse.map (fun b => joinCell mid _MidNumLet (trie.ascii b, [b]))
            ++ [joinCell lead _AHLetter (trie.ascii b, [b])] := by rw [hA]; exact List.mem_cons_self
      rcases List.mem_append.mp ham with ham | ham
      · obtain ⟨x, hx, rfl⟩ := List.mem_map.mp ham
        exact fast_cell (hrun x (List.mem_of_mem_take (List.mem_reverse.mp hx))) (.inr rfl) mid
      · rw [List.mem_singleton.mp ham]; exact hfirst
  have hf : firstChunks (joinCell lead _AHLetter) (joinCell mid _MidNumLet) J
      ((b :: run).map (fun b => (trie.ascii b, [b])) ++ l) = (1 + run.length) + m := by
    simp only [List.map_cons, List.cons_append, firstChunks, List.map_append]
    rw [hcells, hgrow]; omega
  rw [hf, show 1 + run.length = ((b :: run).map (fun b => (trie.ascii b, [b]))).length by simp; omega,
    List.take_length_add_append, List.flatMap_append, bytes_ascii, List.length_append]
  simp
  omega

end Words

namespace Phrases

theorem lookAheadC_ok {props : Nat} {data : Bytes} {next : State} {m k p : Nat} {o : Counted (Step State)}
    (hn : next.pos ≤ data.length) (hk : Ign trie _Ignore (data.drop next.pos) k)
    (h : LookOk (·.pos) m k p next.pos o) :
    LookOk (·.pos) (m + 1) k p next.pos (lookAheadC props data true next o) := by
  obtain ⟨n, a, h1, h2, h3⟩ := subsequentFromC_cost wf _Ignore props hn hk
  simp only [lookAheadC, h1]
  simp only [Bool.false_eq_true, if_false]
  rcases h3 with rfl | rfl
  · simp only [ne_eq, not_true_eq_false, if_false]
    refine ⟨?_, h.2⟩
    have := h.1
    simp only [after_fst, Nat.add_mul]
    omega
  · have : Int.ofNat k ≠ notfound := by simp [notfound]
    simp only [ne_eq, this, not_false_eq_true, if_true]
    refine ⟨?_, .inr ⟨_, rfl, .inr (by simp)⟩⟩
    simp only [Nat.add_mul]
    omega

theorem stepRest3_ok {s next : State} {k : Nat} : LookOk (·.pos) 0 k s.pos next.pos (0, stepRest3 s next) := by
  simp only [stepRest3]
  repeat' split
  all_goals first | exact .brk | exact .cont rfl

theorem rulesC_ok {data : Bytes} {s next : State} {k : Nat} (hn : next.pos ≤ data.length)
    (hk : Ign trie _Ignore (data.drop next.pos) k) :
    LookOk (·.pos) 3 k s.pos next.pos (rulesC data true s next) := by
  have h3 := stepRest3_ok (s := s) (next := next) (k := k)
  have h2 : LookOk (·.pos) 1 k s.pos next.pos (stepRest2C data true s next) := by
    simp only [stepRest2C]
    repeat' split
    all_goals first | exact .cont rfl | exact lookAheadC_ok hn hk h3 | exact h3.mono (by omega)
  have h1 : LookOk (·.pos) 2 k s.pos next.pos (stepRest1C data true s next) := by
    simp only [stepRest1C]
    repeat' split
    all_goals first | exact .cont rfl | exact lookAheadC_ok hn hk h2 | exact h2.mono (by omega)
  simp only [rulesC]
  repeat' split
  all_goals first | exact .brk | exact .cont rfl | exact lookAheadC_ok hn hk h1 | exact h1.mono (by omega)

theorem rulesC_ign {data : Bytes} {s next : State} (hi : is next.current _Ignore = true) :
    LookOk (·.pos) 0 0 s.pos next.pos (rulesC data true s next) := by
  have : is next.current (_Extend ||| _Format ||| _ZWJ) = true := hi
  simp only [rulesC, this, if_true]
  repeat' split
  all_goals first | exact .brk | exact .cont rfl

theorem stepC_ok (d : Bytes) (s : State) (hs : s.pos ≤ d.length) :
    PassCost trie _Ignore 3 d (·.pos) s.pos (stepC d true s) := by
  have hstep : ∀ v w, trie.lookup (d.drop s.pos) = .ok (v, w) → s.pos ≠ d.length ∧ s.pos + w ≤ d.length ∧
      trie.lookupAt d s.pos = .ok (v, w) := fun v w => lookup_drop wf hs
  refine ⟨fun h => ?_, fun v h => ?_, fun v w h hw hi => ?_, fun v w k h hw hi hk => ?_⟩
  · simp only [stepC, h, if_true, Bool.not_true, Bool.false_eq_true, if_false]
  · obtain ⟨h1, h2, e⟩ := hstep _ _ h
    simp only [stepC, if_neg h1, e, if_true]
  · obtain ⟨h1, h2, e⟩ := hstep _ _ h
    simp only [stepC, if_neg h1, e, if_neg hw]
    obtain ⟨h3, h4⟩ := rulesC_ign (data := d) (s := s) (next := ⟨s.pos + w, v,
      if (!is s.current _Ignore) = true then s.current else s.lastExIgnore,
      if (!is s.current _Ignore) = true then s.lastExIgnore else s.lastLastExIgnore, s.regionalIndicatorCount⟩) hi
    refine ⟨by rw [after_fst]; omega, ?_⟩
    rw [after_snd]
    simpa using h4
  · obtain ⟨h1, h2, e⟩ := hstep _ _ h
    simp only [stepC, if_neg h1, e, if_neg hw]
    obtain ⟨h3, h4⟩ := rulesC_ok (data := d) (s := s) (next := ⟨s.pos + w, v,
      if (!is s.current _Ignore) = true then s.current else s.lastExIgnore,
      if (!is s.current _Ignore) = true then s.lastExIgnore else s.lastLastExIgnore, s.regionalIndicatorCount⟩)
      h2 hk
    exact ⟨by rw [after_fst]; omega, by rw [after_snd]; exact h4⟩

theorem erase : (fun d e => (splitFuncC d e).2) = splitFunc := by
  funext d e; exact splitFuncC_snd d e

theorem potSplit : PotSplit trie _Ignore 3 splitFuncC := by
  refine potSplit_of (σ := State) (pos := (·.pos)) wf (.inr rfl) (by rw [erase]; exact good) ?_ ?_
  · intro d v w h
    have h0 := lookup_length h
    have e : trie.lookupAt d 0 = .ok (v, w) := by rw [lookupAt_eq (by omega)]; exact h
    refine ⟨fun hw => ?_, fun hw => ?_⟩
    · simp only [splitFuncC, if_neg h0, e, if_pos hw]
      rfl
    · refine ⟨stepC d true, ⟨w, v, 0, 0, 0⟩, loopFuel d, ?_, rfl, stepC_ok d⟩
      simp only [splitFuncC, if_neg h0, e, if_neg hw]
  · intro d v h
    have h0 := lookup_length h
    have e : trie.lookupAt d 0 = .ok (v, 0) := by rw [lookupAt_eq (by omega)]; exact h
    rw [erase]
    simp only [splitAdv, splitFunc, if_neg h0, e, if_true, Bool.not_true, Bool.false_eq_true, if_false,
      finish, sliceTo_ok (Nat.le_refl _)]
    simp

end Phrases

namespace Graphemes

theorem is_none (v : Nat) : is v 0 = false := by simp [is]

theorem ign_zero {d : Bytes} {k : Nat} (h : Ign trie 0 d k) : k = 0 := by
  cases h with
  | stop => rfl
  | step _ _ hi => rw [is_none] at hi; cases hi

theorem rules_ok {s next : State} : LookOk (·.pos) 0 0 s.pos next.pos (0, rules s next) := by
  exact rules_rel (R := fun x => LookOk (·.pos) 0 0 s.pos next.pos (0, x)) (fun s' h => .cont h) .brk

/-- The graphemes ignore nothing in a look-ahead, since there is none. -/
theorem stepC_ok (d : Bytes) (s : State) (hs : s.pos ≤ d.length) :
    PassCost trie 0 0 d (·.pos) s.pos (stepC d true s) := by
  have hstep : ∀ v w, trie.lookup (d.drop s.pos) = .ok (v, w) → s.pos ≠ d.length ∧ s.pos + w ≤ d.length ∧
      trie.lookupAt d s.pos = .ok (v, w) := fun v w => lookup_drop wf hs
  refine ⟨fun h => ?_, fun v h => ?_, fun v w h hw hi => ?_, fun v w k h hw hi hk => ?_⟩
  · simp only [stepC, h, if_true, Bool.not_true, Bool.false_eq_true, if_false]
  · obtain ⟨h1, h2, e⟩ := hstep _ _ h
    simp only [stepC, if_neg h1, e, if_true]
  · rw [is_none] at hi; cases hi
  · obtain ⟨h1, h2, e⟩ := hstep _ _ h
    simp only [stepC, if_neg h1, e, if_neg hw]
    obtain ⟨h3, h4⟩ := rules_ok (s := s) (next := ⟨s.pos + w, v,
      if (!is s.current _Ignore) = true then s.current else s.lastExIgnore,
      if (!is s.current _Ignore) = true then s.lastExIgnore else s.lastLastExIgnore, s.regionalIndicatorCount,
      updateIncb s.current s.incb⟩)
    have := ign_zero hk
    subst this
    exact ⟨by omega, h4⟩

theorem erase : (fun d e => (splitFuncC d e).2) = splitFunc := by
  funext d e; exact splitFuncC_snd d e

theorem potSplit : PotSplit trie 0 0 splitFuncC := by
  refine potSplit_of (σ := State) (pos := (·.pos)) wf (.inl rfl) (by rw [erase]; exact good) ?_ ?_
  · intro d v w h
    have h0 := lookup_length h
    have e : trie.lookupAt d 0 = .ok (v, w) := by rw [lookupAt_eq (by omega)]; exact h
    refine ⟨fun hw => ?_, fun hw => ?_⟩
    · simp only [splitFuncC, if_neg h0, e, if_pos hw]
      rfl
    · refine ⟨stepC d true, ⟨w, v, 0, 0, 0, .none⟩, loopFuel d, ?_, rfl, stepC_ok d⟩
      simp only [splitFuncC, if_neg h0, e, if_neg hw]
  · intro d v h
    have h0 := lookup_length h
    have e : trie.lookupAt d 0 = .ok (v, 0) := by rw [lookupAt_eq (by omega)]; exact h
    rw [erase]
    simp only [splitAdv, splitFunc, if_neg h0, e, if_true, Bool.not_true, Bool.false_eq_true, if_false,
      finish, sliceTo_ok (Nat.le_refl _)]
    simp

end Graphemes

end Uax29
