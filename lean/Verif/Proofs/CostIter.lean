import Verif.Proofs.CostWords
/-! # The work of the user's loop -/
namespace Uax29

/-- The work of the user's loop fits `Q` if each call of `Next` does. -/
theorem collectC_inv {split : SplitFn} {next : Iter → Iter × NextOut} {adv : Bytes → Nat}
    (hn : NextSpec split next adv) {nextC : Iter → Counted (Iter × NextOut)}
    (he : ∀ it, it.split = split → (nextC it).2 = next it)
    (hz : ∀ it : Iter, it.split = split → it.data.length ≤ it.pos → (nextC it).1 = 0)
    {Q : Bytes → Nat → Prop} (h0 : Q [] 0) (hq : ∀ it : Iter, it.split = split → it.pos < it.data.length → ∀ t,
      Q ((it.data.drop it.pos).drop (adv (it.data.drop it.pos))) t → Q (it.data.drop it.pos) ((nextC it).1 + t)) :
    ∀ fuel (it : Iter), it.split = split → it.pos ≤ it.data.length → it.data.length < fuel + it.pos →
    Q (it.data.drop it.pos) (collectC nextC fuel it).1 := by
  intro fuel
  induction fuel with
  | zero => intro it _ h1 h2; omega
  | succ fuel ih =>
    intro it hs h1 h2
    have e1 := he it hs
    simp only [collectC]
    by_cases hp : it.pos < it.data.length
    · have hd : it.data.drop it.pos ≠ [] := by simp; omega
      have hpos := hn.adv_pos _ hd
      have hle := hn.adv_le _ hd
      simp only [List.length_drop] at hle
      rw [hn.next_lt it hs hp] at e1
      have hq' := hq it hs hp
      rcases hx : nextC it with ⟨n, it', o⟩
      rw [hx] at e1 hq'
      simp only [Prod.mk.injEq] at e1 hq'
      obtain ⟨rfl, rfl⟩ := e1
      simp only
      have hv : Iter.value { it with start := it.pos, pos := it.pos + adv (it.data.drop it.pos) }
          = .ok ((it.data.drop it.pos).take (adv (it.data.drop it.pos))) := by
        simp [Iter.value, sliceFromTo]
        omega
      rw [hv]
      have h3 := ih { it with start := it.pos, pos := it.pos + adv (it.data.drop it.pos) } hs
        (by simp only; omega) (by simp only; omega)
      simp only at h3
      rw [← List.drop_drop] at h3
      have h4 := hq' _ h3
      rcases hc : collectC nextC fuel { it with start := it.pos, pos := it.pos + adv (it.data.drop it.pos) } with ⟨m, r⟩
      rw [hc] at h4
      cases r <;> exact h4
    · have e2 := hz it hs (by omega)
      rw [hn.next_ge it hs (by omega)] at e1
      rcases hx : nextC it with ⟨n, it', o⟩
      rw [hx] at e1 e2
      simp only [Prod.mk.injEq] at e1 e2
      obtain ⟨rfl, rfl⟩ := e1
      simp only
      subst e2
      rw [List.drop_eq_nil_of_le (by omega)]
      exact h0

/-- The same, with the work of a call of `Next` as a function of the rest of the text. -/
theorem collectC_le {split : SplitFn} {next : Iter → Iter × NextOut} {adv : Bytes → Nat}
    (hn : NextSpec split next adv) {nextC : Iter → Counted (Iter × NextOut)}
    (he : ∀ it, it.split = split → (nextC it).2 = next it) {work : Bytes → Nat}
    (hw : ∀ it : Iter, it.split = split → it.pos < it.data.length → (nextC it).1 = work (it.data.drop it.pos))
    (hz : ∀ it : Iter, it.split = split → it.data.length ≤ it.pos → (nextC it).1 = 0)
    {Q : Bytes → Nat → Prop} (h0 : Q [] 0) (hq : ∀ d, d ≠ [] → ∀ t, Q (d.drop (adv d)) t → Q d (work d + t)) :
    ∀ fuel (it : Iter), it.split = split → it.pos ≤ it.data.length → it.data.length < fuel + it.pos →
    Q (it.data.drop it.pos) (collectC nextC fuel it).1 :=
  collectC_inv hn he hz h0 fun it hs hp t ht => by
    rw [hw it hs hp]
    exact hq _ (by simp; omega) t ht

/-- Lookups within `Pot`, and at most `m` tests of bytes per byte. -/
def PotTests (T : Trie) (ig c m : Nat) (d : Bytes) (t : Nat) : Prop :=
  ∃ a b, t = a + b ∧ Pot T ig c d a ∧ b ≤ m * d.length

theorem Pot.nil {T : Trie} {ig c : Nat} : Pot T ig c [] 0 := ⟨fun _ => rfl, fun _ _ h => absurd h lookup_nil⟩

theorem PotTests.nil {T : Trie} {ig c m : Nat} : PotTests T ig c m [] 0 := ⟨0, 0, rfl, .nil, Nat.zero_le _⟩

theorem Pot.le {T : Trie} (hT : T.Wf) {ig c : Nat} (hc : c = 0 ∨ c = 3) {d : Bytes} {t : Nat} (h : Pot T ig c d t) :
    t ≤ (2 + c) * d.length := by
  by_cases hd : d = []
  · rw [h.1 hd]; exact Nat.zero_le _
  · obtain ⟨v, w, e, h1, _, _⟩ := hT.lookup_ok hd
    have h0 := List.length_pos_iff.mpr hd
    by_cases hw : w = 0
    · have := (h.2 v w e).1 hw
      rcases hc with rfl | rfl <;> omega
    · obtain ⟨k, hk⟩ := Ign.exists hT ig _ (d.drop w) (Nat.le_refl _)
      have := (h.2 v w e).2 hw k hk
      rcases hc with rfl | rfl <;> omega

theorem PotTests.le {T : Trie} (hT : T.Wf) {ig c m : Nat} (hc : c = 0 ∨ c = 3) {d : Bytes} {t : Nat}
    (h : PotTests T ig c m d t) : t ≤ (2 + c + m) * d.length := by
  obtain ⟨a, b, rfl, h1, h2⟩ := h
  have := h1.le hT hc
  rw [Nat.add_mul]
  omega

/-- A token that ends before a piece that is not ignorable may be found without a lookup, if its first
piece is a single byte followed by a piece that is not ignorable. -/
theorem Pot.skip {T : Trie} (hT : T.Wf) {ig c : Nat} (hc : c = 0 ∨ c = 3) {b : UInt8} {rest : Bytes}
    (hb : b.toNat < 0x80) (hr : ∀ k, Ign T ig rest k → k = 0) {e t : Nat} (he : 0 < e)
    (h : Pot T ig c ((b :: rest).drop e) t) : Pot T ig c (b :: rest) t := by
  refine And.intro (fun h => by cases h) fun v w hl => ?_
  obtain ⟨hl', _⟩ := hT.lookup_ascii hb rest
  rw [hl'] at hl
  cases hl
  refine And.intro (fun h => by cases h) fun _ k hk => ?_
  simp only [List.drop_succ_cons, List.drop_zero] at hk
  rw [hr k hk]
  have := h.le hT hc
  simp only [List.length_drop, List.length_cons] at this ⊢
  rcases hc with rfl | rfl <;> omega

/-- The ignorable pieces at a byte that is not ignorable. -/
theorem ign_ascii {T : Trie} (hT : T.Wf) {ig k : Nat} {d : Bytes}
    (hd : ∀ b, d.head? = some b → b.toNat < 0x80 ∧ is (T.ascii b) ig = false) (h : Ign T ig d k) : k = 0 := by
  cases d with
  | nil =>
    cases h with
    | stop => rfl
    | step h => exact absurd h lookup_nil
  | cons b d =>
    obtain ⟨h1, h2⟩ := hd b rfl
    exact h.zero (hT.lookup_ascii h1 d).1 (.inr h2)

theorem countWhileC_le (p : UInt8 → Bool) : ∀ d, (countWhileC p d).1 ≤ countWhile p d + 1
    ∧ (countWhile p d = d.length → (countWhileC p d).1 = d.length)
  | [] => by simp [countWhileC, countWhile]
  | b :: d => by
    obtain ⟨h1, h2⟩ := countWhileC_le p d
    simp only [countWhileC, countWhile]
    cases p b
    · simp
    · simp only [if_true, List.length_cons]
      refine ⟨by omega, fun h => ?_⟩
      rw [h2 (by omega)]

theorem callSplitC_fst {split : SplitFnC} {it : Iter} (h : it.pos ≤ it.data.length) :
    (it.callSplitC split).1 = (split (it.data.drop it.pos) true).1 := by
  simp only [Iter.callSplitC, sliceFrom_ok h]
  rcases split (it.data.drop it.pos) true with ⟨n, f | r⟩
  · rfl
  · simp only
    cases r.err with
    | some e => rfl
    | none =>
      simp only
      repeat' split
      all_goals rfl

/-! ## words -/
namespace Words

/-- The work of `Next` at `d`. -/
def work (split : SplitFnC) (d : Bytes) : Nat :=
  match d with
  | [] => 0
  | b :: rest =>
    if isASCIIAlphanumeric b then
      let e := 1 + countWhile isASCIIAlphanumeric rest
      let n := (countWhileC isASCIIAlphanumeric rest).1
      if e ≥ d.length || d[e]? == some 0x20 then 1 + n + (if e ≥ d.length then 0 else 1)
      else 1 + n + 1 + (split d true).1
    else 1 + (split d true).1

theorem nextC_work {split : SplitFnC} {it : Iter} (hp : it.pos < it.data.length) :
    (nextC split it).1 = work split (it.data.drop it.pos) := by
  have hn : ¬ it.pos ≥ it.data.length := by omega
  simp only [nextC, if_neg hn, index_ok hp]
  have hd : it.data.drop it.pos = it.data[it.pos] :: it.data.drop (it.pos + 1) := by simp
  have hc := callSplitC_fst (split := split) (it := { it with start := it.pos }) (Nat.le_of_lt hp)
  have hl : (it.data.drop it.pos).length = it.data.length - it.pos := by simp
  have hg : ∀ e, it.data[it.pos + 1 + e]? = (it.data.drop it.pos)[1 + e]? := by
    intro e; rw [List.getElem?_drop, Nat.add_assoc]
  simp only [hg]
  simp only at hc
  generalize it.data.drop (it.pos + 1) = rest at *
  simp only [work, hd, ← countWhileC_snd] at *
  rcases countWhileC isASCIIAlphanumeric rest with ⟨n, e⟩
  simp only
  by_cases h1 : isASCIIAlphanumeric it.data[it.pos] = true
  · simp only [if_pos h1]
    have h3 : (it.pos + 1 + e ≥ it.data.length) = (1 + e ≥ (it.data[it.pos] :: rest).length) := by
      apply propext; omega
    simp only [h3]
    split
    · rfl
    · rw [after_fst, hc]
  · simp only [if_neg h1]
    rw [after_fst, hc]

theorem ascii_solid {b : UInt8} (h : isASCIIAlphanumericOrSpace b = true) :
    b.toNat < 0x80 ∧ is (trie.ascii b) _Ignore = false := by
  have := forall_uint8 (P := fun b => !isASCIIAlphanumericOrSpace b || (decide (b.toNat < 0x80)
    && !is (trie.ascii b) _Ignore)) (by decide +kernel) b
  simpa [h] using this

theorem alnum_or_space {b : UInt8} (h : isASCIIAlphanumeric b = true) : isASCIIAlphanumericOrSpace b = true := by
  unfold isASCIIAlphanumericOrSpace
  unfold isASCIIAlphanumeric at h
  rw [h]; rfl

theorem work_pot (j : Option Joiners) (d : Bytes) (hd : d ≠ []) (t : Nat)
    (ht : PotTests trie _Ignore 3 3 (d.drop (adv (joinersSplitFunc j) d)) t) :
    PotTests trie _Ignore 3 3 d (work (joinersSplitFuncC j) d + t) := by
  obtain ⟨a, c, rfl, h1, h2⟩ := ht
  have hsplit : ∀ n, Pot trie _Ignore 3 (d.drop (splitAdv (joinersSplitFunc j) d)) a →
      c ≤ 3 * (d.drop (splitAdv (joinersSplitFunc j) d)).length → n ≤ 3 * splitAdv (joinersSplitFunc j) d →
      PotTests trie _Ignore 3 3 d (n + (joinersSplitFuncC j d true).1 + (a + c)) := by
    intro n h1 h2 hn
    have := potSplit j d hd a (by rw [erase]; exact h1)
    refine ⟨_, n + c, by omega, this, ?_⟩
    have := ((joiners_good j).adv hd).2
    simp only [List.length_drop] at h2
    omega
  cases d with
  | nil => exact absurd rfl hd
  | cons b rest =>
    have hadv := ((joiners_good j).adv hd).1
    simp only [adv, work] at h1 h2 ⊢
    by_cases hb : isASCIIAlphanumeric b = true
    · simp only [if_pos hb] at h1 h2 ⊢
      obtain ⟨run, rest', e, hc, hrun, hend⟩ := countWhile_split isASCIIAlphanumeric rest
      obtain ⟨hle, hall⟩ := countWhileC_le isASCIIAlphanumeric rest
      rw [hc] at h1 h2 hle hall ⊢
      generalize hn : (countWhileC isASCIIAlphanumeric rest).1 = n at *
      by_cases hf : (decide (1 + run.length ≥ (b :: rest).length) || (b :: rest)[1 + run.length]? == some 0x20) = true
      · rw [if_pos hf] at h1 h2 ⊢
        refine ⟨a, 1 + n + (if 1 + run.length ≥ (b :: rest).length then 0 else 1) + c, by omega, ?_, ?_⟩
        · refine h1.skip wf (.inr rfl) (ascii_alnum hb).1 (fun k hk => ?_) (by omega)
          refine ign_ascii wf (fun x hx => ?_) hk
          apply ascii_solid
          cases run with
          | cons y run =>
            rw [e] at hx
            simp at hx
            exact alnum_or_space (hrun x (by rw [hx]; exact List.mem_cons_self))
          | nil =>
            simp only [List.length_nil, Nat.add_zero, List.length_cons, Bool.or_eq_true, decide_eq_true_eq,
              beq_iff_eq] at hf
            rcases hf with hf | hf
            · cases rest with
              | nil => cases hx
              | cons y rest => rw [List.length_cons] at hf; omega
            · cases rest with
              | nil => cases hx
              | cons y rest =>
                rw [List.head?_cons] at hx
                have hf' : some y = some (0x20 : UInt8) := hf
                cases hf'
                cases hx
                decide
        · have hlen : rest.length = run.length + rest'.length := by rw [e]; simp
          simp only [List.length_drop, List.length_cons] at h2 ⊢
          split
          · have := hall (by omega); omega
          · omega
      · rw [if_neg hf] at h1 h2 ⊢
        have hrl := splitAdv_run_le j (rest := rest') hb hrun
        rw [List.cons_append, ← e] at hrl
        have := hsplit (1 + n + 1) h1 h2 (by omega)
        exact this
    · simp only [if_neg hb] at h1 h2 ⊢
      exact hsplit 1 h1 h2 (by omega)

theorem nextC_done {split : SplitFnC} {it : Iter} (hp : it.data.length ≤ it.pos) : (nextC split it).1 = 0 := by
  simp only [nextC, if_pos hp]

theorem tokensC_le (j : Option Joiners) (data : Bytes) : (tokensC j data).1 ≤ 8 * data.length := by
  have h := collectC_le (next_spec (joiners_good j)) (nextC := nextC (joinersSplitFuncC j))
    (fun it hs => nextC_snd fun d e => by rw [hs]; exact joinersSplitFuncC_snd j d e)
    (fun it _ hp => nextC_work hp) (fun it _ hp => nextC_done hp) .nil (work_pot j)
    (data.length + 1) (setJoiners (fromBytes data) j) rfl (Nat.zero_le _) (by simp [setJoiners, fromBytes, Iter.setSplit])
  exact h.le wf (.inr rfl)

theorem tokensC_snd (j : Option Joiners) (data : Bytes) :
    (tokensC j data).2 = tokensWith next (setJoiners (fromBytes data) j) := by
  have hn := next_spec (joiners_good j)
  refine collectC_snd (split := joinersSplitFunc j)
    (fun it hs => nextC_snd fun d e => by rw [hs]; exact joinersSplitFuncC_snd j d e) (fun it hs => ?_) _ _ rfl
  rcases Nat.lt_or_ge it.pos it.data.length with hp | hp
  · rw [hn.next_lt it hs hp]; exact hs
  · rw [hn.next_ge it hs hp]; exact hs

end Words

/-! ## phrases and sentences -/

/-- The work of `Next` of phrases and sentences at `d`. -/
def skipWork (split : SplitFnC) (d : Bytes) : Nat :=
  let c := countWhile isASCIIAlphanumericOrSpace d
  let n := (countWhileC isASCIIAlphanumericOrSpace d).1
  if c ≥ d.length then n else n + (split (d.drop (c - 1)) true).1

theorem nextSkippingC_work {split : SplitFnC} {it : Iter} (hp : it.pos < it.data.length) :
    (it.nextSkippingC split).1 = skipWork split (it.data.drop it.pos) := by
  have hn : ¬ it.pos ≥ it.data.length := by omega
  have hle := countWhile_le isASCIIAlphanumericOrSpace (it.data.drop it.pos)
  simp only [Iter.nextSkippingC, if_neg hn, skipWork, ← countWhileC_snd] at hle ⊢
  rcases countWhileC isASCIIAlphanumericOrSpace (it.data.drop it.pos) with ⟨n, c⟩
  simp only [List.length_drop, List.drop_drop] at hle ⊢
  by_cases h1 : it.pos + c ≥ it.data.length
  · have h2 : c ≥ it.data.length - it.pos := by omega
    simp only [if_pos h1, if_pos h2]
  · have h2 : ¬ c ≥ it.data.length - it.pos := by omega
    simp only [if_neg h1, if_neg h2]
    by_cases h3 : it.pos + c > it.pos
    · simp only [if_pos h3, after_fst]
      rw [callSplitC_fst (by simp only; omega)]
      rw [show it.pos + c - 1 = it.pos + (c - 1) by omega]
    · have : c = 0 := by omega
      subst this
      simp only [if_neg h3, after_fst]
      rw [callSplitC_fst (by simp only; omega)]

theorem nextSkippingC_done {split : SplitFnC} {it : Iter} (hp : it.data.length ≤ it.pos) :
    (it.nextSkippingC split).1 = 0 := by
  simp only [Iter.nextSkippingC, if_pos hp]

namespace Phrases

theorem ascii_solid {b : UInt8} (h : isASCIIAlphanumericOrSpace b = true) :
    b.toNat < 0x80 ∧ is (trie.ascii b) _Ignore = false := by
  have := forall_uint8 (P := fun b => !isASCIIAlphanumericOrSpace b || (decide (b.toNat < 0x80)
    && !is (trie.ascii b) _Ignore)) (by decide +kernel) b
  simpa [h] using this

theorem work_pot (d : Bytes) (hd : d ≠ []) (t : Nat)
    (ht : PotTests trie _Ignore 3 2 (d.drop (skipAdv splitFunc d)) t) :
    PotTests trie _Ignore 3 2 d (skipWork splitFuncC d + t) := by
  obtain ⟨a, c, rfl, h1, h2⟩ := ht
  obtain ⟨run, rest, e, hc, hrun, hend⟩ := countWhile_split isASCIIAlphanumericOrSpace d
  obtain ⟨hle, hall⟩ := countWhileC_le isASCIIAlphanumericOrSpace d
  have h0 := List.length_pos_iff.mpr hd
  have hlen : d.length = run.length + rest.length := by rw [e]; simp
  simp only [skipAdv, skipWork] at h1 h2 ⊢
  rw [hc] at h1 h2 hle hall ⊢
  generalize hn : (countWhileC isASCIIAlphanumericOrSpace d).1 = n at *
  have hskip : ∀ i t, 0 < i → i < run.length → Pot trie _Ignore 3 (d.drop i) t → Pot trie _Ignore 3 d t := by
    intro i t h0 h1 h
    cases run with
    | nil => simp at h1
    | cons b run =>
      rw [List.cons_append] at e
      rw [e] at h ⊢
      refine h.skip wf (.inr rfl) (ascii_solid (hrun b List.mem_cons_self)).1 (fun k hk => ?_) h0
      refine ign_ascii wf (fun x hx => ascii_solid ?_) hk
      cases run with
      | nil => rw [List.length_singleton] at h1; omega
      | cons y run =>
        simp at hx
        exact hrun x (by rw [hx]; simp)
  by_cases hf : run.length ≥ d.length
  · rw [if_pos hf] at h1 h2 ⊢
    rw [List.drop_eq_nil_of_le (by omega)] at h1 h2
    have ha := h1.1 rfl
    have hn' := hall (by omega)
    simp only [List.length_nil] at h2
    subst ha
    refine ⟨0, n + c, by omega, ?_, by omega⟩
    refine ⟨fun h => absurd h hd, fun v w hl => ⟨fun _ => by omega, fun hw k hk => ?_⟩⟩
    have := hk.le wf
    simp only [List.length_drop] at this
    omega
  · rw [if_neg hf] at h1 h2 ⊢
    have hne : d.drop (run.length - 1) ≠ [] := by simp; omega
    obtain ⟨g1, g2⟩ := good.adv hne
    simp only [List.length_drop] at g2
    have hp := potSplit (d.drop (run.length - 1)) hne a (by rw [erase, List.drop_drop]; exact h1)
    refine ⟨(splitFuncC (d.drop (run.length - 1)) true).1 + a, n + c, by omega, ?_, ?_⟩
    · rcases Nat.lt_or_ge 1 run.length with h3 | h3
      · exact hskip (run.length - 1) _ (by omega) (by omega) hp
      · rw [show run.length - 1 = 0 by omega] at hp ⊢
        simpa using hp
    · simp only [List.length_drop] at h2
      omega

theorem tokensC_le (data : Bytes) : (tokensC data).1 ≤ 7 * data.length := by
  have h := collectC_le next_spec (nextC := Iter.nextSkippingC splitFuncC)
    (fun it hs => nextSkippingC_snd fun d e => by rw [hs]; exact splitFuncC_snd d e)
    (fun it _ hp => nextSkippingC_work hp) (fun it _ hp => nextSkippingC_done hp) .nil work_pot
    (data.length + 1) (fromBytes data) rfl (Nat.zero_le _) (by simp [fromBytes])
  exact h.le wf (.inr rfl)

theorem tokensC_snd (data : Bytes) : (tokensC data).2 = tokens data := by
  have hn := next_spec
  refine collectC_snd (split := splitFunc)
    (fun it hs => nextSkippingC_snd fun d e => by rw [hs]; exact splitFuncC_snd d e) (fun it hs => ?_) _ _ rfl
  rcases Nat.lt_or_ge it.pos it.data.length with hp | hp
  · have := hn.next_lt it hs hp
    unfold next at this
    rw [this]; exact hs
  · have := hn.next_ge it hs hp
    unfold next at this
    rw [this]; exact hs

end Phrases

/-! ## graphemes -/
namespace Graphemes

/-- The work of `Next` at `d`, options off. -/
def work (split : SplitFnC) (d : Bytes) : Nat :=
  match d with
  | [] => 0
  | b :: rest =>
    1 + if b.toNat < Utf8.runeSelf && b.toNat != cr then
      match rest with
      | [] => 0
      | b1 :: _ => if b1.toNat < Utf8.runeSelf then 1 else 1 + (split d true).1
    else (split d true).1

theorem nextC_work {split : SplitFnC} {it : Iter} (hp : it.pos < it.data.length) :
    (nextC split {} it).1 = work split (it.data.drop it.pos) := by
  have hn : ¬ it.pos ≥ it.data.length := by omega
  have hc := callSplitC_fst (split := split) (it := { it with start := it.pos }) (Nat.le_of_lt hp)
  have hd : it.data.drop it.pos = it.data[it.pos] :: it.data.drop (it.pos + 1) := by simp
  simp only at hc
  simp only [nextC, if_neg hn, index_ok hp, Bool.false_and, Bool.false_eq_true, if_false, next8C, after_fst,
    nextPlainC]
  rw [hd] at hc ⊢
  simp only [work]
  congr 1
  split
  · by_cases h1 : it.pos + 1 ≥ it.data.length
    · rw [if_pos h1]
      simp [List.drop_eq_nil_of_le h1]
    · rw [if_neg h1]
      have hd1 : it.data.drop (it.pos + 1) = it.data[it.pos + 1] :: it.data.drop (it.pos + 2) := by simp
      rw [index_ok (by omega)]
      rw [hd1] at hc ⊢
      simp only
      split
      · rfl
      · rw [after_fst, hc]
  · exact hc

theorem nextC_done {split : SplitFnC} {o : Options} {it : Iter} (hp : it.data.length ≤ it.pos) :
    (nextC split o it).1 = 0 := by
  simp only [nextC, if_pos hp]

theorem adv_plain (d : Bytes) : adv {} splitFunc d = advPlain splitFunc d := by
  cases d <;> simp [adv, adv8, advPlain]

theorem work_pot (d : Bytes) (hd : d ≠ []) (t : Nat) (ht : PotTests trie 0 0 2 (d.drop (adv {} splitFunc d)) t) :
    PotTests trie 0 0 2 d (work splitFuncC d + t) := by
  obtain ⟨a, c, rfl, h1, h2⟩ := ht
  rw [adv_plain] at h1 h2
  have hsplit : ∀ n, Pot trie 0 0 (d.drop (splitAdv splitFunc d)) a →
      c ≤ 2 * (d.drop (splitAdv splitFunc d)).length → n ≤ 2 →
      PotTests trie 0 0 2 d (n + (splitFuncC d true).1 + (a + c)) := by
    intro n h1 h2 hn
    have := potSplit d hd a (by rw [erase]; exact h1)
    refine ⟨_, n + c, by omega, this, ?_⟩
    have := good.adv hd
    simp only [List.length_drop] at h2
    omega
  cases d with
  | nil => exact absurd rfl hd
  | cons b rest =>
    simp only [advPlain, work] at h1 h2 ⊢
    by_cases hb : (decide (b.toNat < Utf8.runeSelf) && b.toNat != cr) = true
    · have hb' : b.toNat < 0x80 := by simp [Utf8.runeSelf] at hb; exact of_decide_eq_true hb.1
      simp only [if_pos hb] at h1 h2 ⊢
      cases rest with
      | nil =>
        simp only at h1 h2 ⊢
        refine ⟨a, 1 + 0 + c, by omega, h1.skip wf (.inl rfl) hb' (fun k => ign_zero) (by omega), ?_⟩
        simp at h2 ⊢; omega
      | cons b1 rest =>
        simp only at h1 h2 ⊢
        by_cases h3 : b1.toNat < Utf8.runeSelf
        · simp only [if_pos h3] at h1 h2 ⊢
          refine ⟨a, 1 + 1 + c, by omega, h1.skip wf (.inl rfl) hb' (fun k => ign_zero) (by omega), ?_⟩
          simp at h2 ⊢; omega
        · simp only [if_neg h3] at h1 h2 ⊢
          have := hsplit 2 h1 h2 (by omega)
          rwa [show 2 + (splitFuncC (b :: b1 :: rest) true).1 = 1 + (1 + (splitFuncC (b :: b1 :: rest) true).1) by omega]
            at this
    · simp only [if_neg hb] at h1 h2 ⊢
      exact hsplit 1 h1 h2 (by omega)

theorem tokensC_le (data : Bytes) : (tokensC {} data).1 ≤ 4 * data.length := by
  have h := collectC_le (next_spec {} good) (nextC := nextC splitFuncC {})
    (fun it hs => nextC_snd (fun d e => by rw [hs]; exact splitFuncC_snd d e) {})
    (fun it _ hp => nextC_work hp) (fun it _ hp => nextC_done hp) .nil work_pot
    (data.length + 1) (fromBytes data) rfl (Nat.zero_le _) (by simp [fromBytes])
  exact h.le wf (.inl rfl)

theorem tokensC_snd (o : Options) (data : Bytes) : (tokensC o data).2 = tokensWith (next o) (fromBytes data) := by
  have hn := next_spec o good
  refine collectC_snd (split := splitFunc)
    (fun it hs => nextC_snd (fun d e => by rw [hs]; exact splitFuncC_snd d e) o) (fun it hs => ?_) _ _ rfl
  rcases Nat.lt_or_ge it.pos it.data.length with hp | hp
  · rw [hn.next_lt it hs hp]; exact hs
  · rw [hn.next_ge it hs hp]; exact hs

end Graphemes
end Uax29
