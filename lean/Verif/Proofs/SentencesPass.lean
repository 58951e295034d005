import Verif.Proofs.SentencesConf
/-! # sentences: a pass of the loop -/
namespace Uax29.Sentences
open Spec

theorem sunits_para {cl : List SB} (h : ∀ x ∈ cl, x.paraSep = false) : (sunits cl).head?.any (·.paraSep) = false := by
  cases hu : (sunits cl).head? with
  | none => rfl
  | some x => exact h x (sunits_mem (List.mem_of_mem_head? hu))

/-- What the rules of the code may do. -/
def Outcome (ahead cut : Bool) (p8 n : Nat) (a next : AState) (cl : List SB) (J : Bool) (R : Step State) : Prop :=
  (J = false ∧ R = .brk a.pos)
  ∨ (J = true ∧ R = .cont next.toState ∧ ACtx next (next.current :: cl))
  ∨ ((∀ x ∈ cl, x.paraSep = false) ∧ next.current.ignorable = false ∧ endsCloseSp (· = .ATerm) (sunits cl) = true
      ∧ next.spClose = .ATerm
      ∧ ((ahead = true ∧ R = .cont { next with pos := p8 }.toState) ∨ (ahead = false ∧ cut = true ∧ R = .brk n)))

theorem rulesA_outcome {ahead cut : Bool} {p8 n p : Nat} {a : AState} {cl : List SB} {b : SB} {R : List SB}
    (h : ACtx a cl) :
    Outcome ahead cut p8 n a { a.remember with pos := p, current := b } cl (sjoinsIf (ahead || cut) cl (b :: R))
      (rulesA ahead cut p8 n a { a.remember with pos := p, current := b }) := by
  obtain ⟨c0, cl', rfl⟩ : ∃ c l, cl = c :: l := by
    cases cl with
    | nil => have := h.cur; simp at this
    | cons c l => exact ⟨c, l, rfl⟩
  have hc0 : c0 = a.current := by simpa using h.cur
  subst hc0
  generalize hnext : ({ a.remember with pos := p, current := b } : AState) = next
  have n1 : next.current = b := by subst hnext; rfl
  have n2 : next.ex = a.remember.ex := by subst hnext; rfl
  have n3 : next.exex = a.remember.exex := by subst hnext; rfl
  have n4 : next.spClose = a.remember.spClose := by subst hnext; rfl
  have n5 : next.close = a.remember.close := by subst hnext; rfl
  have hnx := h.next (b := b) (p := p)
  rw [hnext] at hnx
  simp only [sjoinsIf]
  unfold rulesA Outcome
  dsimp only
  rw [n1]
  -- neither has a class
  by_cases c1 : b = .Other ∧ a.current = .Other
  · rw [if_pos c1]
    obtain ⟨rfl, hl⟩ := c1
    right; left
    have hp : a.current.paraSep = false := by rw [hl]; rfl
    have hnl : ∀ x ∈ a.current :: cl', x.paraSep = false := by
      rcases h.nl with h' | h'
      · rw [hp] at h'; cases h'
      · exact h'
    refine ⟨?_, rfl, hnx (.inr hnl) (fun h' => by rw [hp] at h'; cases h') (fun h' => by cases h')⟩
    rw [hl]
    have hu : sunits (.Other :: cl') = .Other :: sunits cl' := sunits_solid (by decide) cl'
    have k1 : ∀ X : SB → Bool, X .Other = false → endsCloseSp X (.Other :: sunits cl') = false := by
      intro X hX; rw [endsCloseSp_not _ (by decide), endsClose_other _ (by decide), hX]
    simp [sunitJoins, hu, k1, SB.saTerm, SB.paraSep, SB.ignorable]
  rw [if_neg c1]
  -- SB3
  by_cases c2 : (b = .LF && a.current = .CR) = true
  · rw [if_pos c2, if_pos (by rw [Bool.and_comm]; exact c2)]
    simp only [Bool.and_eq_true, decide_eq_true_eq] at c2
    obtain ⟨rfl, hl⟩ := c2
    right; left
    exact ⟨rfl, rfl, hnx (.inl rfl) (fun _ => rfl) (fun h' => by cases h')⟩
  rw [if_neg c2, if_neg (by rw [Bool.and_comm]; exact c2)]
  -- SB4
  by_cases c3 : a.current.paraSep = true
  · rw [if_pos c3, if_pos c3]
    left; exact ⟨rfl, rfl⟩
  rw [if_neg c3, if_neg c3]
  have hnl : ∀ x ∈ a.current :: cl', x.paraSep = false := by
    rcases h.nl with h' | h'
    · exact absurd h' c3
    · exact h'
  -- SB5
  by_cases c4 : b.ignorable = true
  · rw [if_pos c4, if_pos c4]
    right; left
    exact ⟨rfl, rfl, hnx (.inr hnl) (fun h' => absurd h' c3) (fun h' => by subst h'; cases c4)⟩
  rw [if_neg c4, if_neg c4]
  have c4 : b.ignorable = false := by simpa using c4
  have hjoin : ∀ {J : Bool} {X : Prop}, J = true → (b = .Close → endsClose (·.saTerm) (sunits (a.current :: cl')) = true
        ∨ endsCloseSp (·.saTerm) (sunits (a.current :: cl')) = false) →
      (J = false ∧ Step.cont next.toState = .brk a.pos)
      ∨ (J = true ∧ Step.cont next.toState = .cont next.toState ∧ ACtx next (b :: a.current :: cl')) ∨ X :=
    fun hJ hc => .inr (.inl ⟨hJ, rfl, hnx (.inr hnl) (fun h' => absurd h' c3) hc⟩)
  have t1 := h.ex (fun x => decide (x = .ATerm)) ⟨rfl, rfl, rfl⟩
  have t2 := h.exex
  have t3 := h.close
  have t4 := h.aterm
  have t5 := h.saterm
  have t6 := h.ex (·.saTerm) ⟨rfl, rfl, rfl⟩
  have t7 := h.ex (·.paraSep) ⟨rfl, rfl, rfl⟩
  have t8 := sunits_para hnl
  rw [t8] at t7
  unfold sunitJoins
  dsimp only
  simp only [t1, t3, t4, t5, t8, n2, n3, n4]
  -- SB6
  by_cases c5 : (b = .Numeric && a.remember.ex = .ATerm) = true
  · rw [if_pos c5, if_pos (by rw [Bool.and_comm]; exact c5)]
    simp only [Bool.and_eq_true, decide_eq_true_eq] at c5
    exact hjoin rfl (fun h' => by rw [c5.1] at h'; cases h')
  rw [if_neg c5, if_neg (by rw [Bool.and_comm]; exact c5)]
  -- SB7
  by_cases c6 : (b = .Upper && a.remember.ex = .ATerm
      && (a.remember.exex = .Upper || a.remember.exex = .Lower)) = true
  · rw [if_pos c6]
    simp only [Bool.and_eq_true, decide_eq_true_eq] at c6
    rw [if_pos (by rw [t2 c6.1.2]; simp only [Bool.and_eq_true, decide_eq_true_eq]; exact ⟨⟨c6.2, c6.1.2⟩, c6.1.1⟩)]
    exact hjoin rfl (fun h' => by rw [c6.1.1] at h'; cases h')
  rw [if_neg c6]
  rw [if_neg (by
    intro h'
    simp only [Bool.and_eq_true, decide_eq_true_eq] at h'
    rw [t2 h'.1.2] at h'
    apply c6
    simp only [Bool.and_eq_true, decide_eq_true_eq]
    exact ⟨⟨h'.2, h'.1.2⟩, h'.1.1⟩)]
  -- SB8
  by_cases c7 : (decide (a.remember.spClose = .ATerm) && (ahead || cut)) = true
  · simp only [Bool.and_eq_true, decide_eq_true_eq, Bool.or_eq_true] at c7
    rw [if_pos c7.1]
    right; right
    refine ⟨hnl, c4, by rw [decide_eq_true_iff]; exact c7.1, c7.1, ?_⟩
    cases ha : ahead
    · rw [ha] at c7
      have hc : cut = true := by simpa using c7.2
      right
      simp [hc]
    · left; exact ⟨rfl, by simp⟩
  have r7 : ∀ X : Step State, (if a.remember.spClose = .ATerm then
      (if ahead = true then X
        else if cut = true then .brk n else restA a.pos next) else restA a.pos next) = restA a.pos next := by
    intro X
    by_cases h1 : a.remember.spClose = .ATerm
    · simp only [h1, decide_true, Bool.true_and, Bool.not_eq_true, Bool.or_eq_false_iff] at c7
      simp [c7]
    · rw [if_neg h1]
  rw [r7, if_neg c7]
  unfold restA
  dsimp only
  rw [n1, n2, n4, n5]
  -- SB8a
  by_cases c8 : ((b = .SContinue || b.saTerm) && a.remember.spClose.saTerm) = true
  · rw [if_pos c8, if_pos (by rw [Bool.and_comm]; exact c8)]
    simp only [Bool.and_eq_true] at c8
    exact hjoin rfl (fun h' => by rw [h'] at c8; simp [SB.saTerm] at c8)
  rw [if_neg c8, if_neg (by rw [Bool.and_comm]; exact c8)]
  -- SB9
  by_cases c9 : ((b = .Close || b = .Sp || b.paraSep) && a.remember.close.saTerm) = true
  · rw [if_pos c9, if_pos (by rw [Bool.and_comm]; exact c9)]
    simp only [Bool.and_eq_true] at c9
    exact hjoin rfl (fun _ => .inl (by rw [t3]; exact c9.2))
  rw [if_neg c9, if_neg (by rw [Bool.and_comm]; exact c9)]
  -- SB10
  by_cases c10 : ((b = .Sp || b.paraSep) && a.remember.spClose.saTerm) = true
  · rw [if_pos c10, if_pos (by rw [Bool.and_comm]; exact c10)]
    simp only [Bool.and_eq_true] at c10
    exact hjoin rfl (fun h' => by rw [h'] at c10; simp [SB.paraSep] at c10)
  rw [if_neg c10, if_neg (by rw [Bool.and_comm]; exact c10)]
  -- SB11
  have r11 : (a.remember.ex.saTerm || (a.remember.ex = .Close && a.remember.close.saTerm)
      || (a.remember.ex = .Sp && a.remember.spClose.saTerm) || (a.remember.ex.paraSep && next.para.saTerm))
      = a.remember.spClose.saTerm := by
    rw [← t7, Bool.false_and, Bool.or_false]
    have u1 := h.ex (fun x => decide (x = .Close)) ⟨rfl, rfl, rfl⟩
    have u2 := h.ex (fun x => decide (x = .Sp)) ⟨rfl, rfl, rfl⟩
    rw [← u1, ← u2, ← t5, ← t3, ← t6]
    cases sunits (a.current :: cl') with
    | nil => rfl
    | cons u U =>
      by_cases k1 : u = .Sp
      · subst k1; simp [SB.saTerm]
      · by_cases k2 : u = .Close
        · subst k2
          simp only [endsCloseSp_not _ (show SB.Close ≠ .Sp by decide)]
          simp [SB.saTerm]
        · simp only [endsCloseSp_not _ k1, endsClose_other _ k2]
          simp [k1, k2]
  rw [r11, Bool.false_and, Bool.or_false]
  by_cases c11 : a.remember.spClose.saTerm = true
  · rw [if_pos c11, if_pos c11]
    left; exact ⟨rfl, rfl⟩
  · rw [if_neg c11, if_neg c11]
    exact hjoin rfl (fun _ => .inr (by rw [t5]; simpa using c11))

end Uax29.Sentences

namespace Uax29.Sentences
open Spec

theorem step_classes {data t : Bytes} {a : AState} {v : Nat} {bs : Bytes} {l : List (Nat × Bytes)}
    (hp : a.pos < data.length) (hdec : Decodes trie (data.drop a.pos) ((v, bs) :: l) t) :
    step data true a.toState = rulesA (lowerAhead (sclass v :: l.map fun x => sclass x.1))
      (!t.isEmpty && ((v, bs) :: l).all fun x => !(sclass x.1).stops)
      (a.pos + (bytesOf (((v, bs) :: l).takeWhile fun x => !(sclass x.1).stops)).length) data.length a
      { a.remember with pos := a.pos + bs.length, current := sclass v } := by
  rw [show (sclass v :: l.map fun x => sclass x.1) = ((v, bs) :: l).map fun x => sclass x.1 from rfl,
    ← rules_classes (Nat.le_of_lt hp) hdec]
  generalize hdd : data.drop a.pos = dd at hdec
  cases hdec with
  | @cons _ d' _ _ _ ne look val rest =>
    rw [← hdd, ← lookupAt_eq (Nat.le_of_lt hp)] at look
    unfold step
    have h1 : a.toState.pos = a.pos := rfl
    rw [h1, if_neg (by omega), look]
    have h2 : ¬ bs.length = 0 := by simpa using ne
    simp only [if_neg h2, remember_toState]
    congr 1
    simp only [AState.toState, ← value_bit val]

/-- A lower case letter after a lower case letter is joined. -/
theorem step_lower {data t : Bytes} {a : AState} {v : Nat} {bs : Bytes} {l : List (Nat × Bytes)}
    (hp : a.pos < data.length) (hdec : Decodes trie (data.drop a.pos) ((v, bs) :: l) t) (hv : sclass v = .Lower)
    (ha : a.current = .Lower) :
    step data true a.toState = .cont { a.remember with pos := a.pos + bs.length, current := .Lower }.toState := by
  rw [step_classes hp hdec, hv]
  have h1 : a.remember.ex = .Lower := by simp [AState.remember, ha, SB.ignorable]
  have h3 : a.remember.spClose = .Lower := by simp [AState.remember, ha, SB.ignorable]
  simp [rulesA, restA, ha, h1, h3, SB.paraSep, SB.ignorable, SB.saTerm]

/-- The lower case letter that SB8 found is joined, perhaps after one more look. -/
theorem step_found {data t : Bytes} {a : AState} {p8 : Nat} {b : SB} {v : Nat} {bs : Bytes} {l : List (Nat × Bytes)}
    (hp : p8 < data.length) (hdec : Decodes trie (data.drop p8) ((v, bs) :: l) t) (hv : sclass v = .Lower)
    (hb : b.stops = false) (hbi : b.ignorable = false) (ha : a.remember.spClose = .ATerm)
    {a1 : AState} (ha1 : a1 = { a.remember with pos := p8, current := b }) :
    (step data true a1.toState = .cont { a1.remember with pos := p8 + bs.length, current := .Lower }.toState)
    ∨ step data true a1.toState = .cont { a1.remember with pos := p8, current := .Lower }.toState := by
  have hpos : a1.pos = p8 := by rw [ha1]
  rw [step_classes (a := a1) (by rw [hpos]; exact hp) (by rw [hpos]; exact hdec), hv, hpos]
  have hst : (sclass (v, bs).1).stops = true := by rw [hv]; rfl
  have hcut : (!t.isEmpty && ((v, bs) :: l).all fun x => !(sclass x.1).stops) = false := by
    simp only [List.all_cons, hst]; simp
  have htw : ((v, bs) :: l).takeWhile (fun x => !(sclass x.1).stops) = [] := by
    rw [List.takeWhile_cons, hst]; rfl
  rw [hcut, htw]
  have hcur : a1.current = b := by rw [ha1]
  have hex : a1.remember.ex = b := by simp [AState.remember, hcur, hbi]
  have hspc : a1.remember.spClose = if b = .Close ∨ b = .Sp then .ATerm else b := by
    subst ha1
    by_cases h1 : b = .Sp
    · subst h1
      simp only [AState.remember, hbi, Bool.not_false, if_true] at ha ⊢
      split <;> simp_all
    · by_cases h2 : b = .Close
      · subst h2
        simp only [AState.remember, hbi, Bool.not_false, if_true] at ha ⊢
        simp_all
      · simp only [AState.remember, hbi, Bool.not_false, if_true]
        simp [h1, h2]
  have hbp : b.paraSep = false := SB.stops_para hb
  have hbs : b.saTerm = false := by rw [Bool.eq_false_iff]; intro h; simp [SB.stops, h] at hb
  have hba : b ≠ .ATerm := by rintro rfl; cases hb
  by_cases hk : b = .Close ∨ b = .Sp
  · right
    rw [if_pos hk] at hspc
    have : lowerAhead (.Lower :: l.map fun x => sclass x.1) = true := by simp [lowerAhead, SB.stops]
    simp [rulesA, hcur, hex, hspc, hbp, hba, this, SB.ignorable, bytesOf]
  · left
    rw [if_neg hk] at hspc
    have k1 : b ≠ .Close := fun h => hk (.inl h)
    have k2 : b ≠ .Sp := fun h => hk (.inr h)
    have l1 : SB.Lower.ignorable = false := rfl
    have l2 : SB.Lower.saTerm = false := rfl
    have l3 : SB.Lower.paraSep = false := rfl
    simp [rulesA, restA, hcur, hex, hspc, hbp, hba, hbs, k1, k2, l1, l2, l3]

/-- The rule on the entries; `cut` says that the text ends within a character. -/
def J (cut : Bool) (l r : List Nat) : Bool :=
  sjoinsIf (lowerAheadCut cut (r.map sclass)) (l.map sclass) (r.map sclass)

/-- What the state knows about the entries before. -/
def Ctx (s : State) (left : List Nat) : Prop := ∃ a : AState, s = a.toState ∧ ACtx a (left.map sclass)

theorem pass {data t : Bytes} {s : State} {left : List Nat} {v : Nat} {bs d' : Bytes} {l : List (Nat × Bytes)}
    (hctx : Ctx s left) (hdd : data.drop s.pos = bs ++ d') (hne : bs ≠ []) (hp : s.pos < data.length)
    (hl : trie.lookupAt data s.pos = .ok (v, bs.length)) (hval : trie.IsValue v) (hrest : Decodes trie d' l t) :
    PassOk (step data true) State.pos Ctx Prod.fst (J (!t.isEmpty)) data s left ((v, bs) :: l) := by
  obtain ⟨a, rfl, hctx⟩ := hctx
  change a.pos < data.length at hp
  change data.drop a.pos = bs ++ d' at hdd
  have hdec : Decodes trie (data.drop a.pos) ((v, bs) :: l) t := by
    change trie.lookupAt data a.pos = .ok (v, bs.length) at hl
    rw [lookupAt_eq (Nat.le_of_lt hp), hdd] at hl
    rw [hdd]
    exact .cons hne hl hval hrest
  have hstep := step_classes hp hdec
  generalize hnext : ({ a.remember with pos := a.pos + bs.length, current := sclass v } : AState) = next at hstep
  have hmap : ∀ L : List (Nat × Bytes), (L.map Prod.fst).map sclass = L.map fun x => sclass x.1 := by
    intro L; simp
  have hcutall : (((v, bs) :: l).all fun x => !(sclass x.1).stops) = (sclass v :: l.map fun x => sclass x.1).all (!·.stops) := by
    rw [show (sclass v :: l.map fun x => sclass x.1) = ((v, bs) :: l).map fun x => sclass x.1 from rfl, List.all_map]
    rfl
  have hout := rulesA_outcome (ahead := lowerAhead (sclass v :: l.map fun x => sclass x.1))
    (cut := !t.isEmpty && ((v, bs) :: l).all fun x => !(sclass x.1).stops)
    (p8 := a.pos + (bytesOf (((v, bs) :: l).takeWhile fun x => !(sclass x.1).stops)).length)
    (n := data.length) (p := a.pos + bs.length) (b := sclass v) (R := l.map fun x => sclass x.1) hctx
  rw [hnext, ← hstep] at hout
  have hJ0 : J (!t.isEmpty) left (((v, bs) :: l).map Prod.fst)
      = sjoinsIf (lowerAhead (sclass v :: l.map fun x => sclass x.1)
          || (!t.isEmpty && ((v, bs) :: l).all fun x => !(sclass x.1).stops)) (left.map sclass)
        (sclass v :: l.map fun x => sclass x.1) := by
    rw [J, hmap, hcutall]; rfl
  rcases hout with ⟨h1, h2⟩ | ⟨h1, h2, h3⟩ | ⟨hpara, hign, hends, hspc, h4⟩
  · left
    exact ⟨by rw [hJ0]; exact h1, h2⟩
  · right; left
    refine ⟨1, 1, next.toState, by omega, by simp, by omega, ?_, ?_, ?_, ?_⟩
    · intro fuel; rw [Nat.add_comm]; simp only [runLoop, h2]
    · subst hnext; simp [AState.toState, bytesOf]
    · refine ⟨next, rfl, ?_⟩
      have : next.current = sclass v := by rw [← hnext]
      rw [this] at h3
      simpa using h3
    · intro i hi
      obtain rfl : i = 0 := by omega
      simpa using (hJ0.trans h1)
  · -- SB8
    have hleft : left.map sclass ≠ [] := by
      intro h; have := hctx.cur; rw [h] at this; cases this
    -- all positions before the letter that was found are joined
    have hJ : ∀ i, i < ((v, bs) :: l).length → (∀ x ∈ ((v, bs) :: l).take i, (sclass x.1).stops = false) →
        lowerAheadCut (!t.isEmpty) (((v, bs) :: l).map fun x => sclass x.1) = true →
        J (!t.isEmpty) (((((v, bs) :: l).take i).map Prod.fst).reverse ++ left) ((((v, bs) :: l).drop i).map Prod.fst)
          = true := by
      intro i hi hstop hlook
      generalize hL : (v, bs) :: l = L at *
      obtain ⟨z, R, hz⟩ := List.exists_cons_of_ne_nil (l := L.drop i) (by simp; omega)
      have hP : ∀ x ∈ ((L.take i).map fun x => sclass x.1).reverse, x.stops = false := by
        intro x hx
        simp only [List.mem_reverse, List.mem_map] at hx
        obtain ⟨y, hy, rfl⟩ := hx
        exact hstop y hy
      have hlook' : lowerAheadCut (!t.isEmpty) ((L.drop i).map fun x => sclass x.1) = true := by
        have : L.map (fun x => sclass x.1) = (L.take i).map (fun x => sclass x.1) ++ (L.drop i).map fun x => sclass x.1 := by
          rw [← List.map_append, List.take_append_drop]
        rw [this, lowerAheadCut_run] at hlook
        · exact hlook
        · intro x hx; exact hP x (by simpa using hx)
      rw [J, hmap, hlook', hz, List.map_append, List.map_reverse, hmap, List.map_cons]
      exact sjoinsIf_run hleft (fun x hx => hpara x (List.mem_of_mem_head? hx)) hends hP _ _
    rcases h4 with ⟨hahead, hR⟩ | ⟨hahead, hcut, hR⟩
    · right; left
      have hlook : lowerAheadCut (!t.isEmpty) (((v, bs) :: l).map fun x => sclass x.1) = true := by
        have : lowerAhead (((v, bs) :: l).map fun x => sclass x.1) = true := hahead
        rw [lowerAheadCut, this, Bool.true_or]
      -- the letter that was found
      generalize hL : (v, bs) :: l = L at *
      have hsplit : L = L.takeWhile (fun x => !(sclass x.1).stops) ++ L.dropWhile fun x => !(sclass x.1).stops :=
        (List.takeWhile_append_dropWhile).symm
      obtain ⟨y, l2, hy⟩ : ∃ y l2, L.dropWhile (fun x => !(sclass x.1).stops) = y :: l2 := by
        cases hd : L.dropWhile (fun x => !(sclass x.1).stops) with
        | nil =>
          have h5 : lowerAhead (L.map fun x => sclass x.1) = true := by rw [← hL]; exact hahead
          rw [lowerAhead, List.dropWhile_map] at h5
          have : L.dropWhile ((fun x => !x.stops) ∘ fun x : Nat × Bytes => sclass x.1) = [] := hd
          rw [this] at h5
          cases h5
        | cons y l2 => exact ⟨y, l2, rfl⟩
      obtain ⟨yv, ybs⟩ := y
      have hyl : sclass yv = .Lower := by
        have h5 : lowerAhead (L.map fun x => sclass x.1) = true := by rw [← hL]; exact hahead
        rw [lowerAhead, List.dropWhile_map] at h5
        have : L.dropWhile ((fun x => !x.stops) ∘ fun x : Nat × Bytes => sclass x.1) = (yv, ybs) :: l2 := hy
        rw [this] at h5
        simpa using h5
      generalize hpre : L.takeWhile (fun x => !(sclass x.1).stops) = pre at *
      rw [hy] at hsplit
      have hprestop : ∀ x ∈ pre, (sclass x.1).stops = false := by
        intro x hx
        rw [← hpre] at hx
        simpa using List.all_eq_true.mp List.all_takeWhile x hx
      have hdec8 : Decodes trie (data.drop (a.pos + (bytesOf pre).length)) ((yv, ybs) :: l2) t := by
        have := hdec.drop pre.length (by rw [hsplit]; simp)
        rw [List.drop_drop, hsplit, List.take_left, List.drop_left] at this
        exact this
      have hp8 : a.pos + (bytesOf pre).length < data.length := by
        rcases Nat.lt_or_ge (a.pos + (bytesOf pre).length) data.length with h | h
        · exact h
        · rw [List.drop_of_length_le h] at hdec8
          have := hdec8.length_le; simp at this
      have hpara' : ∀ x ∈ ((pre.map Prod.fst).reverse ++ left).map sclass, x.paraSep = false := by
        intro x hx
        simp only [List.map_append, List.map_reverse, List.mem_append, List.mem_reverse, List.mem_map] at hx
        rcases hx with ⟨w, ⟨y, hy, rfl⟩, rfl⟩ | ⟨y, hy, rfl⟩
        · exact SB.stops_para (hprestop y hy)
        · exact hpara _ (List.mem_map_of_mem hy)
      have htake : L.take (pre.length + 1) = pre ++ [(yv, ybs)] := by
        rw [hsplit, List.take_append, List.take_of_length_le (by omega), Nat.add_sub_cancel_left]
        rfl
      have hnext1 : next.current = sclass v := by rw [← hnext]
      -- the end
      have fin : ∀ m (a' : AState), m ≤ 2 * (pre.length + 1) →
          (∀ fuel, runLoop (step data true) (m + fuel) a.toState = runLoop (step data true) fuel a'.toState) →
          a'.pos = a.pos + (bytesOf pre).length + ybs.length → a'.current = .Lower →
          ∃ n m s', 0 < n ∧ n ≤ L.length ∧ m ≤ 2 * n
            ∧ (∀ fuel, runLoop (step data true) (m + fuel) a.toState = runLoop (step data true) fuel s')
            ∧ s'.pos = a.toState.pos + (bytesOf (L.take n)).length
            ∧ Ctx s' (((L.take n).map Prod.fst).reverse ++ left)
            ∧ ∀ i, i < n → J (!t.isEmpty) (((L.take i).map Prod.fst).reverse ++ left) ((L.drop i).map Prod.fst) = true := by
        intro m a' hm hrun hpos hcur
        refine ⟨pre.length + 1, m, a'.toState, by omega, by rw [hsplit]; simp, hm, hrun, ?_, ⟨a', rfl, ?_⟩, ?_⟩
        · rw [htake]
          simp only [bytesOf, List.flatMap_append, List.flatMap_cons, List.flatMap_nil, List.append_nil,
            List.length_append]
          change a'.pos = a.pos + _
          rw [hpos]; simp only [bytesOf]; omega
        · rw [htake]
          simp only [List.map_append, List.map_cons, List.map_nil, List.reverse_append, List.reverse_cons,
            List.reverse_nil, List.nil_append, List.cons_append, hyl]
          rw [← List.map_append]
          exact ACtx.lower hcur hpara'
        · intro i hi
          apply hJ i (by rw [hsplit]; simp; omega) _ hlook
          intro x hx
          rw [hsplit, List.take_append_of_le_length (by omega)] at hx
          exact hprestop x (List.mem_of_mem_take hx)
      generalize hs1 : ({ next with pos := a.pos + (bytesOf pre).length } : AState) = a1 at hR
      have hs1p : a1.pos = a.pos + (bytesOf pre).length := by rw [← hs1]
      have hs1c : a1.current = sclass v := by rw [← hs1]; exact hnext1
      cases hpre0 : pre with
      | nil =>
        -- the character itself is the letter
        have hv : sclass v = .Lower := by
          rw [hpre0] at hsplit
          rw [← hL] at hsplit
          simp at hsplit
          rw [hsplit.1.1]; exact hyl
        have h5 := step_lower (a := a1) (by rw [hs1p]; exact hp8) (by rw [hs1p]; exact hdec8) hyl (by rw [hs1c, hv])
        apply fin 2 { a1.remember with pos := a1.pos + ybs.length, current := .Lower } (by omega)
        · intro fuel
          rw [Nat.add_comm 2]
          simp only [runLoop, hR, h5]
        · rw [← hs1p]
        · rfl
      | cons x pre' =>
        have hx : (v, bs) = x := by
          rw [hpre0, ← hL] at hsplit
          simp at hsplit
          exact hsplit.1
        have hvs : (sclass v).stops = false := by
          have := hprestop x (by rw [hpre0]; exact List.mem_cons_self)
          rw [← hx] at this
          exact this
        have hlen : 1 ≤ pre.length := by rw [hpre0]; simp
        have hnspc : a.remember.spClose = .ATerm := by rw [← hspc, ← hnext]
        have h5 := step_found hp8 hdec8 hyl hvs (by rw [hnext1] at hign; exact hign) hnspc
          (a1 := a1) (by rw [← hs1, ← hnext])
        rcases h5 with h5 | h5
        · apply fin 2 { a1.remember with pos := a.pos + (bytesOf pre).length + ybs.length, current := .Lower } (by omega)
          · intro fuel
            rw [Nat.add_comm 2]
            simp only [runLoop, hR, h5]
          · rfl
          · rfl
        · generalize hs2 : ({ a1.remember with pos := a.pos + (bytesOf pre).length, current := .Lower } : AState) = a2 at h5
          have hs2p : a2.pos = a.pos + (bytesOf pre).length := by rw [← hs2]
          have h6 := step_lower (a := a2) (by rw [hs2p]; exact hp8) (by rw [hs2p]; exact hdec8) hyl (by rw [← hs2])
          apply fin 3 { a2.remember with pos := a2.pos + ybs.length, current := .Lower } (by omega)
          · intro fuel
            rw [Nat.add_comm 3]
            simp only [runLoop, hR, h5, h6]
          · rw [← hs2p]
          · rfl
    · right; right
      simp only [Bool.and_eq_true] at hcut
      refine ⟨hR, ?_⟩
      intro i hi
      apply hJ i hi
      · intro x hx
        simpa using List.all_eq_true.mp hcut.2 x (List.mem_of_mem_take hx)
      · rw [hcutall] at hcut
        simp only [lowerAheadCut, List.map_cons, hcut, Bool.true_and, Bool.or_true]

end Uax29.Sentences
