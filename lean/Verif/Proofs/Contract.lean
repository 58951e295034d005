import Verif.Proofs.Loop
import Verif.Proofs.Tables
/-! # Termination, absence of faults, contract and stability of the split functions -/
namespace Uax29

/-- What one pass of a loop over `data` may do. -/
def GoodStep {σ : Type} (data : Bytes) (eof : Bool) (inv : σ → Prop) (m : σ → Nat) (s : σ) :
    Step σ → Prop
  | .cont s' => inv s' ∧ m s' < m s
  | .brk p => 0 < p ∧ p ≤ data.length
  | .more => eof = false
  | .fault _ => False

theorem runLoop_good {σ : Type} {data : Bytes} {eof : Bool} {body : σ → Step σ} {inv : σ → Prop}
    {m : σ → Nat} (h : ∀ s, inv s → GoodStep data eof inv m s (body s)) {fuel : Nat} {s : σ}
    (hs : inv s) (hm : m s < fuel) : GoodOut data eof (runLoop body fuel s) := by
  refine runLoop_rule body inv m (GoodOut data eof) ?_ fuel s hs hm
  intro s hs
  have := h s hs
  cases hb : body s <;> rw [hb] at this <;> exact this

/-- The start and the loop of a split function: `data` is not empty and the first lookup is known. -/
theorem splitWith_good {T : Trie} (hT : T.Wf) (data : Bytes) (eof : Bool)
    (f : Nat → Nat → Res SplitRes)
    (hf : ∀ v w, T.IsValue v → 0 < w → w ≤ data.length → GoodSplit data eof (f v w)) :
    GoodSplit data eof
      (if data.length = 0 then .ok .requestMore
       else match T.lookupAt data 0 with
        | .error f => .error f
        | .ok (v, w) =>
          if w = 0 then
            if !eof then .ok .requestMore else finish data (.brk data.length)
          else f v w) := by
  split
  · exact .inl ⟨rfl, .inl (List.length_eq_zero_iff.mp ‹_›)⟩
  · obtain ⟨v, w, hv, hw, _, hval⟩ := hT.lookupAt_ok (data := data) (pos := 0) (by omega)
    simp only [hv]
    split
    · cases eof
      · exact .inl ⟨rfl, .inr rfl⟩
      · exact finish_good (o := .brk data.length) ⟨by omega, Nat.le_refl _⟩
    · exact hf v w hval (by omega) (by omega)

/-- A split function is stable: a token found in a buffer that may still grow is also the token of
every longer buffer. -/
def StableSplit (split : SplitFn) : Prop :=
  ∀ (data e : Bytes) (eof : Bool) (k : Int) (tok : Bytes),
    split data false = .ok ⟨k, some tok, none⟩ → split (data ++ e) eof = .ok ⟨k, some tok, none⟩

theorem finish_brk {data : Bytes} {o : LoopOut} {k : Int} {tok : Bytes}
    (h : finish data o = .ok ⟨k, some tok, none⟩) :
    ∃ p : Nat, o = .brk p ∧ k = p ∧ p ≤ data.length ∧ tok = data.take p := by
  cases o with
  | fault f => cases h
  | more => cases h
  | brk p =>
    simp only [finish, sliceTo] at h
    by_cases hp : p ≤ data.length
    · rw [if_pos hp] at h; cases h; exact ⟨p, rfl, rfl, hp, rfl⟩
    · rw [if_neg hp] at h; cases h

theorem finish_append {data e : Bytes} {p : Nat} (hp : p ≤ data.length) :
    finish (data ++ e) (.brk p) = .ok ⟨p, some (data.take p), none⟩ := by
  simp only [finish, sliceTo_ok (data := data ++ e) (i := p) (by simp; omega)]
  rw [List.take_append_of_le_length hp]

/-- The stability of a split function from the stability of the passes of its loop. -/
theorem splitWith_stable {σ : Type} {T : Trie} (init : Bytes → Nat → Nat → Res σ)
    (body : Bytes → Bool → σ → Step σ)
    (hinit : ∀ data e v w, T.lookupAt data 0 = .ok (v, w) → w ≠ 0 →
      init (data ++ e) v w = init data v w)
    (hbody : ∀ data e eof s, Step.Stable (body data false s) (body (data ++ e) eof s)) :
    StableSplit fun data eof =>
      (if data.length = 0 then .ok .requestMore
       else match T.lookupAt data 0 with
        | .error f => .error f
        | .ok (v, w) =>
          if w = 0 then
            if !eof then .ok .requestMore else finish data (.brk data.length)
          else match init data v w with
            | .error f => .error f
            | .ok s => finish data (runLoop (body data eof) (loopFuel data) s)) := by
  intro data e eof k tok h
  dsimp only at h ⊢
  by_cases h0 : data.length = 0
  · rw [if_pos h0] at h; cases h
  · rw [if_neg h0] at h
    have h0' : (data ++ e).length ≠ 0 := by rw [List.length_append]; omega
    rw [if_neg h0']
    cases hl : T.lookupAt data 0 with
    | error f => rw [hl] at h; cases h
    | ok r =>
      obtain ⟨v, w⟩ := r
      simp only [hl] at h
      by_cases hw : w = 0
      · rw [if_pos hw] at h; cases h
      · rw [if_neg hw] at h
        simp only [lookupAt_append hl hw e, if_neg hw, hinit data e v w hl hw]
        cases hi : init data v w with
        | error f => rw [hi] at h; cases h
        | ok s =>
          simp only [hi] at h ⊢
          obtain ⟨p, hp, rfl, hle, rfl⟩ := finish_brk h
          rw [runLoop_stable (hbody data e eof) _ (loopFuel (data ++ e)) s
            (by simp [loopFuel]; omega) hp]
          exact finish_append hle

/-! ## graphemes -/
namespace Graphemes

/-- The state in which the loop starts. -/
def init (v w : Nat) : State := ⟨w, v, 0, 0, 0, .none⟩

theorem rules_rel {R : Step State → Prop} {s next : State}
    (hc : ∀ s' : State, s'.pos = next.pos → R (.cont s')) (hb : R (.brk s.pos)) :
    R (rules s next) := by
  unfold rules
  dsimp only
  repeat' (first | refine iteInduction (motive := R) (fun _ => ?_) (fun _ => ?_) | exact hb | (apply hc; rfl))

theorem step_good {data : Bytes} {eof : Bool} (s : State) (hs : 0 < s.pos ∧ s.pos ≤ data.length) :
    GoodStep data eof (fun s => 0 < s.pos ∧ s.pos ≤ data.length) (fun s => data.length - s.pos) s
      (step data eof s) := by
  unfold step
  split
  · cases eof
    · exact rfl
    · exact hs
  · obtain ⟨v, w, hv, hw, _, _⟩ := wf.lookupAt_ok (data := data) (pos := s.pos) (by omega)
    simp only [hv]
    split
    · cases eof
      · exact rfl
      · exact ⟨by omega, Nat.le_refl _⟩
    · apply rules_rel
      · intro s' h'
        have : s'.pos = s.pos + w := h'
        simp only [GoodStep, this]
        omega
      · exact hs

theorem splitFunc_good (data : Bytes) (eof : Bool) : GoodSplit data eof (splitFunc data eof) := by
  unfold splitFunc
  refine splitWith_good wf data eof _ ?_
  intro v w _ h1 h2
  apply finish_good
  refine runLoop_good step_good ⟨h1, h2⟩ ?_
  simp only [loopFuel]; omega

theorem step_stable (data e : Bytes) (eof : Bool) (s : State) :
    Step.Stable (step data false s) (step (data ++ e) eof s) := by
  unfold step
  split
  · exact .more _
  · cases hl : trie.lookupAt data s.pos with
    | error f => exact .fault f _
    | ok r =>
      obtain ⟨v, w⟩ := r
      have hlt := lookupAt_pos_lt hl
      by_cases hw : w = 0
      · simp only [if_pos hw]; exact .more _
      · have hne : s.pos ≠ (data ++ e).length := by simp; omega
        simp only [if_neg hne, lookupAt_append hl hw e, if_neg hw]
        exact .refl _

theorem splitFunc_stable : StableSplit splitFunc :=
  splitWith_stable (T := trie) (fun _ v w => .ok (init v w)) step
    (fun _ _ _ _ _ _ => rfl) step_stable

end Graphemes

theorem ite_rel {α : Type} {R : α → α → Prop} {c : Prop} [Decidable c] {a b a' b' : α}
    (h : c → R a b) (h' : ¬c → R a' b') : R (if c then a else a') (if c then b else b') := by
  split
  · exact h ‹_›
  · exact h' ‹_›

theorem Step.Stable.lookAhead {σ : Type} {T : Trie} {ignore props : Nat} {data e : Bytes} {i : Nat}
    {eof : Bool} {k : Nat → σ} {x y : Step σ} (h : Step.Stable x y) :
    Step.Stable
      (match subsequentFrom T ignore props data i false with
        | .error f => .fault f
        | .ok (advance, more) =>
          if more then .more
          else if advance ≠ notfound then .cont (k advance.toNat)
          else x)
      (match subsequentFrom T ignore props (data ++ e) i eof with
        | .error f => .fault f
        | .ok (advance, more) =>
          if more then .more
          else if advance ≠ notfound then .cont (k advance.toNat)
          else y) := by
  cases hs : subsequentFrom T ignore props data i false with
  | error f => exact .fault f _
  | ok r =>
    obtain ⟨a, m⟩ := r
    cases m with
    | true => exact .more _
    | false =>
      rw [subsequentFrom_append hs]
      simp only [Bool.false_eq_true, if_false]
      exact ite_rel (fun _ => .refl _) (fun _ => h)

/-! ## words -/
namespace Words

/-- The state in which the loop starts. -/
def init (v w : Nat) : State := ⟨w, v, 0, 0, 0⟩

/-- `stepRest2` with the look-ahead as an argument. -/
def rest2With (ahead : Nat → Step State → Step State) (s next : State) : Step State :=
  if is next.current _HebrewLetter && is next.lastExIgnore _DoubleQuote
      && is next.lastLastExIgnore _HebrewLetter then .cont next
  else if is next.current _Numeric && is next.lastExIgnore (_MidNum ||| _MidNumLetQ)
      && is next.lastLastExIgnore _Numeric then .cont next
  else if is next.current (_MidNum ||| _MidNumLetQ) && is next.lastExIgnore _Numeric then
    ahead _Numeric (stepRest3 s next)
  else stepRest3 s next

/-- `stepRest1` with the look-ahead as an argument. -/
def rest1With (ahead : Nat → Step State → Step State) (s next : State) : Step State :=
  if is next.current _AHLetter && is next.lastExIgnore (_MidLetter ||| _MidNumLetQ)
      && is next.lastLastExIgnore _AHLetter then .cont next
  else if is next.current _SingleQuote && is next.lastExIgnore _HebrewLetter then .cont next
  else if is next.current _DoubleQuote && is next.lastExIgnore _HebrewLetter then
    ahead _HebrewLetter (rest2With ahead s next)
  else rest2With ahead s next

/-- `rules` with the look-ahead as an argument. -/
def rulesWith (ahead : Nat → Step State → Step State) (s next : State) : Step State :=
  if is next.current (_Numeric ||| _AHLetter) && is next.lastExIgnore (_Numeric ||| _AHLetter) then
    .cont next
  else if is (next.current &&& s.current) _WSegSpace then .cont next
  else if is next.current _LF && is s.current _CR then .cont next
  else if is (s.current ||| next.current) (_Newline ||| _CR ||| _LF) then .brk s.pos
  else if is next.current _ExtendedPictographic && is s.current _ZWJ then .cont next
  else if is next.current (_Extend ||| _Format ||| _ZWJ) then .cont next
  else if is next.current (_MidLetter ||| _MidNumLetQ) && is next.lastExIgnore _AHLetter then
    ahead _AHLetter (rest1With ahead s next)
  else rest1With ahead s next

theorem rules_eq (data : Bytes) (eof : Bool) (s next : State) :
    rules data eof s next = rulesWith (fun p o => lookAhead p data eof next o) s next := rfl

/-- The rules only combine continuing, breaking and looking ahead. -/
theorem rulesWith_rel {R : Step State → Step State → Prop} {a1 a2 : Nat → Step State → Step State}
    {s next : State} (hc : ∀ s' : State, s'.pos = next.pos → s'.current = next.current →
      R (.cont s') (.cont s')) (hb : R (.brk s.pos) (.brk s.pos))
    (ha : ∀ p x y, R x y → R (a1 p x) (a2 p y)) :
    R (rulesWith a1 s next) (rulesWith a2 s next) := by
  have hn : R (.cont next) (.cont next) := hc next rfl rfl
  have h3 : R (stepRest3 s next) (stepRest3 s next) := by
    unfold stepRest3
    dsimp only
    repeat' (first | exact hn | exact hb | (apply hc <;> rfl) | refine ite_rel (fun _ => ?_) (fun _ => ?_))
  have h2 : R (rest2With a1 s next) (rest2With a2 s next) := by
    unfold rest2With
    repeat' (first | exact hn | exact h3 | apply ha | refine ite_rel (fun _ => ?_) (fun _ => ?_))
  have h1 : R (rest1With a1 s next) (rest1With a2 s next) := by
    unfold rest1With
    repeat' (first | exact hn | exact h2 | apply ha | refine ite_rel (fun _ => ?_) (fun _ => ?_))
  unfold rulesWith
  repeat' (first | exact hn | exact hb | exact h1 | apply ha | refine ite_rel (fun _ => ?_) (fun _ => ?_))

theorem runeAt_ok {data : Bytes} {pos : Nat} (h : pos ≤ data.length) :
    runeAt data pos = .ok (Utf8.decodeRune (data.drop pos)).1 := by
  simp [runeAt, sliceFrom_ok h]

theorem applyJoiner_ok (runes : Option (List Int)) (bits : Nat) {data : Bytes} {pos : Nat}
    (current : Nat) (h : pos ≤ data.length) :
    ∃ v, applyJoiner runes bits data pos current = .ok v := by
  cases runes with
  | none => exact ⟨_, rfl⟩
  | some rs => simp only [applyJoiner, runeAt_ok h]; exact ⟨_, rfl⟩

theorem lookAhead_good {data : Bytes} {eof : Bool} {s next : State} {p : Nat} {x : Step State}
    (hn : s.pos < next.pos ∧ next.pos ≤ data.length)
    (hx : GoodStep data eof (fun s => 0 < s.pos ∧ s.pos ≤ data.length)
      (fun s => data.length - s.pos) s x) :
    GoodStep data eof (fun s => 0 < s.pos ∧ s.pos ≤ data.length)
      (fun s => data.length - s.pos) s (lookAhead p data eof next x) := by
  unfold lookAhead
  obtain ⟨a, m, h1, h2, h3⟩ := subsequentFrom_ok wf _Ignore p hn.2 eof
  simp only [h1]
  split
  · exact h2 ‹_›
  split
  · rcases h3 with h3 | ⟨j, rfl, h4, _⟩
    · exact absurd h3 ‹_›
    · simp only [GoodStep, Int.ofNat_eq_natCast, Int.toNat_natCast]; omega
  · exact hx

theorem step_good {mid : Option (List Int)} {data : Bytes} {eof : Bool} (s : State)
    (hs : 0 < s.pos ∧ s.pos ≤ data.length) :
    GoodStep data eof (fun s => 0 < s.pos ∧ s.pos ≤ data.length) (fun s => data.length - s.pos) s
      (step mid data eof s) := by
  unfold step
  split
  · cases eof
    · exact rfl
    · exact hs
  · obtain ⟨v, w, hv, hw, _, _⟩ := wf.lookupAt_ok (data := data) (pos := s.pos) (by omega)
    simp only [hv]
    split
    · cases eof
      · exact rfl
      · exact ⟨by omega, Nat.le_refl _⟩
    · obtain ⟨v', hv'⟩ := applyJoiner_ok mid _MidNumLet (data := data) (pos := s.pos) v (by omega)
      simp only [hv', rules_eq]
      refine rulesWith_rel (R := fun x _ => GoodStep data eof _ _ s x) (a2 := fun _ x => x) ?_ hs ?_
      · intro s' h' _
        have : s'.pos = s.pos + w := h'
        simp only [GoodStep, this]
        omega
      · intro p x _ hx
        exact lookAhead_good (next := { pos := s.pos + w, current := v', .. }) ⟨by simp; omega, hw⟩ hx

theorem splitFunc_good (j : Option Joiners) (data : Bytes) (eof : Bool) :
    GoodSplit data eof (joinersSplitFunc j data eof) := by
  unfold joinersSplitFunc
  refine splitWith_good wf data eof _ ?_
  intro v w _ h1 h2
  obtain ⟨v', hv'⟩ := applyJoiner_ok (j.bind Joiners.leading) _AHLetter (data := data) (pos := 0) v
    (by omega)
  simp only [hv']
  apply finish_good
  refine runLoop_good step_good ⟨h1, h2⟩ ?_
  simp only [loopFuel]; omega

theorem lookAhead_stable {data e : Bytes} {eof : Bool} {next : State} {p : Nat} {x y : Step State}
    (h : Step.Stable x y) :
    Step.Stable (lookAhead p data false next x) (lookAhead p (data ++ e) eof next y) := by
  unfold lookAhead
  exact Step.Stable.lookAhead (k := fun n => { next with pos := next.pos + n }) h

theorem rules_stable (data e : Bytes) (eof : Bool) (s next : State) :
    Step.Stable (rules data false s next) (rules (data ++ e) eof s next) := by
  simp only [rules_eq]
  exact rulesWith_rel (R := Step.Stable) (fun _ _ _ => .refl _) (.refl _)
    (fun _ _ _ h => lookAhead_stable h)

theorem applyJoiner_append {runes : Option (List Int)} {bits : Nat} {data : Bytes} {pos v w : Nat}
    (h : trie.lookupAt data pos = .ok (v, w)) (hw : w ≠ 0) (e : Bytes) (c : Nat) :
    applyJoiner runes bits (data ++ e) pos c = applyJoiner runes bits data pos c := by
  have hp := lookupAt_pos_lt h
  rw [lookupAt_eq (by omega)] at h
  cases runes with
  | none => rfl
  | some rs =>
    simp only [applyJoiner, runeAt_ok (Nat.le_of_lt hp),
      runeAt_ok (data := data ++ e) (pos := pos) (by simp; omega)]
    rw [List.drop_append_of_le_length (by omega), Trie.decodeRune_append h hw]

theorem step_stable (mid : Option (List Int)) (data e : Bytes) (eof : Bool) (s : State) :
    Step.Stable (step mid data false s) (step mid (data ++ e) eof s) := by
  unfold step
  split
  · exact .more _
  · cases hl : trie.lookupAt data s.pos with
    | error f => exact .fault f _
    | ok r =>
      obtain ⟨v, w⟩ := r
      have hlt := lookupAt_pos_lt hl
      by_cases hw : w = 0
      · simp only [if_pos hw]; exact .more _
      · have hne : s.pos ≠ (data ++ e).length := by simp; omega
        simp only [if_neg hne, lookupAt_append hl hw e, if_neg hw, applyJoiner_append hl hw e]
        split
        · exact .fault _ _
        · exact rules_stable ..

theorem splitFunc_stable (j : Option Joiners) : StableSplit (joinersSplitFunc j) := by
  have := splitWith_stable (T := trie)
    (fun data v w => match applyJoiner (j.bind Joiners.leading) _AHLetter data 0 v with
      | .error f => .error f
      | .ok current => .ok (init current w)) (step (j.bind Joiners.middle))
    (fun data e v w hl hw => by simp only [applyJoiner_append hl hw e])
    (fun data e eof s => step_stable _ data e eof s)
  refine cast (congrArg StableSplit (funext fun data => funext fun eof => ?_)) this
  unfold joinersSplitFunc
  repeat' first | rfl | (apply ite_congr rfl <;> intro _) | (split <;> simp only [*])
  all_goals (rename_i v _ _ _; cases applyJoiner (j.bind Joiners.leading) _AHLetter data 0 v <;> rfl)

end Words

/-! ## phrases -/
namespace Phrases

/-- The state in which the loop starts. -/
def init (v w : Nat) : State := ⟨w, v, 0, 0, 0⟩

/-- `stepRest2` with the look-ahead as an argument. -/
def rest2With (ahead : Nat → Step State → Step State) (s next : State) : Step State :=
  if is next.current _HebrewLetter && is next.lastExIgnore _DoubleQuote
      && is next.lastLastExIgnore _HebrewLetter then .cont next
  else if is next.current (_Numeric ||| _AHLetter ||| _WSegSpace)
      && is next.lastExIgnore (_Numeric ||| _AHLetter ||| _WSegSpace) then .cont next
  else if is next.current _Numeric && is next.lastExIgnore (_MidNum ||| _MidNumLetQ)
      && is next.lastLastExIgnore _Numeric then .cont next
  else if is next.current (_MidNum ||| _MidNumLetQ) && is next.lastExIgnore _Numeric then
    ahead _Numeric (stepRest3 s next)
  else stepRest3 s next

/-- `stepRest1` with the look-ahead as an argument. -/
def rest1With (ahead : Nat → Step State → Step State) (s next : State) : Step State :=
  if is next.current _AHLetter && is next.lastExIgnore (_MidLetter ||| _MidNumLetQ)
      && is next.lastLastExIgnore _AHLetter then .cont next
  else if is next.current _SingleQuote && is next.lastExIgnore _HebrewLetter then .cont next
  else if is next.current _DoubleQuote && is next.lastExIgnore _HebrewLetter then
    ahead _HebrewLetter (rest2With ahead s next)
  else rest2With ahead s next

/-- `rules` with the look-ahead as an argument. -/
def rulesWith (ahead : Nat → Step State → Step State) (s next : State) : Step State :=
  if (next.current ||| s.current) = 0 then .brk s.pos
  else if is next.current _LF && is s.current _CR then .cont next
  else if is (s.current ||| next.current) (_Newline ||| _CR ||| _LF) then .brk s.pos
  else if is next.current _ExtendedPictographic && is s.current _ZWJ then .cont next
  else if is (next.current &&& s.current) _WSegSpace then .cont next
  else if is next.current (_Extend ||| _Format ||| _ZWJ) then .cont next
  else if is next.current _AHLetter && is next.lastExIgnore _AHLetter then .cont next
  else if is next.current (_MidLetter ||| _MidNumLetQ) && is next.lastExIgnore _AHLetter then
    ahead _AHLetter (rest1With ahead s next)
  else rest1With ahead s next

theorem rules_eq (data : Bytes) (eof : Bool) (s next : State) :
    rules data eof s next = rulesWith (fun p o => lookAhead p data eof next o) s next := rfl

/-- The rules only combine continuing, breaking and looking ahead. -/
theorem rulesWith_rel {R : Step State → Step State → Prop} {a1 a2 : Nat → Step State → Step State}
    {s next : State} (hc : ∀ s' : State, s'.pos = next.pos → s'.current = next.current →
      R (.cont s') (.cont s')) (hb : R (.brk s.pos) (.brk s.pos))
    (ha : ∀ p x y, R x y → R (a1 p x) (a2 p y)) :
    R (rulesWith a1 s next) (rulesWith a2 s next) := by
  have hn : R (.cont next) (.cont next) := hc next rfl rfl
  have h3 : R (stepRest3 s next) (stepRest3 s next) := by
    unfold stepRest3
    dsimp only
    repeat' (first | exact hn | exact hb | (apply hc <;> rfl) | refine ite_rel (fun _ => ?_) (fun _ => ?_))
  have h2 : R (rest2With a1 s next) (rest2With a2 s next) := by
    unfold rest2With
    repeat' (first | exact hn | exact h3 | apply ha | refine ite_rel (fun _ => ?_) (fun _ => ?_))
  have h1 : R (rest1With a1 s next) (rest1With a2 s next) := by
    unfold rest1With
    repeat' (first | exact hn | exact h2 | apply ha | refine ite_rel (fun _ => ?_) (fun _ => ?_))
  unfold rulesWith
  repeat' (first | exact hn | exact hb | exact h1 | apply ha | refine ite_rel (fun _ => ?_) (fun _ => ?_))

theorem lookAhead_good {data : Bytes} {eof : Bool} {s next : State} {p : Nat} {x : Step State}
    (hn : s.pos < next.pos ∧ next.pos ≤ data.length)
    (hx : GoodStep data eof (fun s => 0 < s.pos ∧ s.pos ≤ data.length)
      (fun s => data.length - s.pos) s x) :
    GoodStep data eof (fun s => 0 < s.pos ∧ s.pos ≤ data.length)
      (fun s => data.length - s.pos) s (lookAhead p data eof next x) := by
  unfold lookAhead
  obtain ⟨a, m, h1, h2, h3⟩ := subsequentFrom_ok wf _Ignore p hn.2 eof
  simp only [h1]
  split
  · exact h2 ‹_›
  split
  · rcases h3 with h3 | ⟨j, rfl, h4, _⟩
    · exact absurd h3 ‹_›
    · simp only [GoodStep, Int.ofNat_eq_natCast, Int.toNat_natCast]; omega
  · exact hx

theorem step_good {data : Bytes} {eof : Bool} (s : State)
    (hs : 0 < s.pos ∧ s.pos ≤ data.length) :
    GoodStep data eof (fun s => 0 < s.pos ∧ s.pos ≤ data.length) (fun s => data.length - s.pos) s
      (step data eof s) := by
  unfold step
  split
  · cases eof
    · exact rfl
    · exact hs
  · obtain ⟨v, w, hv, hw, _, _⟩ := wf.lookupAt_ok (data := data) (pos := s.pos) (by omega)
    simp only [hv]
    split
    · cases eof
      · exact rfl
      · exact ⟨by omega, Nat.le_refl _⟩
    · simp only [rules_eq]
      refine rulesWith_rel (R := fun x _ => GoodStep data eof _ _ s x) (a2 := fun _ x => x) ?_ hs ?_
      · intro s' h' _
        have : s'.pos = s.pos + w := h'
        simp only [GoodStep, this]
        omega
      · intro p x _ hx
        exact lookAhead_good (next := { pos := s.pos + w, current := v, .. }) ⟨by simp; omega, hw⟩ hx

theorem splitFunc_good (data : Bytes) (eof : Bool) :
    GoodSplit data eof (splitFunc data eof) := by
  unfold splitFunc
  refine splitWith_good wf data eof _ ?_
  intro v w _ h1 h2
  apply finish_good
  refine runLoop_good step_good ⟨h1, h2⟩ ?_
  simp only [loopFuel]; omega

theorem lookAhead_stable {data e : Bytes} {eof : Bool} {next : State} {p : Nat} {x y : Step State}
    (h : Step.Stable x y) :
    Step.Stable (lookAhead p data false next x) (lookAhead p (data ++ e) eof next y) := by
  unfold lookAhead
  exact Step.Stable.lookAhead (k := fun n => { next with pos := next.pos + n }) h

theorem rules_stable (data e : Bytes) (eof : Bool) (s next : State) :
    Step.Stable (rules data false s next) (rules (data ++ e) eof s next) := by
  simp only [rules_eq]
  exact rulesWith_rel (R := Step.Stable) (fun _ _ _ => .refl _) (.refl _)
    (fun _ _ _ h => lookAhead_stable h)

theorem step_stable (data e : Bytes) (eof : Bool) (s : State) :
    Step.Stable (step data false s) (step (data ++ e) eof s) := by
  unfold step
  split
  · exact .more _
  · cases hl : trie.lookupAt data s.pos with
    | error f => exact .fault f _
    | ok r =>
      obtain ⟨v, w⟩ := r
      have hlt := lookupAt_pos_lt hl
      by_cases hw : w = 0
      · simp only [if_pos hw]; exact .more _
      · have hne : s.pos ≠ (data ++ e).length := by simp; omega
        simp only [if_neg hne, lookupAt_append hl hw e, if_neg hw]
        exact rules_stable ..

theorem splitFunc_stable : StableSplit splitFunc :=
  splitWith_stable (T := trie) (fun _ v w => .ok (init v w)) step
    (fun _ _ _ _ _ _ => rfl) step_stable

end Phrases

/-! ## sentences -/
namespace Sentences

/-- The state in which the loop starts. -/
def init (v w : Nat) : State := ⟨w, v, 0, 0, 0, 0, 0, 0⟩

theorem lower_single {v : Nat} (h : trie.IsValue v) (hl : is v _Lower = true) :
    is v _Ignore = false ∧ is v _Sp = false ∧ is v _Close = false ∧ is v _ATerm = false := by
  have := h.of_all (p := fun v => !is v _Lower ||
    (!is v _Ignore && !is v _Sp && !is v _Close && !is v _ATerm)) (by decide +kernel)
  simpa [hl, and_assoc] using this

theorem scan8_ok (data : Bytes) (eof : Bool) : ∀ fuel p, p ≤ data.length → data.length < fuel + p →
    match scan8 data eof fuel p with
    | .stop q => p ≤ q ∧ q ≤ data.length
    | .breakMain => eof = true
    | .more => eof = false
    | .fault _ => False := by
  intro fuel
  induction fuel with
  | zero => intro p h1 h2; omega
  | succ fuel ih =>
    intro p h1 h2
    simp only [scan8]
    by_cases hlt : p < data.length
    · obtain ⟨v, w, hv, hw, _, _⟩ := wf.lookupAt_ok hlt
      simp only [if_pos hlt, hv]
      by_cases hw0 : w = 0
      · cases eof <;> simp [hw0]
      · simp only [if_neg hw0]
        by_cases hs : is v (_OLetter ||| _Upper ||| _Lower ||| _ParaSep ||| _SATerm) = true
        · simp only [if_pos hs]; omega
        · simp only [if_neg hs]
          have := ih (p + w) hw (by omega)
          cases h : scan8 data eof fuel (p + w) <;> rw [h] at this <;> simp only at this ⊢
          · omega
          all_goals exact this
    · simp only [if_neg hlt]; omega

theorem scan8_append (data e : Bytes) (eof : Bool) : ∀ fuel fuel' p q, fuel ≤ fuel' →
    q < data.length → scan8 data false fuel p = .stop q →
    scan8 (data ++ e) eof fuel' p = .stop q := by
  intro fuel
  induction fuel with
  | zero => intro fuel' p q _ _ h; simp [scan8] at h
  | succ fuel ih =>
    intro fuel' p q hf hq h
    obtain ⟨fuel', rfl⟩ : ∃ n, fuel' = n + 1 := ⟨fuel' - 1, by omega⟩
    simp only [scan8] at h ⊢
    by_cases hlt : p < data.length
    · rw [if_pos (by simp; omega)]
      rw [if_pos hlt] at h
      split at h
      · cases h
      · rename_i v w hv
        split at h
        · simp at h
        · rename_i hw
          simp only [lookupAt_append hv hw e, if_neg hw]
          split
          · rename_i hig
            rw [if_pos hig] at h
            exact h
          · rename_i hig
            rw [if_neg hig] at h
            exact ih fuel' (p + w) q (by omega) hq h
    · rw [if_neg hlt] at h; cases h; omega

theorem stepRest_rel {R : Step State → Prop} {s next : State}
    (hc : R (.cont next)) (hb : R (.brk s.pos)) : R (stepRest s next) := by
  unfold stepRest
  repeat' (first | exact hc | exact hb | refine iteInduction (motive := R) (fun _ => ?_) (fun _ => ?_))

/-- The look-ahead of SB8 with what follows it. -/
def ahead8 (data : Bytes) (eof : Bool) (s next : State) (otherwise : Step State) : Step State :=
  match scan8 data eof (data.length + 1) s.pos with
  | .fault f => .fault f
  | .more => .more
  | .breakMain => .brk data.length
  | .stop p =>
    match subsequentFrom trie _Ignore _Lower data p eof with
    | .error f => .fault f
    | .ok (advance, more) =>
      if more then .more
      else if advance ≠ notfound then .cont { next with pos := p + advance.toNat }
      else otherwise

/-- `rules` with the look-ahead as an argument. -/
def rulesWith (ahead : Step State → Step State) (s next : State) : Step State :=
  if (next.current ||| s.current) = 0 then .cont next
  else if is next.current _LF && is s.current _CR then .cont next
  else if is s.current _ParaSep then .brk s.pos
  else if is next.current (_Extend ||| _Format) then .cont next
  else if is next.current _Numeric && is next.lastExIgnore _ATerm then .cont next
  else if is next.current _Upper && is next.lastExIgnore _ATerm
      && is next.lastLastExIgnore (_Upper ||| _Lower) then .cont next
  else if is next.lastExIgnoreSpClose _ATerm then ahead (stepRest s next)
  else stepRest s next

theorem rules_eq (data : Bytes) (eof : Bool) (s next : State) :
    rules data eof s next = rulesWith (fun o => ahead8 data eof s next o) s next := rfl

theorem rulesWith_rel {R : Step State → Step State → Prop} {a1 a2 : Step State → Step State}
    {s next : State} (hc : R (.cont next) (.cont next)) (hb : R (.brk s.pos) (.brk s.pos))
    (ha : is next.lastExIgnoreSpClose _ATerm = true → ∀ x, R x x → R (a1 x) (a2 x)) :
    R (rulesWith a1 s next) (rulesWith a2 s next) := by
  have h3 : R (stepRest s next) (stepRest s next) := stepRest_rel (R := fun x => R x x) hc hb
  unfold rulesWith
  repeat' (first | exact hc | exact hb | exact h3 | (apply ha ‹_›; exact h3) | refine ite_rel (fun _ => ?_) (fun _ => ?_))

/-- The states that occur: inside the data, with a property of the table. -/
def Inv (data : Bytes) (s : State) : Prop := 0 < s.pos ∧ s.pos ≤ data.length ∧ trie.IsValue s.current

/-- The passes still needed: SB8 may keep the position once, when it meets a lower case letter. -/
def measure (data : Bytes) (s : State) : Nat :=
  2 * (data.length - s.pos) + if is s.current _Lower then 0 else 1

theorem measure_lt {data : Bytes} {s s' : State} (h : s.pos < s'.pos) (h' : s'.pos ≤ data.length) :
    measure data s' < measure data s := by
  unfold measure
  split <;> split <;> omega

theorem ahead8_good {data : Bytes} {eof : Bool} {s next : State} {v w : Nat}
    (hs : Inv data s) (hl : trie.lookupAt data s.pos = .ok (v, w)) (hn : next.current = v)
    (hv : trie.IsValue v) (ha : is (remember s).lastExIgnoreSpClose _ATerm = true) {x : Step State}
    (hx : GoodStep data eof (Inv data) (measure data) s x) :
    GoodStep data eof (Inv data) (measure data) s (ahead8 data eof s next x) := by
  have hlt := lookupAt_pos_lt hl
  have h8 := scan8_ok data eof (data.length + 1) s.pos hs.2.1 (by omega)
  unfold ahead8
  split
  · rename_i h; rw [h] at h8; exact h8
  · rename_i h; rw [h] at h8; exact h8
  · exact ⟨by omega, Nat.le_refl _⟩
  · rename_i p h
    rw [h] at h8
    obtain ⟨a, m, h1, h2, h3⟩ := subsequentFrom_ok wf _Ignore _Lower (i := p) h8.2 eof
    simp only [h1]
    split
    · exact h2 ‹_›
    split
    · rcases h3 with h3 | ⟨j, rfl, h4, v', w', h5, _, _, h6⟩
      · exact absurd h3 ‹_›
      · simp only [Int.ofNat_eq_natCast, Int.toNat_natCast]
        have hs1 := hs.1
        refine ⟨⟨by simp; omega, by simp; omega, by simpa [hn] using hv⟩, ?_⟩
        by_cases hp : s.pos < p + j
        · exact measure_lt hp (Nat.le_of_lt h4)
        · have hp : p + j = s.pos := by omega
          rw [hp, hl] at h5
          cases h5
          have hsl : is s.current _Lower = false := by
            cases hc : is s.current _Lower with
            | false => rfl
            | true =>
              obtain ⟨c1, c2, c3, c4⟩ := lower_single hs.2.2 hc
              simp [remember, c1, c2, c3, c4] at ha
          simp [measure, hp, hn, h6, hsl]
    · exact hx

theorem step_good {data : Bytes} {eof : Bool} (s : State) (hs : Inv data s) :
    GoodStep data eof (Inv data) (measure data) s (step data eof s) := by
  unfold step
  split
  · cases eof
    · exact rfl
    · exact ⟨hs.1, hs.2.1⟩
  · have := hs.2.1
    obtain ⟨v, w, hv, hw, _, hval⟩ := wf.lookupAt_ok (data := data) (pos := s.pos) (by omega)
    simp only [hv]
    split
    · cases eof
      · exact rfl
      · exact ⟨by omega, Nat.le_refl _⟩
    · rw [rules_eq]
      refine rulesWith_rel (R := fun x _ => GoodStep data eof _ _ s x) (a2 := fun x => x) ?_
        ⟨hs.1, hs.2.1⟩ ?_
      · exact ⟨⟨by simp; omega, hw, hval⟩, measure_lt (by simp; omega) hw⟩
      · intro ha x hx
        exact ahead8_good hs hv rfl hval ha hx

theorem splitFunc_good (data : Bytes) (eof : Bool) : GoodSplit data eof (splitFunc data eof) := by
  unfold splitFunc
  refine splitWith_good wf data eof _ ?_
  intro v w hv h1 h2
  apply finish_good
  refine runLoop_good step_good ⟨h1, h2, hv⟩ ?_
  simp only [loopFuel, measure]
  split <;> omega

theorem ahead8_stable {data e : Bytes} {eof : Bool} {s next : State} {x : Step State} :
    Step.Stable (ahead8 data false s next x) (ahead8 (data ++ e) eof s next x) := by
  by_cases hp : s.pos ≤ data.length
  · have h8 := scan8_ok data false (data.length + 1) s.pos hp (by omega)
    unfold ahead8
    cases hs : scan8 data false (data.length + 1) s.pos with
    | fault f => exact .fault f _
    | more => exact .more _
    | breakMain => rw [hs] at h8; cases h8
    | stop p =>
      rw [hs] at h8
      by_cases hlt : p < data.length
      · rw [scan8_append data e eof _ ((data ++ e).length + 1) _ _ (by simp) hlt hs]
        exact Step.Stable.lookAhead (k := fun n => { next with pos := p + n }) (.refl _)
      · have : p = data.length := by omega
        subst this
        simp [subsequentFrom, sliceFrom_ok, subsequent, subsequentLoop]
        exact .more _
  · unfold ahead8
    have h1 : ¬ s.pos < data.length := by omega
    simp only [scan8, if_neg h1, subsequentFrom, sliceFrom, if_neg hp]
    exact .fault _ _

theorem rules_stable (data e : Bytes) (eof : Bool) (s next : State) :
    Step.Stable (rules data false s next) (rules (data ++ e) eof s next) := by
  simp only [rules_eq]
  exact rulesWith_rel (R := Step.Stable) (.refl _) (.refl _) (fun _ _ _ => ahead8_stable)

theorem step_stable (data e : Bytes) (eof : Bool) (s : State) :
    Step.Stable (step data false s) (step (data ++ e) eof s) := by
  unfold step
  split
  · exact .more _
  · cases hl : trie.lookupAt data s.pos with
    | error f => exact .fault f _
    | ok r =>
      obtain ⟨v, w⟩ := r
      have hlt := lookupAt_pos_lt hl
      by_cases hw : w = 0
      · simp only [if_pos hw]; exact .more _
      · have hne : s.pos ≠ (data ++ e).length := by simp; omega
        simp only [if_neg hne, lookupAt_append hl hw e, if_neg hw]
        exact rules_stable ..

theorem splitFunc_stable : StableSplit splitFunc :=
  splitWith_stable (T := trie) (fun _ v w => .ok (init v w)) step
    (fun _ _ _ _ _ _ => rfl) step_stable

end Sentences
end Uax29
