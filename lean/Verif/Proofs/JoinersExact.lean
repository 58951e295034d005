import Verif.Spec.JoinersExact
import Verif.Proofs.Joiners
import Verif.Proofs.Pieces
/-! # words: what joiners do, for all joiners and all bytes -/
namespace Uax29
open Spec
namespace Words

/-- The bits of the newlines. -/
def _NL : Nat := _Newline ||| _CR ||| _LF

/-- The rules look at the entry before only for spaces, newlines and ZWJ, apart from `lastExIgnore`. -/
theorem rulesWith_cur {a : Nat → Step State → Step State} {s s' next : State} (hp : s.pos = s'.pos)
    (hr : s.regionalIndicatorCount = s'.regionalIndicatorCount)
    (h1 : is s.current _WSegSpace = is s'.current _WSegSpace) (h2 : is s.current _CR = is s'.current _CR)
    (h3 : is s.current _NL = is s'.current _NL) (h4 : is s.current _ZWJ = is s'.current _ZWJ) :
    rulesWith a s next = rulesWith a s' next := by
  have hs : is (next.current &&& s.current) _WSegSpace = is (next.current &&& s'.current) _WSegSpace := by
    rw [show _WSegSpace = 1 <<< 18 from rfl, and_is_pow, and_is_pow]
    have : is s.current (1 <<< 18) = is s'.current (1 <<< 18) := h1
    rw [this]
  have hn : is (s.current ||| next.current) (_Newline ||| _CR ||| _LF)
      = is (s'.current ||| next.current) (_Newline ||| _CR ||| _LF) := by
    rw [or_is, or_is]
    have : is s.current (_Newline ||| _CR ||| _LF) = is s'.current (_Newline ||| _CR ||| _LF) := h3
    rw [this]
  unfold rulesWith rest1With rest2With stepRest3
  simp only [hs, hn, h2, h4, hp, hr]

/-- Two states that differ at most in newline bits of the entries before the current one. -/
structure Sim (s s' : State) : Prop where
  pos : s.pos = s'.pos
  cur : s.current = s'.current
  ex : s.lastExIgnore ||| _NL = s'.lastExIgnore ||| _NL
  exex : s.lastLastExIgnore ||| _NL = s'.lastLastExIgnore ||| _NL
  ri : s.regionalIndicatorCount = s'.regionalIndicatorCount

/-- Passes that do the same up to such differences. -/
inductive StepSim : Step State → Step State → Prop
  | cont {s s' : State} : Sim s s' → StepSim (.cont s) (.cont s')
  | same (x : Step State) : (∀ s, x ≠ .cont s) → StepSim x x

theorem is_sim {u u' : Nat} (h : u ||| _NL = u' ||| _NL) {p : Nat} (hp : is _NL p = false) : is u p = is u' p := by
  have h1 := or_is u _NL p
  have h2 := or_is u' _NL p
  rw [hp, Bool.or_false] at h1 h2
  rw [← h1, h, h2]

theorem rules_sim {data : Bytes} {eof : Bool} {s s' next next' : State} (h : Sim s s') (hn : Sim next next') :
    StepSim (rules data eof s next) (rules data eof s' next') := by
  have hc : StepSim (.cont next) (.cont next') := .cont hn
  have hb : StepSim (.brk s.pos) (.brk s'.pos) := by
    rw [h.pos]; exact .same _ (by intro s h; cases h)
  have ha : ∀ p x y, StepSim x y → StepSim (lookAhead p data eof next x) (lookAhead p data eof next' y) := by
    intro p x y hxy
    unfold lookAhead
    rw [hn.pos]
    cases subsequentFrom trie _Ignore p data next'.pos eof with
    | error f => exact .same _ (by intro s h; cases h)
    | ok r =>
      obtain ⟨a, m⟩ := r
      cases m with
      | true => exact .same _ (by intro s h; cases h)
      | false =>
        simp only [Bool.false_eq_true, if_false]
        exact ite_rel (fun _ => .cont ⟨by simp, hn.cur, hn.ex, hn.exex, hn.ri⟩) (fun _ => hxy)
  have ex : ∀ {p : Nat}, is _NL p = false → is next.lastExIgnore p = is next'.lastExIgnore p := is_sim hn.ex
  have exex : ∀ {p : Nat}, is _NL p = false → is next.lastLastExIgnore p = is next'.lastLastExIgnore p := is_sim hn.exex
  have h3 : StepSim (stepRest3 s next) (stepRest3 s' next') := by
    unfold stepRest3
    dsimp only
    rw [hn.cur, ex (p := _Katakana) (by decide), ex (p := _AHLetter ||| _Numeric ||| _Katakana ||| _ExtendNumLet) (by decide),
      ex (p := _ExtendNumLet) (by decide), ex (p := _RegionalIndicator) (by decide), h.ri]
    repeat' (first | exact hc | exact hb | exact .cont ⟨hn.pos, rfl, hn.ex, hn.exex, rfl⟩ | refine ite_rel (fun _ => ?_) (fun _ => ?_))
  have h2 : StepSim (stepRest2 data eof s next) (stepRest2 data eof s' next') := by
    unfold stepRest2
    dsimp only
    rw [hn.cur, ex (p := _DoubleQuote) (by decide), exex (p := _HebrewLetter) (by decide),
      ex (p := _MidNum ||| _MidNumLetQ) (by decide), exex (p := _Numeric) (by decide), ex (p := _Numeric) (by decide)]
    repeat' (first | exact hc | exact h3 | apply ha | refine ite_rel (fun _ => ?_) (fun _ => ?_))
  have h1 : StepSim (stepRest1 data eof s next) (stepRest1 data eof s' next') := by
    unfold stepRest1
    dsimp only
    rw [hn.cur, ex (p := _MidLetter ||| _MidNumLetQ) (by decide), exex (p := _AHLetter) (by decide),
      ex (p := _HebrewLetter) (by decide)]
    repeat' (first | exact hc | exact h2 | apply ha | refine ite_rel (fun _ => ?_) (fun _ => ?_))
  unfold rules
  dsimp only
  rw [hn.cur, h.cur, ex (p := _Numeric ||| _AHLetter) (by decide), ex (p := _AHLetter) (by decide)]
  repeat' (first | exact hc | exact hb | exact h1 | apply ha | refine ite_rel (fun _ => ?_) (fun _ => ?_))

theorem step_sim {mid : Option (List Int)} {data : Bytes} {eof : Bool} {s s' : State} (h : Sim s s') :
    StepSim (step mid data eof s) (step mid data eof s') := by
  unfold step
  rw [h.pos, h.cur]
  refine ite_rel (fun _ => ?_) (fun _ => ?_)
  · refine ite_rel (fun _ => ?_) (fun _ => ?_) <;> exact .same _ (by intro s h; cases h)
  · cases trie.lookupAt data s'.pos with
    | error f => exact .same _ (by intro s h; cases h)
    | ok r =>
      obtain ⟨v, w⟩ := r
      dsimp only
      refine ite_rel (fun _ => ?_) (fun _ => ?_)
      · refine ite_rel (fun _ => ?_) (fun _ => ?_) <;> exact .same _ (by intro s h; cases h)
      · cases applyJoiner mid _MidNumLet data s'.pos v with
        | error f => exact .same _ (by intro s h; cases h)
        | ok c =>
          dsimp only
          apply rules_sim h
          refine ⟨rfl, rfl, ?_, ?_, h.ri⟩
          · dsimp only
            split
            · rfl
            · exact h.ex
          · dsimp only
            split
            · exact h.ex
            · exact h.exex

theorem runLoop_sim {mid : Option (List Int)} {data : Bytes} {eof : Bool} : ∀ fuel {s s' : State}, Sim s s' →
    runLoop (step mid data eof) fuel s = runLoop (step mid data eof) fuel s'
  | 0, _, _, _ => rfl
  | fuel + 1, s, s', h => by
    have hs := step_sim (mid := mid) (data := data) (eof := eof) h
    rw [runLoop, runLoop]
    generalize step mid data eof s = x at hs
    generalize step mid data eof s' = y at hs
    cases hs with
    | cont h' => exact runLoop_sim fuel h'
    | same _ _ => rfl

/-- Is the rune of a chunk in the list? -/
def hasRune (runes : Option (List Int)) (x : Nat × Bytes) : Bool :=
  match runes with
  | none => false
  | some rs => runesContain rs (Utf8.decodeRune x.2).1

theorem joinCell_eq (runes : Option (List Int)) (bits : Nat) (x : Nat × Bytes) :
    joinCell runes bits x = if hasRune runes x then x.1 ||| bits else x.1 := by
  unfold joinCell hasRune
  cases runes <;> rfl

/-- The entry that the first chunk counts as; `l` are the chunks after it. -/
def startCell (lead : Option (List Int)) (x : Nat × Bytes) (l : List (Nat × Bytes)) : Nat :=
  if !hasRune lead x then x.1
  else if is x.1 _Ignore then x.1
  else if is x.1 _NL then
    if l.head?.any fun y => is y.1 (_Numeric ||| _AHLetter) then _AHLetter else x.1
  else x.1 ||| _AHLetter

theorem startCell_ok {lead : Option (List Int)} {x : Nat × Bytes} (l : List (Nat × Bytes)) (hx : trie.IsValue x.1) :
    OkSet (wset (startCell lead x l)) ∧ Blank (wset (startCell lead x l)) := by
  have hgood := okValue.all (P := fun v => (goodCell v = true ∧ ((wset v).ignorable = true →
        ∀ g ∈ allWB, g ≠ .Extend → g ≠ .Format → g ≠ .ZWJ → wset v g = false))
      ∧ (is v _Ignore = false → is v _NL = false → (wset (v ||| _AHLetter)).newline = false
        ∧ (wset (v ||| _AHLetter)).ignorable = false)) (by decide +kernel) (okValue_of hx)
  have h1 : OkSet (wset x.1) ∧ Blank (wset x.1) :=
    ⟨OkSet.of_goodCell hgood.1.1, fun h g => hgood.1.2 h g (mem_allWB g)⟩
  unfold startCell
  split
  · exact h1
  split
  · exact h1
  rename_i hi
  split
  · split
    · have : (wset _AHLetter).newline = false ∧ (wset _AHLetter).ignorable = false := by decide
      exact ⟨⟨fun _ => this.1, fun _ => this.1, fun _ => this.1, fun _ => this.1⟩,
        fun h => by rw [this.2] at h; cases h⟩
    · exact h1
  · rename_i hn
    have := hgood.2 (by simpa using hi) (by simpa using hn)
    exact ⟨⟨fun _ => this.1, fun _ => this.1, fun _ => this.1, fun _ => this.1⟩,
        fun h => by rw [this.2] at h; cases h⟩

/-- A pass at the end of the data or before an incomplete encoding. -/
theorem step_end {mid : Option (List Int)} {data : Bytes} {s s' : State} (hp : s.pos = s'.pos)
    (h : s.pos = data.length ∨ ∃ v, trie.lookupAt data s.pos = .ok (v, 0)) :
    step mid data true s = step mid data true s' := by
  unfold step
  rw [← hp]
  by_cases he : s.pos = data.length
  · rw [if_pos he, if_pos he]
  · rw [if_neg he, if_neg he]
    rcases h with h | ⟨v, h⟩
    · exact absurd h he
    · rw [h]; rfl

theorem loop_start (mid lead : Option (List Int)) {bs d' t : Bytes} {l : List (Nat × Bytes)} {v : Nat}
    (hv : trie.IsValue v) (hdec : Decodes trie d' l t) (fuel : Nat) :
    runLoop (step mid (bs ++ d') true) (fuel + 2) ⟨bs.length, joinCell lead _AHLetter (v, bs), 0, 0, 0⟩
      = runLoop (step mid (bs ++ d') true) (fuel + 2) ⟨bs.length, startCell lead (v, bs) l, 0, 0, 0⟩ := by
  rw [joinCell_eq]
  unfold startCell
  cases hasRune lead (v, bs) with
  | false => rfl
  | true =>
  simp only [if_true, Bool.not_true, Bool.false_eq_true, if_false]
  by_cases hi : is v _Ignore = true
  · -- ignored
    rw [if_pos hi]
    have hz := okValue.all (P := fun v => is v _Ignore = true → is (v ||| _AHLetter) _Ignore = true
      ∧ is (v ||| _AHLetter) _WSegSpace = is v _WSegSpace ∧ is (v ||| _AHLetter) _CR = is v _CR
      ∧ is (v ||| _AHLetter) _NL = is v _NL ∧ is (v ||| _AHLetter) _ZWJ = is v _ZWJ) (by decide +kernel) (okValue_of hv) hi
    obtain ⟨z1, z2, z3, z4, z5⟩ := hz
    have : step mid (bs ++ d') true ⟨bs.length, v ||| _AHLetter, 0, 0, 0⟩
        = step mid (bs ++ d') true ⟨bs.length, v, 0, 0, 0⟩ := by
      unfold step
      dsimp only
      rw [z1, hi]
      simp only [Bool.not_true, Bool.false_eq_true, if_false]
      split
      · rfl
      split
      · rfl
      split
      · rfl
      split
      · rfl
      rw [rules_eq, rules_eq]
      exact rulesWith_cur rfl rfl z2 z3 z4 z5
    rw [runLoop, runLoop, this]
  rw [if_neg hi]
  by_cases hn : is v _NL = true
  case neg => rw [if_neg hn]
  rw [if_pos hn]
  have hz := okValue.all (P := fun v => is v _NL = true → is (v ||| _AHLetter) _Ignore = false ∧ is v _Ignore = false
      ∧ is v _WSegSpace = false ∧ is (v ||| _AHLetter) _WSegSpace = false ∧ is (v ||| _AHLetter) _CR = is v _CR
      ∧ is (v ||| _AHLetter) _NL = is v _NL ∧ is (v ||| _AHLetter) _ZWJ = is v _ZWJ
      ∧ (v ||| _AHLetter) ||| _NL = _AHLetter ||| _NL) (by decide +kernel) (okValue_of hv) hn
  obtain ⟨z1, z2, z3, z4, z5, z6, z7, z8⟩ := hz
  have hd0 : (bs ++ d').drop bs.length = d' := by simp
  cases hdec with
  | nil =>
    simp only [List.head?_nil, Option.any_none, Bool.false_eq_true, if_false]
    rw [runLoop, runLoop, step_end (s := ⟨bs.length, v ||| _AHLetter, 0, 0, 0⟩) (s' := ⟨bs.length, v, 0, 0, 0⟩) rfl (.inl (by simp))]
  | tail ne look =>
    simp only [List.head?_nil, Option.any_none, Bool.false_eq_true, if_false]
    rw [runLoop, runLoop, step_end (s := ⟨bs.length, v ||| _AHLetter, 0, 0, 0⟩) (s' := ⟨bs.length, v, 0, 0, 0⟩) rfl (.inr ⟨_, by
      rw [lookupAt_eq (by simp), hd0]; exact look⟩)]
  | @cons bs2 d2 _ v2 l2 ne look val rest =>
    have hl2 : trie.lookupAt (bs ++ (bs2 ++ d2)) bs.length = .ok (v2, bs2.length) := by
      rw [lookupAt_eq (by simp), hd0]; exact look
    have hpos := List.length_pos_iff.mpr ne
    have hst : ∀ c, step mid (bs ++ (bs2 ++ d2)) true ⟨bs.length, c, 0, 0, 0⟩
        = rules (bs ++ (bs2 ++ d2)) true ⟨bs.length, c, 0, 0, 0⟩
          (nextW _Ignore ⟨bs.length, c, 0, 0, 0⟩ (joinCell mid _MidNumLet (v2, bs2)) bs2.length) :=
      fun c => step_eq (by simp; omega) hd0 ne hl2
    have hal : is (joinCell mid _MidNumLet (v2, bs2)) (_Numeric ||| _AHLetter) = is v2 (_Numeric ||| _AHLetter) := by
      rcases joinCell_cases mid _MidNumLet (v2, bs2) with e | e <;> rw [e]
      rw [or_is, show is _MidNumLet (_Numeric ||| _AHLetter) = false from by decide, Bool.or_false]
    by_cases ha : is v2 (_Numeric ||| _AHLetter) = true
    · -- a letter or number after it
      rw [if_pos (show Option.any (fun y : Nat × Bytes => is y.1 (_Numeric ||| _AHLetter)) ((v2, bs2) :: l2).head? = true from ha), runLoop, runLoop, hst, hst]
      have hc : ∀ c, is c (_Numeric ||| _AHLetter) = true → is c _Ignore = false →
          rules (bs ++ (bs2 ++ d2)) true ⟨bs.length, c, 0, 0, 0⟩
            (nextW _Ignore ⟨bs.length, c, 0, 0, 0⟩ (joinCell mid _MidNumLet (v2, bs2)) bs2.length)
          = .cont ⟨bs.length + bs2.length, joinCell mid _MidNumLet (v2, bs2), c, 0, 0⟩ := by
        intro c h1 h2
        unfold rules
        simp only [nextW, h2, Bool.not_false, if_true, hal, ha, h1, Bool.and_self]
      rw [hc _ (by rw [or_is]; simp [show is _AHLetter (_Numeric ||| _AHLetter) = true from by decide]) z1,
        hc _ (by decide) (by decide)]
      exact runLoop_sim _ ⟨rfl, rfl, z8, rfl, rfl⟩
    · -- something else
      rw [if_neg (show ¬ Option.any (fun y : Nat × Bytes => is y.1 (_Numeric ||| _AHLetter)) ((v2, bs2) :: l2).head? = true from ha)]
      have ha' : is v2 (_Numeric ||| _AHLetter) = false := by simpa using ha
      rw [runLoop, runLoop, hst, hst]
      have hr : ∀ c, is c _Ignore = false → is c _WSegSpace = false → is c _CR = is v _CR → is c _NL = true →
          rules (bs ++ (bs2 ++ d2)) true ⟨bs.length, c, 0, 0, 0⟩
            (nextW _Ignore ⟨bs.length, c, 0, 0, 0⟩ (joinCell mid _MidNumLet (v2, bs2)) bs2.length)
          = if is (joinCell mid _MidNumLet (v2, bs2)) _LF && is v _CR then
              .cont ⟨bs.length + bs2.length, joinCell mid _MidNumLet (v2, bs2), c, 0, 0⟩
            else .brk bs.length := by
        intro c h1 h2 h3 h4
        have h5 : is (joinCell mid _MidNumLet (v2, bs2) &&& c) _WSegSpace = false := by
          rw [show _WSegSpace = 1 <<< 18 from rfl, and_is_pow]
          have : is c (1 <<< 18) = false := h2
          rw [this, Bool.and_false]
        have h6 : is (c ||| joinCell mid _MidNumLet (v2, bs2)) (_Newline ||| _CR ||| _LF) = true := by
          rw [or_is]
          have : is c (_Newline ||| _CR ||| _LF) = true := h4
          rw [this, Bool.true_or]
        unfold rules
        simp only [nextW, h1, Bool.not_false, if_true, hal, ha', Bool.false_and, Bool.false_eq_true, if_false, h5, h6, h3]
      rw [hr _ z1 z4 z5 (by rw [z6, hn]), hr _ z2 z3 rfl hn]
      by_cases hlf : (is (joinCell mid _MidNumLet (v2, bs2)) _LF && is v _CR) = true
      case neg => rw [if_neg hlf, if_neg hlf]
      rw [if_pos hlf, if_pos hlf]
      have hlf1 : is (joinCell mid _MidNumLet (v2, bs2)) _LF = true := by
        rw [Bool.and_eq_true] at hlf; exact hlf.1
      -- the line feed after a carriage return
      have hw := okValue.all (P := fun w => ∀ c ∈ [w, w ||| _MidNumLet], is c _LF = true →
          is c _Ignore = false ∧ is c _WSegSpace = false ∧ is c _CR = false ∧ is c _NL = true
          ∧ is c (_Numeric ||| _AHLetter) = false) (by decide +kernel) (okValue_of val)
          (joinCell mid _MidNumLet (v2, bs2)) (by
            rcases joinCell_cases mid _MidNumLet (v2, bs2) with e | e <;> rw [e] <;> simp) hlf1
      obtain ⟨w1, w2, w3, w4, w5⟩ := hw
      generalize joinCell mid _MidNumLet (v2, bs2) = c2 at w1 w2 w3 w4 w5
      have hd1 : (bs ++ (bs2 ++ d2)).drop (bs.length + bs2.length) = d2 := by
        rw [← List.append_assoc, ← List.length_append, List.drop_left]
      dsimp only
      cases rest with
      | nil =>
        rw [runLoop, runLoop, step_end (s := ⟨bs.length + bs2.length, c2, v ||| _AHLetter, 0, 0⟩) (s' := ⟨bs.length + bs2.length, c2, v, 0, 0⟩) rfl (.inl (by simp))]
      | tail ne3 look3 =>
        rw [runLoop, runLoop, step_end (s := ⟨bs.length + bs2.length, c2, v ||| _AHLetter, 0, 0⟩) (s' := ⟨bs.length + bs2.length, c2, v, 0, 0⟩) rfl (.inr ⟨_, by
          rw [lookupAt_eq (by simp), hd1]; exact look3⟩)]
      | @cons bs3 d3 _ v3 l3 ne3 look3 val3 rest3 =>
        have hl3 : trie.lookupAt (bs ++ (bs2 ++ (bs3 ++ d3))) (bs.length + bs2.length) = .ok (v3, bs3.length) := by
          rw [lookupAt_eq (by simp), hd1]; exact look3
        have hpos3 := List.length_pos_iff.mpr ne3
        have hb : ∀ c, step mid (bs ++ (bs2 ++ (bs3 ++ d3))) true ⟨bs.length + bs2.length, c2, c, 0, 0⟩
            = .brk (bs.length + bs2.length) := by
          intro c
          rw [step_eq (by simp; omega) hd1 ne3 hl3]
          generalize joinCell mid _MidNumLet (v3, bs3) = c3
          have h5 : is (c3 &&& c2) _WSegSpace = false := by
            rw [show _WSegSpace = 1 <<< 18 from rfl, and_is_pow]
            have : is c2 (1 <<< 18) = false := w2
            rw [this, Bool.and_false]
          have h6 : is (c2 ||| c3) (_Newline ||| _CR ||| _LF) = true := by
            rw [or_is]
            have : is c2 (_Newline ||| _CR ||| _LF) = true := w4
            rw [this, Bool.true_or]
          unfold rules
          simp only [nextW, w1, Bool.not_false, if_true, w5, Bool.and_false, Bool.false_eq_true, if_false, h5, h6, w3]
        rw [runLoop, runLoop, hb, hb]

/-- The number of pieces of the first token, where `p` is the first piece. -/
def firstPieces (mid lead : Option (List Int)) : List Piece → Nat
  | [] => 0
  | p :: ps => 1 + grow J [startCell lead (trie.pieceChunk p) (ps.map trie.pieceChunk)]
      (ps.map fun q => joinCell mid _MidNumLet (trie.pieceChunk q))

theorem firstPieces_le (mid lead : Option (List Int)) (ps : List Piece) (h : ps ≠ []) :
    0 < firstPieces mid lead ps ∧ firstPieces mid lead ps ≤ ps.length := by
  obtain ⟨p, ps, rfl⟩ := List.exists_cons_of_ne_nil h
  have := grow_le J [startCell lead (trie.pieceChunk p) (ps.map trie.pieceChunk)]
      (ps.map fun q => joinCell mid _MidNumLet (trie.pieceChunk q))
  rw [List.length_map] at this
  simp only [firstPieces, List.length_cons]
  omega

theorem bytesOf_pieces (ps : List Piece) : bytesOf (ps.map trie.pieceChunk) = ps.flatMap Piece.bytes := by
  simp [bytesOf, List.flatMap_map, Trie.pieceChunk]

theorem adv_pieces (j : Option Joiners) {d t : Bytes} {ps : List Piece} (hd : d ≠ []) (h : Pieces d ps t) :
    splitAdv (joinersSplitFunc j) d
      = ((ps.take (firstPieces (j.bind (·.middle)) (j.bind (·.leading)) ps)).flatMap Piece.bytes).length
        + if firstPieces (j.bind (·.middle)) (j.bind (·.leading)) ps = ps.length then t.length else 0 := by
  have hdec := h.decodes wf strict
  cases ps with
  | nil =>
    rw [List.map_nil] at hdec
    cases hdec with
    | nil => exact absurd rfl hd
    | tail _ look =>
      have h1 : ¬ d.length = 0 := by simpa using hd
      have : joinersSplitFunc j d true = finish d (.brk d.length) := by
        unfold joinersSplitFunc
        rw [if_neg h1, lookupAt_eq (by simp)]
        simp only [List.drop_zero, look, if_true]
        rfl
      rw [splitAdv_finish (Nat.le_refl _) this]
      simp [firstPieces]
  | cons p ps =>
    rw [List.map_cons] at hdec
    generalize hl : ps.map trie.pieceChunk = l at hdec
    generalize hx : trie.pieceChunk p = x at hdec
    cases hdec with
    | @cons bs d' _ v _ ne look val rest =>
      have h1 : ¬ (bs ++ d').length = 0 := by simpa using hd
      have h2 : ¬ bs.length = 0 := by simpa using ne
      have hl0 : trie.lookupAt (bs ++ d') 0 = .ok (v, bs.length) := by
        rw [lookupAt_eq (by simp)]; exact look
      have hj := applyJoiner_chunk (runes := j.bind (·.leading)) (bits := _AHLetter) (data := bs ++ d') (pos := 0)
        (by simp) (by simp; rfl) ne hl0
      have hok := startCell_ok (lead := j.bind (·.leading)) (x := (v, bs)) l val
      have hcell : l.map (joinCell (j.bind (·.middle)) _MidNumLet)
          = ps.map fun q => joinCell (j.bind (·.middle)) _MidNumLet (trie.pieceChunk q) := by
        rw [← hl, List.map_map]; rfl
      have hfuel : loopFuel (bs ++ d') = 2 * (bs ++ d').length + 2 := rfl
      have hs : joinersSplitFunc j (bs ++ d') true = finish (bs ++ d') (runLoop
          (step (j.bind (·.middle)) (bs ++ d') true) (loopFuel (bs ++ d'))
            ⟨bs.length, startCell (j.bind (·.leading)) (v, bs) l, 0, 0, 0⟩) := by
        unfold joinersSplitFunc
        rw [if_neg h1]
        simp only [hl0, if_neg h2, hj]
        rw [hfuel, loop_start _ _ val rest]
      rw [loop_grow _ ne rest hok.1 hok.2, hcell] at hs
      have hle := grow_le J [startCell (j.bind (·.leading)) (v, bs) l]
        (ps.map fun q => joinCell (j.bind (·.middle)) _MidNumLet (trie.pieceChunk q))
      have hlen : l.length = ps.length := by rw [← hl, List.length_map]
      have hbs : bs = p.bytes := congrArg Prod.snd hx.symm
      have hfp : firstPieces (j.bind (·.middle)) (j.bind (·.leading)) (p :: ps)
          = 1 + grow J [startCell (j.bind (·.leading)) (v, bs) l]
        (ps.map fun q => joinCell (j.bind (·.middle)) _MidNumLet (trie.pieceChunk q)) := by
        rw [firstPieces, hx, hl]
      rw [hfp]
      generalize grow J [startCell (j.bind (·.leading)) (v, bs) l]
        (ps.map fun q => joinCell (j.bind (·.middle)) _MidNumLet (trie.pieceChunk q)) = n at hs hle
      have hb : bytesOf (l.take n) = (ps.take n).flatMap Piece.bytes := by
        rw [← hl, ← List.map_take, bytesOf_pieces]
      have hflat : l.flatMap (·.2) ++ t = d' := rest.flatten
      have h3 : l.flatMap (·.2) = bytesOf (l.take n) ++ bytesOf (l.drop n) := by
        simp only [bytesOf, ← List.flatMap_append, List.take_append_drop]
      rw [splitAdv_finish ?_ hs]
      · rw [hb, hlen, hbs, Nat.add_comm 1, List.take_succ_cons, List.flatMap_cons, List.length_append,
          List.length_cons]
        simp only [Nat.add_right_cancel_iff]
      · have e1 := congrArg List.length hflat
        have e2 := congrArg List.length h3
        rw [List.length_append] at e1 e2 ⊢
        split <;> omega

end Words

theorem Spec.Pieces.flatten {d t : Bytes} {ps : List Piece} (h : Pieces d ps t) : ps.flatMap Piece.bytes ++ t = d := by
  induction h with
  | nil => rfl
  | cut => rfl
  | char c _ ih => rw [List.flatMap_cons, List.append_assoc, ih]; rfl
  | bad _ _ _ _ ih => rw [List.flatMap_cons, List.append_assoc, ih]; rfl

theorem Spec.Pieces.drop {d t : Bytes} {ps : List Piece} (h : Pieces d ps t) (n : Nat) :
    Pieces ((ps.drop n).flatMap Piece.bytes ++ t) (ps.drop n) t := by
  induction h generalizing n with
  | nil => simpa using Pieces.nil
  | cut short => simpa using Pieces.cut short
  | char c rest ih =>
    cases n with
    | zero =>
      rw [List.drop_zero, (Pieces.char c rest).flatten]
      exact .char c rest
    | succ n => exact ih n
  | bad long ill len rest ih =>
    cases n with
    | zero =>
      rw [List.drop_zero, (Pieces.bad long ill len rest).flatten]
      exact .bad long ill len rest
    | succ n => exact ih n

/-- Tokens on arbitrary bytes when each of them is the first one of what is left. -/
theorem segs_first_pieces {adv : Bytes → Nat} (hg : GoodAdv adv) (n : List Piece → Nat)
    (hn : ∀ ps : List Piece, ps ≠ [] → 0 < n ps ∧ n ps ≤ ps.length)
    {t : Bytes} (h : ∀ d ps, d ≠ [] → Pieces d ps t → adv d = ((ps.take (n ps)).flatMap Piece.bytes).length
      + if n ps = ps.length then t.length else 0) :
    ∀ {d : Bytes} {ps : List Piece}, Pieces d ps t →
    ∃ gs : List (List Piece), segs adv d = tokenBytes t gs ∧ gs.flatten = ps ∧ (∀ g ∈ gs, g ≠ [])
      ∧ ∀ A g B, gs = A ++ g :: B → g.length = n (g ++ B.flatten) := by
  intro d ps
  induction hl : ps.length using Nat.strongRecOn generalizing d ps with
  | _ k ih =>
    intro hp
    by_cases hd : d = []
    · subst hd
      obtain ⟨rfl, ht⟩ : ps = [] ∧ t = [] := by
        clear h
        generalize he : ([] : Bytes) = d at hp
        cases hp with
        | nil => exact ⟨rfl, rfl⟩
        | cut short => cases he
        | char c rest =>
          have := encode_pos c
          rw [(List.append_eq_nil_iff.mp he.symm).1] at this
          simp at this
        | bad => cases he
      exact ⟨[], by rw [segs_nil, tokenBytes, if_pos ht], rfl, by simp, by intro A g B h; simp at h⟩
    have hadv := h d ps hd hp
    have hflat := hp.flatten
    by_cases hps : ps = []
    · subst hps
      refine ⟨[], ?_, rfl, by simp, by intro A g B h; simp at h⟩
      simp only [List.flatMap_nil, List.nil_append] at hflat
      rw [tokenBytes, hflat, if_neg hd]
      have := hg.pos d hd
      by_cases h0 : n [] = ([] : List Piece).length
      · rw [if_pos h0, hflat] at hadv
        simp only [List.take_nil, List.flatMap_nil, List.length_nil, Nat.zero_add] at hadv
        rw [hg.segs_cons hd, hadv, List.take_length, List.drop_length, segs_nil]
      · rw [if_neg h0] at hadv
        simp only [List.take_nil, List.flatMap_nil, List.length_nil, Nat.zero_add] at hadv
        omega
    obtain ⟨h1, h2⟩ := hn ps hps
    have hsplit : d = (ps.take (n ps)).flatMap Piece.bytes ++ ((ps.drop (n ps)).flatMap Piece.bytes ++ t) := by
      rw [← hflat, ← List.append_assoc, ← List.flatMap_append, List.take_append_drop]
    have hne : ps.take (n ps) ≠ [] := by
      rw [Ne, List.take_eq_nil_iff]
      rintro (h0 | h0)
      · omega
      · exact hps h0
    by_cases hall : n ps = ps.length
    · rw [if_pos hall, hall, List.take_length] at hadv
      have hlen : adv d = d.length := by rw [hadv, ← hflat, List.length_append]
      refine ⟨[ps], ?_, by simp, by simpa using hps, ?_⟩
      · rw [hg.segs_cons hd, hlen, List.take_length, List.drop_length, segs_nil, tokenBytes, hflat]
      · intro A g B hAB
        cases A with
        | nil =>
          simp only [List.nil_append, List.cons.injEq] at hAB
          obtain ⟨rfl, rfl⟩ := hAB
          simp [hall]
        | cons a A => simp at hAB
    rw [if_neg hall, Nat.add_zero] at hadv
    obtain ⟨gs, e1, e2, e3, e4⟩ := ih (ps.drop (n ps)).length (by rw [List.length_drop]; omega) rfl (hp.drop (n ps))
    have hgs : gs ≠ [] := by
      rintro rfl
      have := congrArg List.length e2
      simp at this
      omega
    refine ⟨ps.take (n ps) :: gs, ?_, ?_, ?_, ?_⟩
    · rw [hg.segs_cons hd, hadv]
      conv => lhs; rw [hsplit]
      rw [List.take_left, List.drop_left, e1, tokenBytes.eq_3 _ _ _ (by simpa using hgs)]
    · rw [List.flatten_cons, e2, List.take_append_drop]
    · intro g hg
      rcases List.mem_cons.mp hg with rfl | hg
      · exact hne
      · exact e3 g hg
    · intro A g B hAB
      cases A with
      | nil =>
        simp only [List.nil_append, List.cons.injEq] at hAB
        obtain ⟨rfl, rfl⟩ := hAB
        rw [e2, List.take_append_drop, List.length_take]
        omega
      | cons a A =>
        simp only [List.cons_append, List.cons.injEq] at hAB
        exact e4 A g B hAB.2

end Uax29
