import Verif.Model.Cost
/-! # The counting copies compute what the originals compute -/
namespace Uax29

@[simp] theorem after_snd {α : Type} (n : Nat) (x : Counted α) : (after n x).2 = x.2 := rfl
@[simp] theorem after_fst {α : Type} (n : Nat) (x : Counted α) : (after n x).1 = n + x.1 := rfl

theorem subsequentLoopC_snd (T : Trie) (ignore props : Nat) (data : Bytes) (eof : Bool) : ∀ fuel i,
    (subsequentLoopC T ignore props data eof fuel i).2 = subsequentLoop T ignore props data eof fuel i := by
  intro fuel
  induction fuel with
  | zero => intro i; rfl
  | succ fuel ih =>
    intro i
    simp only [subsequentLoopC, subsequentLoop]
    rcases T.lookupAt data i with f | ⟨v, w⟩
    all_goals
      simp only
      repeat' split
      all_goals first | rfl | simp only [after_snd, ih]

theorem subsequentFromC_snd (T : Trie) (ignore props : Nat) (data : Bytes) (i : Nat) (eof : Bool) :
    (subsequentFromC T ignore props data i eof).2 = subsequentFrom T ignore props data i eof := by
  simp only [subsequentFromC, subsequentFrom]
  rcases sliceFrom data i with f | d
  · rfl
  · simp only [subsequentLoopC_snd]; rfl

theorem runLoopC_snd {σ : Type} {body : σ → Counted (Step σ)} {body' : σ → Step σ}
    (h : ∀ s, (body s).2 = body' s) : ∀ fuel s, (runLoopC body fuel s).2 = runLoop body' fuel s := by
  intro fuel
  induction fuel with
  | zero => intro s; rfl
  | succ fuel ih =>
    intro s
    simp only [runLoopC, runLoop, ← h]
    cases body s with
    | mk n x => cases x <;> simp [ih]

namespace Words

theorem lookAheadC_snd (props : Nat) (data : Bytes) (eof : Bool) (next : State) (o : Counted (Step State)) :
    (lookAheadC props data eof next o).2 = lookAhead props data eof next o.2 := by
  simp only [lookAheadC, lookAhead, ← subsequentFromC_snd]
  cases subsequentFromC trie _Ignore props data next.pos eof with
  | mk n r =>
    cases r with
    | error f => rfl
    | ok p =>
      obtain ⟨a, m⟩ := p
      simp only
      repeat' split
      all_goals rfl

theorem stepRest2C_snd (data : Bytes) (eof : Bool) (s next : State) :
    (stepRest2C data eof s next).2 = stepRest2 data eof s next := by
  simp only [stepRest2C, stepRest2]
  repeat' split
  all_goals first | rfl | rw [lookAheadC_snd]

theorem stepRest1C_snd (data : Bytes) (eof : Bool) (s next : State) :
    (stepRest1C data eof s next).2 = stepRest1 data eof s next := by
  simp only [stepRest1C, stepRest1]
  repeat' split
  all_goals first | rfl | rw [lookAheadC_snd, stepRest2C_snd] | rw [stepRest2C_snd]

theorem rulesC_snd (data : Bytes) (eof : Bool) (s next : State) :
    (rulesC data eof s next).2 = rules data eof s next := by
  simp only [rulesC, rules]
  repeat' split
  all_goals first | rfl | rw [lookAheadC_snd, stepRest1C_snd] | rw [stepRest1C_snd]

theorem stepC_snd (middle : Option (List Int)) (data : Bytes) (eof : Bool) (s : State) :
    (stepC middle data eof s).2 = step middle data eof s := by
  unfold stepC step
  split
  · split <;> rfl
  · rcases trie.lookupAt data s.pos with f | ⟨v, w⟩
    · rfl
    · simp only
      split
      · split <;> rfl
      · rcases applyJoiner middle _MidNumLet data s.pos v with f | v'
        · rfl
        · simp only [after_snd, rulesC_snd]

theorem joinersSplitFuncC_snd (j : Option Joiners) (data : Bytes) (eof : Bool) :
    (joinersSplitFuncC j data eof).2 = joinersSplitFunc j data eof := by
  unfold joinersSplitFuncC joinersSplitFunc
  split
  · rfl
  · rcases trie.lookupAt data 0 with f | ⟨v, w⟩
    · rfl
    · simp only
      split
      · split <;> rfl
      · rcases applyJoiner (j.bind Joiners.leading) _AHLetter data 0 v with f | v'
        · rfl
        · simp only [after_snd, finishC, runLoopC_snd (stepC_snd _ _ _)]

end Words

namespace Phrases

theorem lookAheadC_snd (props : Nat) (data : Bytes) (eof : Bool) (next : State) (o : Counted (Step State)) :
    (lookAheadC props data eof next o).2 = lookAhead props data eof next o.2 := by
  simp only [lookAheadC, lookAhead, ← subsequentFromC_snd]
  cases subsequentFromC trie _Ignore props data next.pos eof with
  | mk n r =>
    cases r with
    | error f => rfl
    | ok p =>
      obtain ⟨a, m⟩ := p
      simp only
      repeat' split
      all_goals rfl

theorem stepRest2C_snd (data : Bytes) (eof : Bool) (s next : State) :
    (stepRest2C data eof s next).2 = stepRest2 data eof s next := by
  simp only [stepRest2C, stepRest2]
  repeat' split
  all_goals first | rfl | rw [lookAheadC_snd]

theorem stepRest1C_snd (data : Bytes) (eof : Bool) (s next : State) :
    (stepRest1C data eof s next).2 = stepRest1 data eof s next := by
  simp only [stepRest1C, stepRest1]
  repeat' split
  all_goals first | rfl | rw [lookAheadC_snd, stepRest2C_snd] | rw [stepRest2C_snd]

theorem rulesC_snd (data : Bytes) (eof : Bool) (s next : State) :
    (rulesC data eof s next).2 = rules data eof s next := by
  simp only [rulesC, rules]
  repeat' split
  all_goals first | rfl | rw [lookAheadC_snd, stepRest1C_snd] | rw [stepRest1C_snd]

theorem stepC_snd (data : Bytes) (eof : Bool) (s : State) :
    (stepC data eof s).2 = step data eof s := by
  unfold stepC step
  split
  · split <;> rfl
  · rcases trie.lookupAt data s.pos with f | ⟨v, w⟩
    · rfl
    · simp only
      split
      · split <;> rfl
      · simp only [after_snd, rulesC_snd]

theorem splitFuncC_snd (data : Bytes) (eof : Bool) : (splitFuncC data eof).2 = splitFunc data eof := by
  unfold splitFuncC splitFunc
  split
  · rfl
  · rcases trie.lookupAt data 0 with f | ⟨v, w⟩
    · rfl
    · simp only
      split
      · split <;> rfl
      · simp only [after_snd, finishC, runLoopC_snd (stepC_snd _ _)]

end Phrases

namespace Sentences

theorem scan8C_snd (data : Bytes) (eof : Bool) : ∀ fuel p,
    (scan8C data eof fuel p).2 = scan8 data eof fuel p := by
  intro fuel
  induction fuel with
  | zero => intro p; rfl
  | succ fuel ih =>
    intro p
    simp only [scan8C, scan8]
    rcases trie.lookupAt data p with f | ⟨v, w⟩
    all_goals
      simp only
      repeat' split
      all_goals first | rfl | simp only [after_snd, ih]

theorem rulesC_snd (data : Bytes) (eof : Bool) (s next : State) :
    (rulesC data eof s next).2 = rules data eof s next := by
  simp only [rulesC, rules, ← scan8C_snd, ← subsequentFromC_snd]
  split
  · rfl
  split
  · rfl
  split
  · rfl
  split
  · rfl
  split
  · rfl
  split
  · rfl
  split
  · cases scan8C data eof (data.length + 1) s.pos with
    | mk n r =>
      cases r with
      | stop p =>
        simp only
        cases subsequentFromC trie _Ignore _Lower data p eof with
        | mk m r =>
          cases r with
          | error f => rfl
          | ok q =>
            obtain ⟨a, m⟩ := q
            simp only
            repeat' split
            all_goals rfl
      | _ => rfl
  · rfl

theorem stepC_snd (data : Bytes) (eof : Bool) (s : State) :
    (stepC data eof s).2 = step data eof s := by
  unfold stepC step
  split
  · split <;> rfl
  · rcases trie.lookupAt data s.pos with f | ⟨v, w⟩
    · rfl
    · simp only
      split
      · split <;> rfl
      · simp only [after_snd, rulesC_snd]

theorem splitFuncC_snd (data : Bytes) (eof : Bool) : (splitFuncC data eof).2 = splitFunc data eof := by
  unfold splitFuncC splitFunc
  split
  · rfl
  · rcases trie.lookupAt data 0 with f | ⟨v, w⟩
    · rfl
    · simp only
      split
      · split <;> rfl
      · simp only [after_snd, finishC, runLoopC_snd (stepC_snd _ _)]

end Sentences

namespace Graphemes

theorem stepC_snd (data : Bytes) (eof : Bool) (s : State) :
    (stepC data eof s).2 = step data eof s := by
  unfold stepC step
  split
  · split <;> rfl
  · rcases trie.lookupAt data s.pos with f | ⟨v, w⟩
    · rfl
    · simp only
      split
      · split <;> rfl
      · rfl

theorem splitFuncC_snd (data : Bytes) (eof : Bool) : (splitFuncC data eof).2 = splitFunc data eof := by
  unfold splitFuncC splitFunc
  split
  · rfl
  · rcases trie.lookupAt data 0 with f | ⟨v, w⟩
    · rfl
    · simp only
      split
      · split <;> rfl
      · simp only [after_snd, finishC, runLoopC_snd (stepC_snd _ _)]

end Graphemes

/-! ## The iterators -/

theorem callSplitC_snd {split : SplitFnC} {it : Iter} (h : ∀ d e, (split d e).2 = it.split d e) :
    (it.callSplitC split).2 = it.callSplit := by
  simp only [Iter.callSplitC, Iter.callSplit, ← h]
  rcases sliceFrom it.data it.pos with f | d
  · rfl
  · simp only
    cases split d true with
    | mk n r =>
      cases r with
      | error f => rfl
      | ok r =>
        simp only
        cases r.err with
        | some e => rfl
        | none =>
          simp only
          repeat' split
          all_goals rfl

theorem countWhileC_snd (p : UInt8 → Bool) : ∀ d, (countWhileC p d).2 = countWhile p d
  | [] => rfl
  | b :: d => by
    simp only [countWhileC, countWhile, ← countWhileC_snd p d]
    split <;> rfl

theorem Words.nextC_snd {split : SplitFnC} {it : Iter} (h : ∀ d e, (split d e).2 = it.split d e) :
    (nextC split it).2 = next it := by
  simp only [nextC, next, ← countWhileC_snd]
  rcases index it.data it.pos with f | b
  all_goals
    simp only
    repeat' split
    all_goals first | rfl | exact callSplitC_snd (it := { it with start := it.pos }) h

theorem nextSkippingC_snd {split : SplitFnC} {it : Iter} (h : ∀ d e, (split d e).2 = it.split d e) :
    (it.nextSkippingC split).2 = it.nextSkipping := by
  simp only [Iter.nextSkippingC, Iter.nextSkipping, ← countWhileC_snd]
  split
  · rfl
  split
  · rfl
  · simp only [after_snd]
    split
    · exact callSplitC_snd (it := { it with start := it.pos, pos := _ }) h
    · exact callSplitC_snd (it := { it with start := it.pos, pos := _ }) h

namespace Graphemes

theorem csiLoopC_snd : ∀ (d : Bytes) (b : Bool) (i : Nat), (csiLoopC b i d).2 = csiLoop b i d
  | [], _, _ => rfl
  | x :: d, b, i => by
    simp only [csiLoopC, csiLoop]
    repeat' split
    all_goals first | rfl | simp only [after_snd, csiLoopC_snd d]

theorem oscLoopC_snd : ∀ (d : Bytes) (i : Nat), (oscLoopC i d).2 = oscLoop i d
  | [], _ => rfl
  | x :: d, i => by
    simp only [oscLoopC, oscLoop]
    repeat' split
    all_goals first | rfl | simp only [after_snd, oscLoopC_snd d]

theorem stLoopC_snd : ∀ (d : Bytes) (i : Nat), (stLoopC i d).2 = stLoop i d
  | [], _ => rfl
  | x :: d, i => by
    simp only [stLoopC, stLoop]
    repeat' split
    all_goals first | rfl | simp only [after_snd, stLoopC_snd d]

theorem nfLoopC_snd : ∀ (d : Bytes) (i : Nat), (nfLoopC i d).2 = nfLoop i d
  | [], _ => rfl
  | x :: d, i => by
    simp only [nfLoopC, nfLoop]
    repeat' split
    all_goals first | rfl | simp only [after_snd, nfLoopC_snd d]

theorem oscLoopC1C_snd : ∀ (d : Bytes) (i : Nat), (oscLoopC1C i d).2 = oscLoopC1 i d
  | [], _ => rfl
  | x :: d, i => by
    simp only [oscLoopC1C, oscLoopC1]
    repeat' split
    all_goals first | rfl | simp only [after_snd, oscLoopC1C_snd d]

theorem stLoopC1C_snd : ∀ (d : Bytes) (i : Nat), (stLoopC1C i d).2 = stLoopC1 i d
  | [], _ => rfl
  | x :: d, i => by
    simp only [stLoopC1C, stLoopC1]
    repeat' split
    all_goals first | rfl | simp only [after_snd, stLoopC1C_snd d]

theorem ansiEscapeLengthC_snd (d : Bytes) : (ansiEscapeLengthC d).2 = ansiEscapeLength d := by
  match d with
  | [] => rfl
  | [_] => rfl
  | x0 :: x1 :: rest =>
    simp only [ansiEscapeLengthC, ansiEscapeLength, csiBodyLength, oscLength, stSequenceLength,
      ← csiLoopC_snd, ← oscLoopC_snd, ← stLoopC_snd, ← nfLoopC_snd]
    split
    · rfl
    split
    · split <;> rfl
    split
    · cases oscLoopC 0 rest with
      | mk n r => cases r <;> rfl
    split
    · cases stLoopC 0 rest with
      | mk n r => cases r <;> rfl
    repeat' split
    all_goals rfl

theorem ansiEscapeLength8BitC_snd (d : Bytes) : (ansiEscapeLength8BitC d).2 = ansiEscapeLength8Bit d := by
  match d with
  | [] => rfl
  | x0 :: rest =>
    simp only [ansiEscapeLength8BitC, ansiEscapeLength8Bit, csiBodyLength, oscLengthC1, stSequenceLengthC1,
      ← csiLoopC_snd, ← oscLoopC1C_snd, ← stLoopC1C_snd]
    split
    · split <;> rfl
    split
    · cases oscLoopC1C 0 rest with
      | mk n r => cases r <;> rfl
    split
    · cases stLoopC1C 0 rest with
      | mk n r => cases r <;> rfl
    repeat' split
    all_goals rfl

theorem nextPlainC_snd {split : SplitFnC} {it : Iter} (h : ∀ d e, (split d e).2 = it.split d e) (b : Nat) :
    (nextPlainC split it b).2 = nextPlain it b := by
  simp only [nextPlainC, nextPlain]
  rcases index it.data (it.pos + 1) with f | b
  all_goals
    simp only
    repeat' split
    all_goals first | rfl | exact callSplitC_snd h

theorem next8C_snd {split : SplitFnC} {it : Iter} (h : ∀ d e, (split d e).2 = it.split d e) (o : Options)
    (b : Nat) : (next8C split o it b).2 = next8 o it b := by
  simp only [next8C, next8, ← ansiEscapeLength8BitC_snd]
  rcases sliceFrom it.data it.pos with f | d
  all_goals
    simp only
    repeat' split
    all_goals first | rfl | exact nextPlainC_snd h b

theorem nextC_snd {split : SplitFnC} {it : Iter} (h : ∀ d e, (split d e).2 = it.split d e) (o : Options) :
    (nextC split o it).2 = next o it := by
  simp only [nextC, next, ← ansiEscapeLengthC_snd]
  rcases index it.data it.pos with f | x
  · split <;> rfl
  · simp only
    rcases sliceFrom it.data it.pos with f | d
    all_goals
      simp only
      repeat' split
      all_goals first | rfl | exact next8C_snd (it := { it with start := it.pos }) h o _

end Graphemes

/-- The user's loop, over the iterators with the split function `split`. -/
theorem collectC_snd {split : SplitFn} {nextC : Iter → Counted (Iter × NextOut)}
    {next : Iter → Iter × NextOut} (h : ∀ it, it.split = split → (nextC it).2 = next it)
    (hs : ∀ it, it.split = split → (next it).1.split = split) :
    ∀ fuel it, it.split = split → (collectC nextC fuel it).2 = collect next fuel it := by
  intro fuel
  induction fuel with
  | zero => intro it _; rfl
  | succ fuel ih =>
    intro it hit
    have h1 := hs it hit
    simp only [collectC, collect, ← h it hit] at h1 ⊢
    revert h1
    rcases nextC it with ⟨n, it', o⟩
    intro h1
    simp only at h1
    cases o with
    | fault f => rfl
    | ret b =>
      cases b
      · rfl
      · simp only
        cases it'.value with
        | error f => rfl
        | ok v =>
          simp only [← ih it' h1]
          rcases collectC nextC fuel it' with ⟨m, r⟩
          cases r <;> rfl

end Uax29
