import Verif.Spec.PhraseClasses
import Verif.Proofs.WordRestart
import Verif.Proofs.Splits
import Verif.Proofs.Decode
import Verif.Proofs.WordsConf
/-! # phrases: the split function follows the phrase rules -/
namespace Uax29.Phrases
open Spec

theorem pset_zero : pset 0 = fun _ => false := by
  funext g; simp [pset, is_zero]

theorem is_ignore (v : Nat) : is v _Ignore = (pset v).ignorable := by
  simp [_Ignore, is_or, WSet.ignorable, pset, pbBit]

theorem is_ah (v : Nat) : is v _AHLetter = (pset v).ahLetter true := by
  simp [_AHLetter, is_or, WSet.ahLetter, pset, pbBit]

theorem is_alnum (v : Nat) : is v (_Numeric ||| _AHLetter ||| _WSegSpace) = (pset v).alnum true := by
  simp [is_or, WSet.alnum, is_ah, pset, pbBit, Bool.or_comm]

theorem is_midLetter (v : Nat) : is v (_MidLetter ||| _MidNumLetQ) = (pset v).midLetter := by
  simp [is_or, WSet.midLetter, WSet.midNumLetQ, _MidNumLetQ, pset, pbBit]

theorem is_midNum (v : Nat) : is v (_MidNum ||| _MidNumLetQ) = (pset v).midNum := by
  simp [is_or, WSet.midNum, WSet.midNumLetQ, _MidNumLetQ, pset, pbBit]

theorem is_newline (u v : Nat) : is (u ||| v) (_Newline ||| _CR ||| _LF) = ((pset u).newline || (pset v).newline) := by
  rw [or_is]
  simp [is_or, WSet.newline, pset, pbBit]

theorem is_ext (v : Nat) : is v (_Extend ||| _Format ||| _ZWJ) = (pset v).ignorable := is_ignore v

theorem is_13a (v : Nat) : is v (_AHLetter ||| _Numeric ||| _Katakana ||| _ExtendNumLet)
    = ((pset v).ahLetter true || pset v .Numeric || pset v .Katakana || pset v .ExtendNumLet) := by
  simp only [is_or, is_ah]; rfl

theorem is_13b (v : Nat) : is v (_AHLetter ||| _Numeric ||| _Katakana)
    = ((pset v).ahLetter true || pset v .Numeric || pset v .Katakana) := by
  simp only [is_or, is_ah]; rfl

theorem is_space (u v : Nat) : is (u &&& v) _WSegSpace = (pset u .WSegSpace && pset v .WSegSpace) :=
  and_is_pow u v 17

theorem foundIn_eq {props : Nat} {P : WSet → Bool} (hP : ∀ v, P (pset v) = is v props) (l : List (Nat × Bytes)) :
    foundIn _Ignore props l = afterIs pset P (l.map Prod.fst) := by
  unfold afterIs foundIn
  rw [List.map_map, List.dropWhile_map]
  have : ((fun x : WSet => x.ignorable) ∘ (pset ∘ Prod.fst)) = fun x : Nat × Bytes => is x.1 _Ignore := by
    funext x
    simp only [Function.comp_apply, ← is_ignore]
  rw [this]
  cases l.dropWhile (fun x => is x.1 _Ignore) <;> simp [hP]

theorem lookAhead_eq {props : Nat} {P : WSet → Bool} (hP : ∀ v, P (pset v) = is v props) {data t : Bytes} {l : List (Nat × Bytes)}
    {next : State} (hi : next.pos ≤ data.length) (h : Decodes trie (data.drop next.pos) l t)
    (o : Step State) :
    lookAhead props data true next o = if afterIs pset P (l.map Prod.fst) then
      .cont { next with pos := next.pos + (bytesOf (l.takeWhile fun x => is x.1 _Ignore)).length } else o := by
  unfold lookAhead
  rw [subsequentFrom_decodes _ _ hi h, foundIn_eq hP]
  cases afterIs pset P (l.map Prod.fst)
  · simp
  · have : ((bytesOf (l.takeWhile fun x => is x.1 _Ignore)).length : Int) ≠ notfound := by
      simp only [notfound]; omega
    simp [this]

theorem allowed {data t : Bytes} {s : State} {v w : Nat}
    {l : List (Nat × Bytes)} (hr : RiOnly (pset v))
    (hi : s.pos + w ≤ data.length) (hdec : Decodes trie (data.drop (s.pos + w)) l t) :
    Allowed pset true s (nextW _Ignore s v w) (l.map Prod.fst)
      (bytesOf (l.takeWhile fun x => is x.1 _Ignore)).length (rules data true s (nextW _Ignore s v w)) := by
  have L1 := fun o => lookAhead_eq (P := (·.ahLetter true))
    (fun v => (is_ah v).symm) (next := nextW _Ignore s v w) hi hdec o
  have L2 := fun o => lookAhead_eq (props := _HebrewLetter) (P := (· .HebrewLetter))
    (fun _ => rfl) (next := nextW _Ignore s v w) hi hdec o
  have L3 := fun o => lookAhead_eq (props := _Numeric) (P := (· .Numeric))
    (fun _ => rfl) (next := nextW _Ignore s v w) hi hdec o
  have e1 : ∀ v, is v _LF = pset v .LF := fun _ => rfl
  have e2 : ∀ v, is v _CR = pset v .CR := fun _ => rfl
  have e3 : ∀ v, is v _ZWJ = pset v .ZWJ := fun _ => rfl
  have e4 : ∀ v, is v _ExtendedPictographic = pset v .ExtendedPictographic := fun _ => rfl
  have e5 : ∀ v, is v _SingleQuote = pset v .SingleQuote := fun _ => rfl
  have e6 : ∀ v, is v _HebrewLetter = pset v .HebrewLetter := fun _ => rfl
  have e7 : ∀ v, is v _DoubleQuote = pset v .DoubleQuote := fun _ => rfl
  have e8 : ∀ v, is v _Numeric = pset v .Numeric := fun _ => rfl
  have e9 : ∀ v, is v _Katakana = pset v .Katakana := fun _ => rfl
  have e10 : ∀ v, is v _ExtendNumLet = pset v .ExtendNumLet := fun _ => rfl
  have e11 : ∀ v, is v _RegionalIndicator = pset v .RegionalIndicator := fun _ => rfl
  have hcur : (nextW _Ignore s v w).current = v := rfl
  generalize hN : nextW _Ignore s v w = next at *
  subst hcur
  unfold rules
  dsimp only
  rw [L1]
  unfold stepRest1
  dsimp only
  rw [L2]
  unfold stepRest2
  dsimp only
  rw [L3]
  unfold stepRest3
  dsimp only
  simp only [is_alnum, is_space, is_ext, is_newline, is_midLetter, is_midNum, is_13a, is_13b, is_ah, e1, e2, e3, e4,
    e5, e6, e7, e8, e9, e10, e11]
  unfold Allowed
  dsimp only
  generalize hsa : pset s.current = a at *
  generalize hsb : pset next.current = b at *
  generalize pset next.lastExIgnore = p at *
  generalize pset next.lastLastExIgnore = q at *
  generalize hA : afterIs pset (fun x => x.ahLetter true) (l.map Prod.fst) = fA
  generalize hH : afterIs pset (fun x => x .HebrewLetter) (l.map Prod.fst) = fH
  generalize hN : afterIs pset (fun x => x .Numeric) (l.map Prod.fst) = fN
  -- what joins is not a regional indicator
  have notRI : ∀ g, g ≠ .RegionalIndicator → g ≠ .MidNumLet → b g = true → b .RegionalIndicator = false := by
    intro g h1 h2 h3
    rw [Bool.eq_false_iff]; intro h
    rw [hr h g h1 h2] at h3; cases h3
  have cont : ∀ {J : Bool} {X : Prop}, J = true → b .RegionalIndicator = false →
      (J = false ∧ Step.cont next = .brk s.pos) ∨
      (J = true ∧ Step.cont next = .cont next ∧ (b.ignorable = true ∧ a.newline = false ∨ b .RegionalIndicator = false))
      ∨ X := fun h1 h2 => .inr (.inl ⟨h1, rfl, .inr h2⟩)
  by_cases c0 : next.current ||| s.current = 0
  · rw [if_pos c0]
    left
    have h0 := Nat.or_eq_zero_iff.mp c0
    rw [← hsa, ← hsb, h0.1, h0.2, pset_zero]
    exact ⟨by simp [wordRule, unitRule, WSet.newline, WSet.ignorable, WSet.ahLetter, WSet.alnum, WSet.midLetter,
      WSet.midNum, WSet.midNumLetQ], rfl⟩
  rw [if_neg c0]
  by_cases c3 : (b .LF && a .CR) = true
  · rw [if_pos c3]
    simp only [Bool.and_eq_true] at c3
    exact cont (by simp [wordRule, c3]) (notRI _ (by decide) (by decide) c3.1)
  rw [if_neg c3]
  have d3 : ¬ (a .CR && b .LF) = true := by rw [Bool.and_comm]; exact c3
  by_cases c4 : (a.newline || b.newline) = true
  · rw [if_pos c4]
    left
    refine ⟨?_, rfl⟩
    unfold wordRule
    rw [if_neg d3, if_pos c4]
  rw [if_neg c4]
  have hn : a.newline = false ∧ b.newline = false := by simpa using c4
  by_cases c5 : (b .ExtendedPictographic && a .ZWJ) = true
  · rw [if_pos c5]
    simp only [Bool.and_eq_true] at c5
    exact cont (wordRule_of hn.1 hn.2 (by simp [c5])) (notRI _ (by decide) (by decide) c5.1)
  rw [if_neg c5]
  by_cases c2 : (b .WSegSpace && a .WSegSpace) = true
  · rw [if_pos c2]
    simp only [Bool.and_eq_true] at c2
    exact cont (wordRule_of hn.1 hn.2 (by simp [c2])) (notRI _ (by decide) (by decide) c2.1)
  rw [if_neg c2]
  by_cases c6 : b.ignorable = true
  · rw [if_pos c6]
    right; left
    exact ⟨wordRule_of hn.1 hn.2 (by simp [c6]), rfl, .inl ⟨c6, hn.1⟩⟩
  rw [if_neg c6]
  have c6 : b.ignorable = false := by simpa using c6
  rw [wordRule_not (by simpa using d3) (by rw [Bool.and_comm]; simpa using c5)
    (by rw [Bool.and_comm]; simpa using c2) c6 (by simpa using c4)]
  have jump : LooksAhead true p b (fun x => afterIs pset x (l.map Prod.fst)) → ∀ {X Y Z : Prop}, X ∨ Y ∨ Z ∨
      (Step.cont { next with pos := next.pos + (bytesOf (l.takeWhile fun x => is x.1 _Ignore)).length }
        = Step.cont { next with pos := next.pos + (bytesOf (l.takeWhile fun x => is x.1 _Ignore)).length }
        ∧ b.ignorable = false ∧ a.newline = false ∧ b.newline = false
        ∧ LooksAhead true p b (fun x => afterIs pset x (l.map Prod.fst))) :=
    fun h => fun {_ _ _} => .inr (.inr (.inr ⟨rfl, c6, hn.1, hn.2, h⟩))
  -- WB5
  by_cases c20 : (b.ahLetter true && p.ahLetter true) = true
  · rw [if_pos c20]
    simp only [Bool.and_eq_true] at c20
    refine cont (by simp [unitRule, WSet.alnum, c20]) ?_
    have h := c20.1
    simp only [WSet.ahLetter, Bool.true_and, Bool.or_eq_true] at h
    rcases h with (h | h) | h
    · exact notRI _ (by decide) (by decide) h
    · exact notRI _ (by decide) (by decide) h
    · exact notRI _ (by decide) (by decide) h
  rw [if_neg c20]
  -- WB6
  by_cases c7 : (b.midLetter && p.ahLetter true && fA) = true
  · simp only [Bool.and_eq_true] at c7
    rw [if_pos (by simp [c7]), if_pos c7.2]
    apply jump
    left; exact ⟨c7.1.2, c7.1.1, hA.trans c7.2⟩
  have f7 : (p.ahLetter true && b.midLetter && fA) = false := by
    rw [Bool.and_comm (p.ahLetter true)]; simpa using c7
  have r7 : ∀ (X Y : Step State), (if (b.midLetter && p.ahLetter true) = true then (if fA = true then X else Y) else Y)
      = Y := by
    intro X Y
    split
    · rename_i h
      rw [if_neg]
      intro h'
      apply c7; rw [h, h']; rfl
    · rfl
  rw [r7]
  -- WB7
  by_cases c8 : (b.ahLetter true && p.midLetter && q.ahLetter true) = true
  · rw [if_pos c8]
    simp only [Bool.and_eq_true] at c8
    refine cont (by simp [unitRule, c8]) ?_
    have h := c8.1.1
    simp only [WSet.ahLetter, Bool.true_and, Bool.or_eq_true] at h
    rcases h with (h | h) | h
    · exact notRI _ (by decide) (by decide) h
    · exact notRI _ (by decide) (by decide) h
    · exact notRI _ (by decide) (by decide) h
  rw [if_neg c8]
  have f8 : (q.ahLetter true && p.midLetter && b.ahLetter true) = false := by
    rw [Bool.eq_false_iff]; intro h; simp only [Bool.and_eq_true] at h; apply c8; simp [h]
  -- WB7a
  by_cases c9 : (b .SingleQuote && p .HebrewLetter) = true
  · rw [if_pos c9]
    simp only [Bool.and_eq_true] at c9
    exact cont (by simp [unitRule, c9]) (notRI _ (by decide) (by decide) c9.1)
  rw [if_neg c9]
  have f9 : (p .HebrewLetter && b .SingleQuote) = false := by rw [Bool.and_comm]; simpa using c9
  -- WB7b
  by_cases c10 : (b .DoubleQuote && p .HebrewLetter && fH) = true
  · simp only [Bool.and_eq_true] at c10
    rw [if_pos (by simp [c10]), if_pos c10.2]
    apply jump
    right; left; exact ⟨c10.1.2, c10.1.1, hH.trans c10.2⟩
  have f10 : (p .HebrewLetter && b .DoubleQuote && fH) = false := by
    rw [Bool.and_comm (p .HebrewLetter)]; simpa using c10
  have r10 : ∀ (X Y : Step State), (if (b .DoubleQuote && p .HebrewLetter) = true then (if fH = true then X else Y) else Y)
      = Y := by
    intro X Y
    split
    · rename_i h
      rw [if_neg]
      intro h'
      apply c10; rw [h, h']; rfl
    · rfl
  rw [r10]
  -- WB7c
  by_cases c11 : (b .HebrewLetter && p .DoubleQuote && q .HebrewLetter) = true
  · rw [if_pos c11]
    simp only [Bool.and_eq_true] at c11
    exact cont (by simp [unitRule, c11]) (notRI _ (by decide) (by decide) c11.1.1)
  rw [if_neg c11]
  have f11 : (q .HebrewLetter && p .DoubleQuote && b .HebrewLetter) = false := by
    rw [Bool.eq_false_iff]; intro h; simp only [Bool.and_eq_true] at h; apply c11; simp [h]
  -- WB8, WB9, WB10
  by_cases c1 : (b.alnum true && p.alnum true) = true
  · rw [if_pos c1]
    simp only [Bool.and_eq_true] at c1
    refine cont (by simp [unitRule, c1]) ?_
    have h := c1.1
    simp only [WSet.alnum, WSet.ahLetter, Bool.true_and, Bool.or_eq_true] at h
    rcases h with (((h | h) | h) | h) | h
    · exact notRI _ (by decide) (by decide) h
    · exact notRI _ (by decide) (by decide) h
    · exact notRI _ (by decide) (by decide) h
    · exact notRI _ (by decide) (by decide) h
    · exact notRI _ (by decide) (by decide) h
  rw [if_neg c1]
  have f1 : (p.alnum true && b.alnum true) = false := by rw [Bool.and_comm]; simpa using c1
  -- WB11
  by_cases c12 : (b .Numeric && p.midNum && q .Numeric) = true
  · rw [if_pos c12]
    simp only [Bool.and_eq_true] at c12
    exact cont (by simp [unitRule, c12]) (notRI _ (by decide) (by decide) c12.1.1)
  rw [if_neg c12]
  have f12 : (q .Numeric && p.midNum && b .Numeric) = false := by
    rw [Bool.eq_false_iff]; intro h; simp only [Bool.and_eq_true] at h; apply c12; simp [h]
  -- WB12
  by_cases c13 : (b.midNum && p .Numeric && fN) = true
  · simp only [Bool.and_eq_true] at c13
    rw [if_pos (by simp [c13]), if_pos c13.2]
    apply jump
    right; right; exact ⟨c13.1.2, c13.1.1, hN.trans c13.2⟩
  have f13 : (p .Numeric && b.midNum && fN) = false := by
    rw [Bool.and_comm (p .Numeric)]; simpa using c13
  have r13 : ∀ (X Y : Step State), (if (b.midNum && p .Numeric) = true then (if fN = true then X else Y) else Y)
      = Y := by
    intro X Y
    split
    · rename_i h
      rw [if_neg]
      intro h'
      apply c13; rw [h, h']; rfl
    · rfl
  rw [r13]
  -- WB13
  by_cases c14 : (b .Katakana && p .Katakana) = true
  · rw [if_pos c14]
    simp only [Bool.and_eq_true] at c14
    exact cont (by simp [unitRule, c14]) (notRI _ (by decide) (by decide) c14.1)
  rw [if_neg c14]
  have f14 : (p .Katakana && b .Katakana) = false := by rw [Bool.and_comm]; simpa using c14
  -- WB13a
  by_cases c15 : (b .ExtendNumLet && (p.ahLetter true || p .Numeric || p .Katakana || p .ExtendNumLet)) = true
  · rw [if_pos c15]
    simp only [Bool.and_eq_true] at c15
    exact cont (by simp only [unitRule, c15.1, c15.2]; simp) (notRI _ (by decide) (by decide) c15.1)
  rw [if_neg c15]
  have f15 : ((p.ahLetter true || p .Numeric || p .Katakana || p .ExtendNumLet) && b .ExtendNumLet) = false := by
    rw [Bool.and_comm]; simpa only [Bool.not_eq_true] using c15
  -- WB13b
  by_cases c16 : ((b.ahLetter true || b .Numeric || b .Katakana) && p .ExtendNumLet) = true
  · rw [if_pos c16]
    simp only [Bool.and_eq_true] at c16
    refine cont (by simp only [unitRule, c16.1, c16.2]; simp) ?_
    have h := c16.1
    simp only [WSet.ahLetter, Bool.true_and, Bool.or_eq_true] at h
    rcases h with (((h | h) | h) | h) | h
    · exact notRI _ (by decide) (by decide) h
    · exact notRI _ (by decide) (by decide) h
    · exact notRI _ (by decide) (by decide) h
    · exact notRI _ (by decide) (by decide) h
    · exact notRI _ (by decide) (by decide) h
  rw [if_neg c16]
  have f16 : (p .ExtendNumLet && (b.ahLetter true || b .Numeric || b .Katakana)) = false := by
    rw [Bool.and_comm]; simpa only [Bool.not_eq_true] using c16
  -- WB15, WB16
  have hrule : unitRule true p q b fA fH fN (decide ((s.regionalIndicatorCount + 1) % 2 = 1))
      = (p .RegionalIndicator && decide ((s.regionalIndicatorCount + 1) % 2 = 1) && b .RegionalIndicator) := by
    simp only [unitRule, f1, f7, f8, f9, f10, f11, f12, f13, f14, f15, f16, Bool.false_or]
  rw [hrule]
  by_cases c17 : (b .RegionalIndicator && p .RegionalIndicator) = true
  · rw [if_pos c17]
    simp only [Bool.and_eq_true] at c17
    by_cases c18 : (s.regionalIndicatorCount + 1) % 2 = 1
    · rw [if_pos c18]
      right; right; left
      exact ⟨by simp [c17, c18], rfl, c6, c17.2⟩
    · rw [if_neg c18]
      left
      exact ⟨by simp [c18], rfl⟩
  · rw [if_neg c17]
    left
    refine ⟨?_, rfl⟩
    rw [Bool.eq_false_iff]; intro h; simp only [Bool.and_eq_true] at h; apply c17; simp [h]

/-- A letter, a number or a space is not a character of the middle of a word. -/
def NotMid (x : WSet) : Prop :=
  x.alnum true = true → x.midLetter = false ∧ x.midNum = false ∧ x .SingleQuote = false ∧ x .DoubleQuote = false

/-- After a jump the character that was found is joined. -/
theorem second {data : Bytes} {s : State} {v w : Nat} (hb : OkSet (pset v)) (hmid : NotMid (pset v))
    (hm : (pset s.current).ignorable = false) (hmn : (pset s.current).newline = false)
    (hv : (pset v).ignorable = false)
    (h : LooksAhead true (pset s.lastExIgnore) (pset s.current) (fun P => P (pset v))) :
    rules data true s (nextW _Ignore s v w) = .cont (nextW _Ignore s v w) := by
  have hvn := h.not_newline hb
  have hi := hm
  rw [← is_ignore] at hi
  have h1 : (nextW _Ignore s v w).lastExIgnore = s.current := by simp [nextW, hi]
  have h2 : (nextW _Ignore s v w).lastLastExIgnore = s.lastExIgnore := by simp [nextW, hi]
  have hcur : (nextW _Ignore s v w).current = v := rfl
  generalize hN : nextW _Ignore s v w = next at *
  subst hcur
  have hal : (pset next.current).alnum true = true := by
    rcases h with ⟨_, _, h⟩ | ⟨_, _, h⟩ | ⟨_, _, h⟩
    · simp [WSet.alnum] at h ⊢; simp [h]
    · simp [WSet.alnum, WSet.ahLetter] at h ⊢; simp [h]
    · simp [WSet.alnum] at h ⊢; simp [h]
  obtain ⟨m1, m2, m3, m4⟩ := hmid hal
  have m3 : is next.current _SingleQuote = false := m3
  have m4 : is next.current _DoubleQuote = false := m4
  unfold rules
  dsimp only
  rw [h1]
  have c0 : ¬ next.current ||| s.current = 0 := by
    intro h
    rw [(Nat.or_eq_zero_iff.mp h).1, pset_zero] at hal
    simp [WSet.alnum, WSet.ahLetter] at hal
  rw [if_neg c0]
  by_cases c3 : (is next.current _LF && is s.current _CR) = true
  · rw [if_pos c3]
  rw [if_neg c3, is_newline, hmn, hvn, Bool.false_or, if_neg (by simp)]
  by_cases c5 : (is next.current _ExtendedPictographic && is s.current _ZWJ) = true
  · rw [if_pos c5]
  rw [if_neg c5]
  by_cases c2 : is (next.current &&& s.current) _WSegSpace = true
  · rw [if_pos c2]
  rw [if_neg c2, is_ext, hv, if_neg (by simp)]
  by_cases c6 : (is next.current _AHLetter && is s.current _AHLetter) = true
  · rw [if_pos c6]
  rw [if_neg c6, is_midLetter, m1, Bool.false_and, if_neg (by simp)]
  unfold stepRest1
  dsimp only
  rw [h1, h2, m3, m4, Bool.false_and]
  by_cases c7 : (is next.current _AHLetter && is s.current (_MidLetter ||| _MidNumLetQ) && is s.lastExIgnore _AHLetter) = true
  · rw [if_pos c7]
  rw [if_neg c7, if_neg (by simp), if_neg (by simp)]
  unfold stepRest2
  dsimp only
  rw [h1, h2]
  by_cases c8 : (is next.current _HebrewLetter && is s.current _DoubleQuote && is s.lastExIgnore _HebrewLetter) = true
  · rw [if_pos c8]
  rw [if_neg c8]
  by_cases c1 : (is next.current (_Numeric ||| _AHLetter ||| _WSegSpace)
      && is s.current (_Numeric ||| _AHLetter ||| _WSegSpace)) = true
  · rw [if_pos c1]
  rw [if_neg c1]
  have c9 : (is next.current _Numeric && is s.current (_MidNum ||| _MidNumLetQ) && is s.lastExIgnore _Numeric) = true := by
    rcases h with ⟨h3, h4, h5⟩ | ⟨h3, h4, h5⟩ | ⟨h3, h4, h5⟩
    · exfalso; apply c7; rw [is_ah, is_ah, is_midLetter, h3, h4]; simpa using h5
    · exfalso; apply c8
      have h3 : is s.lastExIgnore _HebrewLetter = true := h3
      have h4 : is s.current _DoubleQuote = true := h4
      have h5 : is next.current _HebrewLetter = true := h5
      rw [h3, h4, h5]; rfl
    · have h3 : is s.lastExIgnore _Numeric = true := h3
      have h5 : is next.current _Numeric = true := h5
      rw [is_midNum, h3, h4, h5]; rfl
  rw [if_pos c9]

/-! ## what is in the table -/

/-- All combinations of properties in the table. -/
def okValue (v : Nat) : Bool :=
  [0, 512, 8192, 2, 131072, 4, 65536, 2048, 4096, 16384, 1024, 1, 16, 32, 64, 8, 128, 262144, 33, 256,
    32768].contains v

theorem okValue_of {v : Nat} (h : trie.IsValue v) : okValue v = true :=
  Trie.IsValue.of_all (p := okValue) (by decide +kernel) h

theorem okValue.all {P : Nat → Prop} [DecidablePred P] (h : ∀ v ∈ [0, 512, 8192, 2, 131072, 4, 65536, 2048, 4096,
      16384, 1024, 1, 16, 32, 64, 8, 128, 262144, 33, 256, 32768], P v) {v : Nat}
    (hv : okValue v = true) : P v := h v (List.contains_iff_mem.mp hv)

/-- The facts about the entries that the rules depend on. -/
def goodCell (w : Nat) : Bool :=
  (!(pset w).ignorable || !(pset w).newline)
  && (!((pset w).ahLetter true || pset w .Numeric) || !(pset w).newline)
  && (!(pset w .RegionalIndicator) || !(pset w).newline)
  && (!(pset w .WSegSpace) || !(pset w).newline)
  && (!(pset w .RegionalIndicator) || Words.allWB.all fun g => g == .RegionalIndicator || g == .MidNumLet || !(pset w g))

theorem OkSet.of_goodCell {w : Nat} (h : goodCell w = true) : OkSet (pset w) := by
  simp only [goodCell, Bool.and_eq_true] at h
  obtain ⟨⟨⟨⟨h1, h2⟩, h3⟩, h4⟩, _⟩ := h
  refine ⟨?_, ?_, ?_, ?_⟩
  · intro h; simpa [h] using h1
  · intro h; rw [h] at h2; simpa using h2
  · intro h; simpa [h] using h3
  · intro h; simpa [h] using h4

theorem RiOnly.of_goodCell {w : Nat} (h : goodCell w = true) : RiOnly (pset w) := by
  simp only [goodCell, Bool.and_eq_true] at h
  intro hr g h1 h2
  have h5 := h.2
  simp only [hr, Bool.not_true, Bool.false_or, List.all_eq_true] at h5
  have := h5 g (Words.mem_allWB g)
  simpa [h1, h2] using this

theorem value_good {v : Nat} (h : trie.IsValue v) : goodCell v = true :=
  okValue.all (P := fun v => goodCell v = true) (by decide +kernel) (okValue_of h)

theorem value_notMid {v : Nat} (h : trie.IsValue v) : NotMid (pset v) :=
  okValue.all (P := fun v => (pset v).alnum true = true → (pset v).midLetter = false ∧ (pset v).midNum = false
    ∧ pset v .SingleQuote = false ∧ pset v .DoubleQuote = false) (by decide +kernel) (okValue_of h)

theorem value_blank {v : Nat} (h : trie.IsValue v) : Blank (pset v) := by
  have := okValue.all (P := fun v => (pset v).ignorable = true →
      ∀ g ∈ Words.allWB, g ≠ .Extend → g ≠ .Format → g ≠ .ZWJ → pset v g = false) (by decide +kernel) (okValue_of h)
  exact fun hi g => this hi g (Words.mem_allWB g)

/-! ## the loop -/

theorem step_eq {data : Bytes} {s : State} {v : Nat} {bs : Bytes} (hp : s.pos < data.length) (hne : bs ≠ [])
    (hl : trie.lookupAt data s.pos = .ok (v, bs.length)) :
    step data true s = rules data true s (nextW _Ignore s v bs.length) := by
  have hw : bs.length ≠ 0 := by simpa using hne
  unfold step
  rw [if_neg (by omega)]
  simp only [hl, if_neg hw]
  rfl

/-- The rule on the entries. -/
def J (l r : List Nat) : Bool := joins true (l.map pset) (r.map pset)

/-- The split function follows the rules. -/
theorem follows : Follows trie Prod.fst Prod.fst (fun _ => J) (splitAdv splitFunc) := by
  apply Follows.of_loop (J := fun _ => J)
  · intro d v hd hl
    have : ¬ d.length = 0 := by simpa using hd
    simp only [splitFunc, if_neg this, hl]
    simp
  · intro bs d' v l t hne hl hval hdec
    have h1 : ¬ (bs ++ d').length = 0 := by
      simp; intro h; exact absurd h hne
    have h2 : ¬ bs.length = 0 := by simpa using hne
    simp only [splitFunc, if_neg h1, hl, if_neg h2]
    have hlen := hdec.length_le
    have hpos := List.length_pos_iff.mpr hne
    have hpass := word_pass (ws := pset) (I := _Ignore) is_ignore pset_zero (T := trie) (ph := true)
      (data := bs ++ d') (t := t) (body := step (bs ++ d') true) (R := rules (bs ++ d') true)
      (cell := Prod.fst)
      (fun s v bs' d'' hp hd hne' hl' => step_eq hp hne' hl')
      (fun x hx => OkSet.of_goodCell (value_good hx))
      (Extra := NotMid) (fun _ hx => value_notMid hx)
      (fun x hx => RiOnly.of_goodCell (value_good hx))
      (fun _ => rfl)
      (by
        intro s left v' bs' d'' l' hctx hv' hdd hne' hle hdec'
        exact allowed (RiOnly.of_goodCell (value_good hv')) hle hdec')
      (fun s v w h1 h0 h2 h3 h4 h5 => second h1 h0 h2 h3 h4 h5)
    have := runLoop_grow (T := trie) (data := bs ++ d') (t := t) (body := step (bs ++ d') true)
      (pos := WordState.pos) (Ctx := WCtx pset _Ignore) (cell := Prod.fst) (J := J)
      (by intro s left _ hp; simp [step, hp])
      (by
        intro s left _ hp ⟨v, hv⟩
        unfold step
        rw [if_neg (by omega)]
        simp only [hv]
        simp)
      hpass
      l { pos := bs.length, current := v, lastExIgnore := 0,
          lastLastExIgnore := 0, regionalIndicatorCount := 0 } [v]
      (loopFuel (bs ++ d'))
      { cur := rfl
        ex := rfl
        exex := rfl
        nl := .inr (by simp)
        sot := by intro x hx; simp at hx; rw [← hx]; exact value_blank hval
        ok := by intro x hx; simp at hx; rw [hx]; exact OkSet.of_goodCell (value_good hval)
        ri := by
          intro h
          have hi : is v _Ignore = false := by
            cases hi : is v _Ignore
            · rfl
            · simp only [exOf, hi, if_true, pset_zero] at h
              cases h
          simp only [exOf, hi, Bool.false_eq_true, if_false] at h
          simp [units, h] }
      (by simp) (by simpa using hdec) (by simp [loopFuel]; omega)
    rw [this]

theorem restart : Restart trie.IsValue J := by
  intro A B C hA hB pA pB pC hj
  have ok : ∀ l : List Nat, (∀ x ∈ l, trie.IsValue x) → ∀ x ∈ l.map pset, OkSet x := by
    intro l h x hx
    obtain ⟨v, hv, rfl⟩ := List.mem_map.mp hx
    exact OkSet.of_goodCell (value_good (h v hv))
  have := joins_restart true (A.map pset) (B.map pset) (C.map pset) (by simpa using hA) (by simpa using hB)
    (ok A pA) (ok B pB) (ok C pC) (by simpa [J] using hj)
  simpa [J] using this

end Uax29.Phrases
