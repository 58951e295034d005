import Verif.Spec.WordClasses
import Verif.Proofs.WordRestart
import Verif.Proofs.Splits
import Verif.Proofs.Decode
/-! # words: the split function follows the word rules -/
namespace Uax29.Words
open Spec

theorem wset_zero : wset 0 = fun _ => false := by
  funext g; simp [wset, is_zero]

theorem is_ignore (v : Nat) : is v _Ignore = (wset v).ignorable := by
  simp [_Ignore, is_or, WSet.ignorable, wset, wbBit]

theorem is_ah (v : Nat) : is v _AHLetter = (wset v).ahLetter false := by
  simp [_AHLetter, is_or, WSet.ahLetter, wset, wbBit]

theorem is_alnum (v : Nat) : is v (_Numeric ||| _AHLetter) = (wset v).alnum false := by
  simp [is_or, WSet.alnum, is_ah, wset, wbBit, Bool.or_comm]

theorem is_midLetter (v : Nat) : is v (_MidLetter ||| _MidNumLetQ) = (wset v).midLetter := by
  simp [is_or, WSet.midLetter, WSet.midNumLetQ, _MidNumLetQ, wset, wbBit]

theorem is_midNum (v : Nat) : is v (_MidNum ||| _MidNumLetQ) = (wset v).midNum := by
  simp [is_or, WSet.midNum, WSet.midNumLetQ, _MidNumLetQ, wset, wbBit]

theorem is_newline (u v : Nat) : is (u ||| v) (_Newline ||| _CR ||| _LF) = ((wset u).newline || (wset v).newline) := by
  rw [or_is]
  simp [is_or, WSet.newline, wset, wbBit]

theorem is_ext (v : Nat) : is v (_Extend ||| _Format ||| _ZWJ) = (wset v).ignorable := is_ignore v

theorem is_13a (v : Nat) : is v (_AHLetter ||| _Numeric ||| _Katakana ||| _ExtendNumLet)
    = ((wset v).ahLetter false || wset v .Numeric || wset v .Katakana || wset v .ExtendNumLet) := by
  simp only [is_or, is_ah]; rfl

theorem is_13b (v : Nat) : is v (_AHLetter ||| _Numeric ||| _Katakana)
    = ((wset v).ahLetter false || wset v .Numeric || wset v .Katakana) := by
  simp only [is_or, is_ah]; rfl

theorem is_space (u v : Nat) : is (u &&& v) _WSegSpace = (wset u .WSegSpace && wset v .WSegSpace) :=
  and_is_pow u v 18

/-- `cell` agrees with the table entry on the classes that the code looks ahead for. -/
structure CellOk (cell : Nat × Bytes → Nat) : Prop where
  ign : ∀ x, is (cell x) _Ignore = is x.1 _Ignore
  ah : ∀ x, is (cell x) _AHLetter = is x.1 _AHLetter
  hebrew : ∀ x, is (cell x) _HebrewLetter = is x.1 _HebrewLetter
  numeric : ∀ x, is (cell x) _Numeric = is x.1 _Numeric

theorem foundIn_eq {cell : Nat × Bytes → Nat} (hI : ∀ x, is (cell x) _Ignore = is x.1 _Ignore) {props : Nat}
    {P : WSet → Bool} (hP : ∀ x, P (wset (cell x)) = is x.1 props) (l : List (Nat × Bytes)) :
    foundIn _Ignore props l = afterIs wset P (l.map cell) := by
  unfold afterIs foundIn
  rw [List.map_map, List.dropWhile_map]
  have : ((fun x : WSet => x.ignorable) ∘ (wset ∘ cell)) = fun x => is x.1 _Ignore := by
    funext x
    simp only [Function.comp_apply, ← is_ignore, hI]
  rw [this]
  cases l.dropWhile (fun x => is x.1 _Ignore) <;> simp [hP]

theorem lookAhead_eq {cell : Nat × Bytes → Nat} (hI : ∀ x, is (cell x) _Ignore = is x.1 _Ignore) {props : Nat}
    {P : WSet → Bool} (hP : ∀ x, P (wset (cell x)) = is x.1 props) {data t : Bytes} {l : List (Nat × Bytes)}
    {next : State} (hi : next.pos ≤ data.length) (h : Decodes trie (data.drop next.pos) l t)
    (o : Step State) :
    lookAhead props data true next o = if afterIs wset P (l.map cell) then
      .cont { next with pos := next.pos + (bytesOf (l.takeWhile fun x => is x.1 _Ignore)).length } else o := by
  unfold lookAhead
  rw [subsequentFrom_decodes _ _ hi h, foundIn_eq hI hP]
  cases afterIs wset P (l.map cell)
  · simp
  · have : ((bytesOf (l.takeWhile fun x => is x.1 _Ignore)).length : Int) ≠ notfound := by
      simp only [notfound]; omega
    simp [this]

theorem allowed {cell : Nat × Bytes → Nat} (hcell : CellOk cell) {data t : Bytes} {s : State} {v w : Nat}
    {l : List (Nat × Bytes)} (ha : OkSet (wset s.current)) (hb : OkSet (wset v)) (hr : RiOnly (wset v))
    (hi : s.pos + w ≤ data.length) (hdec : Decodes trie (data.drop (s.pos + w)) l t) :
    Allowed wset false s (nextW _Ignore s v w) (l.map cell)
      (bytesOf (l.takeWhile fun x => is x.1 _Ignore)).length (rules data true s (nextW _Ignore s v w)) := by
  have L1 := fun o => lookAhead_eq hcell.ign (P := (·.ahLetter false))
    (fun x => by rw [← is_ah, hcell.ah]) (next := nextW _Ignore s v w) hi hdec o
  have L2 := fun o => lookAhead_eq hcell.ign (P := (· .HebrewLetter))
    (fun x => hcell.hebrew x) (next := nextW _Ignore s v w) hi hdec o
  have L3 := fun o => lookAhead_eq hcell.ign (P := (· .Numeric))
    (fun x => hcell.numeric x) (next := nextW _Ignore s v w) hi hdec o
  have e1 : ∀ v, is v _LF = wset v .LF := fun _ => rfl
  have e2 : ∀ v, is v _CR = wset v .CR := fun _ => rfl
  have e3 : ∀ v, is v _ZWJ = wset v .ZWJ := fun _ => rfl
  have e4 : ∀ v, is v _ExtendedPictographic = wset v .ExtendedPictographic := fun _ => rfl
  have e5 : ∀ v, is v _SingleQuote = wset v .SingleQuote := fun _ => rfl
  have e6 : ∀ v, is v _HebrewLetter = wset v .HebrewLetter := fun _ => rfl
  have e7 : ∀ v, is v _DoubleQuote = wset v .DoubleQuote := fun _ => rfl
  have e8 : ∀ v, is v _Numeric = wset v .Numeric := fun _ => rfl
  have e9 : ∀ v, is v _Katakana = wset v .Katakana := fun _ => rfl
  have e10 : ∀ v, is v _ExtendNumLet = wset v .ExtendNumLet := fun _ => rfl
  have e11 : ∀ v, is v _RegionalIndicator = wset v .RegionalIndicator := fun _ => rfl
  -- a letter or a number is not after a newline
  have hpa : (wset (nextW _Ignore s v w).lastExIgnore).alnum false = true → (wset s.current).newline = false := by
    simp only [nextW, is_ignore]
    cases hc : (wset s.current).ignorable
    · simp only [Bool.not_false, if_true]
      intro h
      apply ha.letter
      simp only [WSet.alnum, WSet.ahLetter, Bool.false_and, Bool.or_false] at h ⊢
      rcases Bool.or_eq_true_iff.mp h with h | h <;> simp [h]
    · intro _; exact ha.ign hc
  have hcur : (nextW _Ignore s v w).current = v := rfl
  generalize hN : nextW _Ignore s v w = next at *
  subst hcur
  unfold rules
  dsimp only
  rw [L1]
  unfold stepRest1
  dsimp only
  rw [L2]
  unfold stepRest2
  dsimp only
  rw [L3]
  unfold stepRest3
  dsimp only
  simp only [is_alnum, is_space, is_ext, is_newline, is_midLetter, is_midNum, is_13a, is_13b, is_ah, e1, e2, e3, e4,
    e5, e6, e7, e8, e9, e10, e11]
  unfold Allowed
  dsimp only
  generalize wset s.current = a at *
  generalize wset next.current = b at *
  generalize wset next.lastExIgnore = p at *
  generalize wset next.lastLastExIgnore = q at *
  generalize hA : afterIs wset (fun x => x.ahLetter false) (l.map cell) = fA
  generalize hH : afterIs wset (fun x => x .HebrewLetter) (l.map cell) = fH
  generalize hN : afterIs wset (fun x => x .Numeric) (l.map cell) = fN
  -- what joins is not a regional indicator
  have notRI : ∀ g, g ≠ .RegionalIndicator → g ≠ .MidNumLet → b g = true → b .RegionalIndicator = false := by
    intro g h1 h2 h3
    rw [Bool.eq_false_iff]; intro h
    rw [hr h g h1 h2] at h3; cases h3
  have cont : ∀ {J : Bool} {X : Prop}, J = true → b .RegionalIndicator = false →
      (J = false ∧ Step.cont next = .brk s.pos) ∨
      (J = true ∧ Step.cont next = .cont next ∧ (b.ignorable = true ∧ a.newline = false ∨ b .RegionalIndicator = false))
      ∨ X := fun h1 h2 => .inr (.inl ⟨h1, rfl, .inr h2⟩)
  by_cases c1 : (b.alnum false && p.alnum false) = true
  · rw [if_pos c1]
    simp only [Bool.and_eq_true] at c1
    have hbn : b.newline = false := by
      apply hb.letter
      have h := c1.1
      simp only [WSet.alnum, WSet.ahLetter, Bool.false_and, Bool.or_false] at h ⊢
      rcases Bool.or_eq_true_iff.mp h with h | h <;> simp [h]
    refine cont (wordRule_of (hpa c1.2) hbn (by simp [unitRule, c1])) ?_
    have h := c1.1
    simp only [WSet.alnum, WSet.ahLetter, Bool.false_and, Bool.or_false, Bool.or_eq_true] at h
    rcases h with (h | h) | h
    · exact notRI _ (by decide) (by decide) h
    · exact notRI _ (by decide) (by decide) h
    · exact notRI _ (by decide) (by decide) h
  rw [if_neg c1]
  by_cases c2 : (b .WSegSpace && a .WSegSpace) = true
  · rw [if_pos c2]
    simp only [Bool.and_eq_true] at c2
    exact cont (wordRule_of (ha.space c2.2) (hb.space c2.1) (by simp [c2])) (notRI _ (by decide) (by decide) c2.1)
  rw [if_neg c2]
  by_cases c3 : (b .LF && a .CR) = true
  · rw [if_pos c3]
    simp only [Bool.and_eq_true] at c3
    exact cont (by simp [wordRule, c3]) (notRI _ (by decide) (by decide) c3.1)
  rw [if_neg c3]
  have d3 : ¬ (a .CR && b .LF) = true := by rw [Bool.and_comm]; exact c3
  by_cases c4 : (a.newline || b.newline) = true
  · rw [if_pos c4]
    left
    refine ⟨?_, rfl⟩
    unfold wordRule
    rw [if_neg d3, if_pos c4]
  rw [if_neg c4]
  have hn : a.newline = false ∧ b.newline = false := by simpa using c4
  by_cases c5 : (b .ExtendedPictographic && a .ZWJ) = true
  · rw [if_pos c5]
    simp only [Bool.and_eq_true] at c5
    exact cont (wordRule_of hn.1 hn.2 (by simp [c5])) (notRI _ (by decide) (by decide) c5.1)
  rw [if_neg c5]
  by_cases c6 : b.ignorable = true
  · rw [if_pos c6]
    right; left
    exact ⟨wordRule_of hn.1 hn.2 (by simp [c6]), rfl, .inl ⟨c6, hn.1⟩⟩
  rw [if_neg c6]
  have c6 : b.ignorable = false := by simpa using c6
  rw [wordRule_not (by simpa using d3) (by rw [Bool.and_comm]; simpa using c5)
    (by rw [Bool.and_comm]; simpa using c2) c6 (by simpa using c4)]
  have f1 : (p.alnum false && b.alnum false) = false := by rw [Bool.and_comm]; simpa using c1
  have jump : LooksAhead false p b (fun x => afterIs wset x (l.map cell)) → ∀ {X Y Z : Prop}, X ∨ Y ∨ Z ∨
      (Step.cont { next with pos := next.pos + (bytesOf (l.takeWhile fun x => is x.1 _Ignore)).length }
        = Step.cont { next with pos := next.pos + (bytesOf (l.takeWhile fun x => is x.1 _Ignore)).length }
        ∧ b.ignorable = false ∧ a.newline = false ∧ b.newline = false
        ∧ LooksAhead false p b (fun x => afterIs wset x (l.map cell))) :=
    fun h => fun {_ _ _} => .inr (.inr (.inr ⟨rfl, c6, hn.1, hn.2, h⟩))
  -- WB6
  by_cases c7 : (b.midLetter && p.ahLetter false && fA) = true
  · simp only [Bool.and_eq_true] at c7
    rw [if_pos (by simp [c7]), if_pos c7.2]
    apply jump
    left; exact ⟨c7.1.2, c7.1.1, hA.trans c7.2⟩
  have f7 : (p.ahLetter false && b.midLetter && fA) = false := by
    rw [Bool.and_comm (p.ahLetter false)]; simpa using c7
  have r7 : ∀ (X Y : Step State), (if (b.midLetter && p.ahLetter false) = true then (if fA = true then X else Y) else Y)
      = Y := by
    intro X Y
    split
    · rename_i h
      rw [if_neg]
      intro h'
      apply c7; rw [h, h']; rfl
    · rfl
  rw [r7]
  -- WB7
  by_cases c8 : (b.ahLetter false && p.midLetter && q.ahLetter false) = true
  · rw [if_pos c8]
    simp only [Bool.and_eq_true] at c8
    refine cont (by simp [unitRule, c8]) ?_
    have h := c8.1.1
    simp only [WSet.ahLetter, Bool.false_and, Bool.or_false, Bool.or_eq_true] at h
    rcases h with h | h
    · exact notRI _ (by decide) (by decide) h
    · exact notRI _ (by decide) (by decide) h
  rw [if_neg c8]
  have f8 : (q.ahLetter false && p.midLetter && b.ahLetter false) = false := by
    rw [Bool.eq_false_iff]; intro h; simp only [Bool.and_eq_true] at h; apply c8; simp [h]
  -- WB7a
  by_cases c9 : (b .SingleQuote && p .HebrewLetter) = true
  · rw [if_pos c9]
    simp only [Bool.and_eq_true] at c9
    exact cont (by simp [unitRule, c9]) (notRI _ (by decide) (by decide) c9.1)
  rw [if_neg c9]
  have f9 : (p .HebrewLetter && b .SingleQuote) = false := by rw [Bool.and_comm]; simpa using c9
  -- WB7b
  by_cases c10 : (b .DoubleQuote && p .HebrewLetter && fH) = true
  · simp only [Bool.and_eq_true] at c10
    rw [if_pos (by simp [c10]), if_pos c10.2]
    apply jump
    right; left; exact ⟨c10.1.2, c10.1.1, hH.trans c10.2⟩
  have f10 : (p .HebrewLetter && b .DoubleQuote && fH) = false := by
    rw [Bool.and_comm (p .HebrewLetter)]; simpa using c10
  have r10 : ∀ (X Y : Step State), (if (b .DoubleQuote && p .HebrewLetter) = true then (if fH = true then X else Y) else Y)
      = Y := by
    intro X Y
    split
    · rename_i h
      rw [if_neg]
      intro h'
      apply c10; rw [h, h']; rfl
    · rfl
  rw [r10]
  -- WB7c
  by_cases c11 : (b .HebrewLetter && p .DoubleQuote && q .HebrewLetter) = true
  · rw [if_pos c11]
    simp only [Bool.and_eq_true] at c11
    exact cont (by simp [unitRule, c11]) (notRI _ (by decide) (by decide) c11.1.1)
  rw [if_neg c11]
  have f11 : (q .HebrewLetter && p .DoubleQuote && b .HebrewLetter) = false := by
    rw [Bool.eq_false_iff]; intro h; simp only [Bool.and_eq_true] at h; apply c11; simp [h]
  -- WB11
  by_cases c12 : (b .Numeric && p.midNum && q .Numeric) = true
  · rw [if_pos c12]
    simp only [Bool.and_eq_true] at c12
    exact cont (by simp [unitRule, c12]) (notRI _ (by decide) (by decide) c12.1.1)
  rw [if_neg c12]
  have f12 : (q .Numeric && p.midNum && b .Numeric) = false := by
    rw [Bool.eq_false_iff]; intro h; simp only [Bool.and_eq_true] at h; apply c12; simp [h]
  -- WB12
  by_cases c13 : (b.midNum && p .Numeric && fN) = true
  · simp only [Bool.and_eq_true] at c13
    rw [if_pos (by simp [c13]), if_pos c13.2]
    apply jump
    right; right; exact ⟨c13.1.2, c13.1.1, hN.trans c13.2⟩
  have f13 : (p .Numeric && b.midNum && fN) = false := by
    rw [Bool.and_comm (p .Numeric)]; simpa using c13
  have r13 : ∀ (X Y : Step State), (if (b.midNum && p .Numeric) = true then (if fN = true then X else Y) else Y)
      = Y := by
    intro X Y
    split
    · rename_i h
      rw [if_neg]
      intro h'
      apply c13; rw [h, h']; rfl
    · rfl
  rw [r13]
  -- WB13
  by_cases c14 : (b .Katakana && p .Katakana) = true
  · rw [if_pos c14]
    simp only [Bool.and_eq_true] at c14
    exact cont (by simp [unitRule, c14]) (notRI _ (by decide) (by decide) c14.1)
  rw [if_neg c14]
  have f14 : (p .Katakana && b .Katakana) = false := by rw [Bool.and_comm]; simpa using c14
  -- WB13a
  by_cases c15 : (b .ExtendNumLet && (p.ahLetter false || p .Numeric || p .Katakana || p .ExtendNumLet)) = true
  · rw [if_pos c15]
    simp only [Bool.and_eq_true] at c15
    exact cont (by simp only [unitRule, c15.1, c15.2]; simp) (notRI _ (by decide) (by decide) c15.1)
  rw [if_neg c15]
  have f15 : ((p.ahLetter false || p .Numeric || p .Katakana || p .ExtendNumLet) && b .ExtendNumLet) = false := by
    rw [Bool.and_comm]; simpa only [Bool.not_eq_true] using c15
  -- WB13b
  by_cases c16 : ((b.ahLetter false || b .Numeric || b .Katakana) && p .ExtendNumLet) = true
  · rw [if_pos c16]
    simp only [Bool.and_eq_true] at c16
    refine cont (by simp only [unitRule, c16.1, c16.2]; simp) ?_
    have h := c16.1
    simp only [WSet.ahLetter, Bool.false_and, Bool.or_false, Bool.or_eq_true] at h
    rcases h with ((h | h) | h) | h
    · exact notRI _ (by decide) (by decide) h
    · exact notRI _ (by decide) (by decide) h
    · exact notRI _ (by decide) (by decide) h
    · exact notRI _ (by decide) (by decide) h
  rw [if_neg c16]
  have f16 : (p .ExtendNumLet && (b.ahLetter false || b .Numeric || b .Katakana)) = false := by
    rw [Bool.and_comm]; simpa only [Bool.not_eq_true] using c16
  -- WB15, WB16
  have hrule : unitRule false p q b fA fH fN (decide ((s.regionalIndicatorCount + 1) % 2 = 1))
      = (p .RegionalIndicator && decide ((s.regionalIndicatorCount + 1) % 2 = 1) && b .RegionalIndicator) := by
    simp only [unitRule, f1, f7, f8, f9, f10, f11, f12, f13, f14, f15, f16, Bool.false_or]
  rw [hrule]
  by_cases c17 : (b .RegionalIndicator && p .RegionalIndicator) = true
  · rw [if_pos c17]
    simp only [Bool.and_eq_true] at c17
    by_cases c18 : (s.regionalIndicatorCount + 1) % 2 = 1
    · rw [if_pos c18]
      right; right; left
      exact ⟨by simp [c17, c18], rfl, c6, c17.2⟩
    · rw [if_neg c18]
      left
      exact ⟨by simp [c18], rfl⟩
  · rw [if_neg c17]
    left
    refine ⟨?_, rfl⟩
    rw [Bool.eq_false_iff]; intro h; simp only [Bool.and_eq_true] at h; apply c17; simp [h]

/-- After a jump the character that was found is joined. -/
theorem second {data : Bytes} {s : State} {v w : Nat} (hb : OkSet (wset v))
    (hm : (wset s.current).ignorable = false) (hmn : (wset s.current).newline = false)
    (hv : (wset v).ignorable = false)
    (h : LooksAhead false (wset s.lastExIgnore) (wset s.current) (fun P => P (wset v))) :
    rules data true s (nextW _Ignore s v w) = .cont (nextW _Ignore s v w) := by
  have hvn := h.not_newline hb
  have hi := hm
  rw [← is_ignore] at hi
  have h1 : (nextW _Ignore s v w).lastExIgnore = s.current := by simp [nextW, hi]
  have h2 : (nextW _Ignore s v w).lastLastExIgnore = s.lastExIgnore := by simp [nextW, hi]
  have hcur : (nextW _Ignore s v w).current = v := rfl
  generalize hN : nextW _Ignore s v w = next at *
  subst hcur
  have hal : (wset next.current).alnum false = true := by
    rcases h with ⟨_, _, h⟩ | ⟨_, _, h⟩ | ⟨_, _, h⟩
    · simp [WSet.alnum] at h ⊢; simp [h]
    · simp [WSet.alnum, WSet.ahLetter] at h ⊢; simp [h]
    · simp [WSet.alnum] at h ⊢; simp [h]
  unfold rules
  dsimp only
  rw [h1]
  rw [is_alnum, is_alnum, hal, Bool.true_and]
  by_cases c1 : (wset s.current).alnum false = true
  · rw [if_pos c1]
  rw [if_neg c1]
  have nA : is s.current _AHLetter = false := by
    rw [is_ah, Bool.eq_false_iff]; intro h; apply c1; simp [WSet.alnum, h]
  have nH : is s.current _HebrewLetter = false := by
    rw [Bool.eq_false_iff]; intro h
    have h : wset s.current .HebrewLetter = true := h
    apply c1; simp [WSet.alnum, WSet.ahLetter, h]
  have nN : is s.current _Numeric = false := by
    rw [Bool.eq_false_iff]; intro h
    have h : wset s.current .Numeric = true := h
    apply c1; simp [WSet.alnum, h]
  by_cases c2 : is (next.current &&& s.current) _WSegSpace = true
  · rw [if_pos c2]
  rw [if_neg c2]
  by_cases c3 : (is next.current _LF && is s.current _CR) = true
  · rw [if_pos c3]
  rw [if_neg c3, is_newline, hmn, hvn, Bool.false_or, if_neg (by simp)]
  by_cases c5 : (is next.current _ExtendedPictographic && is s.current _ZWJ) = true
  · rw [if_pos c5]
  rw [if_neg c5, is_ext, hv, if_neg (by simp), nA, Bool.and_false, if_neg (by simp)]
  unfold stepRest1
  dsimp only
  rw [h1, h2, nH]
  by_cases c7 : (is next.current _AHLetter && is s.current (_MidLetter ||| _MidNumLetQ) && is s.lastExIgnore _AHLetter) = true
  · rw [if_pos c7]
  rw [if_neg c7, Bool.and_false, if_neg (by simp), Bool.and_false, if_neg (by simp)]
  unfold stepRest2
  dsimp only
  rw [h1, h2]
  by_cases c8 : (is next.current _HebrewLetter && is s.current _DoubleQuote && is s.lastExIgnore _HebrewLetter) = true
  · rw [if_pos c8]
  rw [if_neg c8]
  have c9 : (is next.current _Numeric && is s.current (_MidNum ||| _MidNumLetQ) && is s.lastExIgnore _Numeric) = true := by
    rcases h with ⟨h3, h4, h5⟩ | ⟨h3, h4, h5⟩ | ⟨h3, h4, h5⟩
    · exfalso; apply c7; rw [is_ah, is_ah, is_midLetter, h3, h4]; simpa using h5
    · exfalso; apply c8
      have h3 : is s.lastExIgnore _HebrewLetter = true := h3
      have h4 : is s.current _DoubleQuote = true := h4
      have h5 : is next.current _HebrewLetter = true := h5
      rw [h3, h4, h5]; rfl
    · have h3 : is s.lastExIgnore _Numeric = true := h3
      have h5 : is next.current _Numeric = true := h5
      rw [is_midNum, h3, h4, h5]; rfl
  rw [if_pos c9]

/-! ## what is in the table -/

/-- All combinations of properties in the table. -/
def okValue (v : Nat) : Bool :=
  [0, 1024, 16384, 4, 262144, 8, 131072, 4096, 8192, 32768, 2048, 1, 32, 64, 128, 16, 256, 524288, 65, 2, 3, 514, 18,
    65536].contains v

theorem okValue_of {v : Nat} (h : trie.IsValue v) : okValue v = true :=
  Trie.IsValue.of_all (p := okValue) (by decide +kernel) h

theorem okValue.all {P : Nat → Prop} [DecidablePred P] (h : ∀ v ∈ [0, 1024, 16384, 4, 262144, 8, 131072, 4096, 8192,
      32768, 2048, 1, 32, 64, 128, 16, 256, 524288, 65, 2, 3, 514, 18, 65536], P v) {v : Nat}
    (hv : okValue v = true) : P v := h v (List.contains_iff_mem.mp hv)

def allWB : List WB := [.CR, .LF, .Newline, .Extend, .ZWJ, .Format, .RegionalIndicator, .Katakana, .HebrewLetter,
  .ALetter, .SingleQuote, .DoubleQuote, .MidNumLet, .MidLetter, .MidNum, .Numeric, .ExtendNumLet, .WSegSpace,
  .ExtendedPictographic]

theorem mem_allWB (g : WB) : g ∈ allWB := by cases g <;> decide

/-- The facts about the entries that the rules depend on; `w` is an entry, perhaps with bits added. -/
def goodCell (w : Nat) : Bool :=
  (!(wset w).ignorable || !(wset w).newline)
  && (!((wset w).ahLetter true || wset w .Numeric) || !(wset w).newline)
  && (!(wset w .RegionalIndicator) || !(wset w).newline)
  && (!(wset w .WSegSpace) || !(wset w).newline)
  && (!(wset w .RegionalIndicator) || allWB.all fun g => g == .RegionalIndicator || g == .MidNumLet || !(wset w g))

theorem OkSet.of_goodCell {w : Nat} (h : goodCell w = true) : OkSet (wset w) := by
  simp only [goodCell, Bool.and_eq_true] at h
  obtain ⟨⟨⟨⟨h1, h2⟩, h3⟩, h4⟩, _⟩ := h
  refine ⟨?_, ?_, ?_, ?_⟩
  · intro h; simpa [h] using h1
  · intro h; rw [h] at h2; simpa using h2
  · intro h; simpa [h] using h3
  · intro h; simpa [h] using h4

theorem RiOnly.of_goodCell {w : Nat} (h : goodCell w = true) : RiOnly (wset w) := by
  simp only [goodCell, Bool.and_eq_true] at h
  intro hr g h1 h2
  have h5 := h.2
  simp only [hr, Bool.not_true, Bool.false_or, List.all_eq_true] at h5
  have := h5 g (mem_allWB g)
  simpa [h1, h2] using this

/-! ## the loop -/

/-- The entry of a chunk, with the bits that a list of joiners adds. -/
def joinCell (runes : Option (List Int)) (bits : Nat) (x : Nat × Bytes) : Nat :=
  match runes with
  | none => x.1
  | some rs => if runesContain rs (Utf8.decodeRune x.2).1 then x.1 ||| bits else x.1

theorem applyJoiner_chunk {runes : Option (List Int)} {bits : Nat} {data : Bytes} {pos v : Nat} {bs d' : Bytes}
    (hp : pos ≤ data.length) (hd : data.drop pos = bs ++ d') (hne : bs ≠ [])
    (hl : trie.lookupAt data pos = .ok (v, bs.length)) :
    applyJoiner runes bits data pos v = .ok (joinCell runes bits (v, bs)) := by
  unfold applyJoiner joinCell
  cases runes with
  | none => rfl
  | some rs =>
    rw [lookupAt_eq hp, hd] at hl
    have := Trie.decodeRune_chunk hl hne
    simp only [runeAt, sliceFrom_ok hp, hd, this]

theorem step_eq {middle : Option (List Int)} {data : Bytes} {s : State} {v : Nat} {bs d' : Bytes}
    (hp : s.pos < data.length) (hd : data.drop s.pos = bs ++ d') (hne : bs ≠ [])
    (hl : trie.lookupAt data s.pos = .ok (v, bs.length)) :
    step middle data true s
      = rules data true s (nextW _Ignore s (joinCell middle _MidNumLet (v, bs)) bs.length) := by
  have hw : bs.length ≠ 0 := by simpa using hne
  unfold step
  rw [if_neg (by omega)]
  simp only [hl, if_neg hw, applyJoiner_chunk (Nat.le_of_lt hp) hd hne hl]
  rfl

theorem joinCell_cases (runes : Option (List Int)) (bits : Nat) (x : Nat × Bytes) :
    joinCell runes bits x = x.1 ∨ joinCell runes bits x = x.1 ||| bits := by
  unfold joinCell
  split
  · exact .inl rfl
  · split
    · exact .inr rfl
    · exact .inl rfl

theorem middle_good {middle : Option (List Int)} {x : Nat × Bytes} (h : trie.IsValue x.1) :
    goodCell (joinCell middle _MidNumLet x) = true := by
  have := okValue.all (P := fun v => goodCell v = true ∧ goodCell (v ||| _MidNumLet) = true) (by decide +kernel)
    (okValue_of h)
  rcases joinCell_cases middle _MidNumLet x with h | h <;> rw [h]
  · exact this.1
  · exact this.2

theorem middle_cellOk (middle : Option (List Int)) : CellOk (joinCell middle _MidNumLet) := by
  have h : ∀ {p : Nat}, is _MidNumLet p = false → ∀ x, is (joinCell middle _MidNumLet x) p = is x.1 p := by
    intro p hp x
    rcases joinCell_cases middle _MidNumLet x with h | h <;> rw [h]
    rw [or_is, hp, Bool.or_false]
  exact ⟨h (by decide), h (by decide), h (by decide), h (by decide)⟩

/-- The rule on the entries. -/
def J (l r : List Nat) : Bool := joins false (l.map wset) (r.map wset)

/-- The loop follows the rules after a first entry that is not both a newline or ignored and something
else. -/
theorem loop_grow (mid : Option (List Int)) {bs d' t : Bytes} {l : List (Nat × Bytes)} {c0 : Nat} (hne : bs ≠ [])
    (hdec : Decodes trie d' l t) (hok0 : OkSet (wset c0)) (hbl0 : Blank (wset c0)) :
    runLoop (step mid (bs ++ d') true) (loopFuel (bs ++ d')) ⟨bs.length, c0, 0, 0, 0⟩
      = .brk (bs.length + (bytesOf (l.take (grow J [c0] (l.map (joinCell mid _MidNumLet))))).length
        + if grow J [c0] (l.map (joinCell mid _MidNumLet)) = l.length then t.length else 0) := by
  have hlen := hdec.length_le
  have hpos := List.length_pos_iff.mpr hne
  have hpass := word_pass (ws := wset) (I := _Ignore) is_ignore wset_zero (T := trie) (ph := false)
    (data := bs ++ d') (t := t) (body := step mid (bs ++ d') true) (R := rules (bs ++ d') true)
    (cell := joinCell mid _MidNumLet)
    (fun s v bs' d'' hp hd hne' hl' => step_eq hp hd hne' hl')
    (fun x hx => OkSet.of_goodCell (middle_good hx))
    (Extra := fun _ => True) (fun _ _ => trivial)
    (fun x hx => RiOnly.of_goodCell (middle_good hx))
    (middle_cellOk _).ign
    (by
      intro s left v' bs' d'' l' hctx hv' hdd hne' hle hdec'
      have hcur : s.current ∈ left := by
        have := hctx.cur
        cases left with
        | nil => simp at this
        | cons a l => simp at this; rw [this]; exact List.mem_cons_self
      exact allowed (middle_cellOk _) (hctx.ok _ hcur) (OkSet.of_goodCell (middle_good (x := (v', bs')) hv'))
        (RiOnly.of_goodCell (middle_good (x := (v', bs')) hv')) hle hdec')
    (fun s v w h1 _ h2 h3 h4 h5 => second h1 h2 h3 h4 h5)
  have := runLoop_grow (T := trie) (data := bs ++ d') (t := t) (body := step mid (bs ++ d') true)
    (pos := WordState.pos) (Ctx := WCtx wset _Ignore) (cell := joinCell mid _MidNumLet) (J := J)
    (by intro s left _ hp; simp [step, hp])
    (by
      intro s left _ hp ⟨v, hv⟩
      unfold step
      rw [if_neg (by omega)]
      simp only [hv]
      simp)
    hpass
    l { pos := bs.length, current := c0, lastExIgnore := 0,
        lastLastExIgnore := 0, regionalIndicatorCount := 0 } [c0]
    (loopFuel (bs ++ d'))
    { cur := rfl
      ex := rfl
      exex := rfl
      nl := .inr (by simp)
      sot := by intro x hx; simp at hx; rw [← hx]; exact hbl0
      ok := by intro x hx; simp at hx; rw [hx]; exact hok0
      ri := by
        intro h
        have hi : is (c0) _Ignore = false := by
          cases hi : is (c0) _Ignore
          · rfl
          · simp only [exOf, hi, if_true, wset_zero] at h
            cases h
        simp only [exOf, hi, Bool.false_eq_true, if_false] at h
        simp [units, h] }
    (by simp) (by simpa using hdec) (by simp [loopFuel]; omega)
  exact this

/-- The split function follows the rules, if what `Leading` adds does not change a newline or an
ignored character. -/
theorem follows_joiners_at (j : Option Joiners) : ∀ d l t, d ≠ [] → Decodes trie d l t →
    (∀ x, l.head? = some x → OkSet (wset (joinCell (j.bind (·.leading)) _AHLetter x))
      ∧ Blank (wset (joinCell (j.bind (·.leading)) _AHLetter x))) →
    splitAdv (joinersSplitFunc j) d = ((l.take (firstChunks (joinCell (j.bind (·.leading)) _AHLetter)
        (joinCell (j.bind (·.middle)) _MidNumLet) J l)).flatMap (·.2)).length
      + if firstChunks (joinCell (j.bind (·.leading)) _AHLetter) (joinCell (j.bind (·.middle)) _MidNumLet) J l
          = l.length then t.length else 0 := by
  apply Follows.of_loop_at (J := fun _ => J)
  · intro d v hd hl
    have : ¬ d.length = 0 := by simpa using hd
    simp only [joinersSplitFunc, if_neg this, hl]
    simp
  · intro bs d' v l t hne hl hval hQ hdec
    have h1 : ¬ (bs ++ d').length = 0 := by
      simp; intro h; exact absurd h hne
    have h2 : ¬ bs.length = 0 := by simpa using hne
    have hj := applyJoiner_chunk (runes := j.bind (·.leading)) (bits := _AHLetter) (data := bs ++ d') (pos := 0)
      (by simp) (by simp; rfl) hne hl
    simp only [joinersSplitFunc, if_neg h1, hl, if_neg h2, hj]
    rw [loop_grow _ hne hdec hQ.1 hQ.2]

theorem follows_joiners (j : Option Joiners)
    (hlead : ∀ x, trie.IsValue x.1 → OkSet (wset (joinCell (j.bind (·.leading)) _AHLetter x))
      ∧ Blank (wset (joinCell (j.bind (·.leading)) _AHLetter x))) :
    Follows trie (joinCell (j.bind (·.leading)) _AHLetter) (joinCell (j.bind (·.middle)) _MidNumLet) (fun _ => J)
      (splitAdv (joinersSplitFunc j)) := by
  intro d l t hne hdec
  exact follows_joiners_at j d l t hne hdec fun x hx =>
    hlead x (hdec.values x (List.mem_of_mem_head? hx)).1

theorem follows : Follows trie Prod.fst Prod.fst (fun _ => J) (splitAdv splitFunc) := by
  have := follows_joiners (some ⟨none, none⟩) (by
    intro x hx
    have := okValue.all (P := fun v => goodCell v = true ∧ ((wset v).ignorable = true →
        ∀ g ∈ allWB, g ≠ .Extend → g ≠ .Format → g ≠ .ZWJ → wset v g = false)) (by decide +kernel) (okValue_of hx)
    exact ⟨OkSet.of_goodCell this.1, fun h g => this.2 h g (mem_allWB g)⟩)
  exact this

theorem restart : Restart trie.IsValue J := by
  intro A B C hA hB pA pB pC hj
  have ok : ∀ l : List Nat, (∀ x ∈ l, trie.IsValue x) → ∀ x ∈ l.map wset, OkSet x := by
    intro l h x hx
    obtain ⟨v, hv, rfl⟩ := List.mem_map.mp hx
    exact OkSet.of_goodCell (okValue.all (P := fun v => goodCell v = true) (by decide +kernel) (okValue_of (h v hv)))
  have := joins_restart false (A.map wset) (B.map wset) (C.map wset) (by simpa using hA) (by simpa using hB)
    (ok A pA) (ok B pB) (ok C pC) (by simpa [J] using hj)
  simpa [J] using this

end Uax29.Words
