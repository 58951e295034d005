import Verif.Proofs.Conform
import Verif.Proofs.Lists
import Verif.Proofs.Contract
import Verif.Spec.GraphemeClasses
/-! # The loop of graphemes follows the rules of UAX #29 -/
namespace Uax29

namespace Graphemes
open Spec

/-- The rule of UAX #29 on table entries. -/
def J (left right : List Nat) : Bool := graphemeJoins (left.map gset) (right.map gset)

/-- What holds of every table entry. -/
def okValue (v : Nat) : Bool :=
  [2,256,1,0,8,36,2048,8192,16,68,128,32768,16384,4,65568,512,1024,4096].contains v

theorem okValue_of {v : Nat} (h : trie.IsValue v) : okValue v = true :=
  Trie.IsValue.of_all (p := okValue) (by decide +kernel) h

/-- A fact about single table entries. -/
theorem okValue.all {P : Nat → Prop} [DecidablePred P]
    (h : ∀ v ∈ [2,256,1,0,8,36,2048,8192,16,68,128,32768,16384,4,65568,512,1024,4096], P v) {v : Nat}
    (hv : okValue v = true) : P v := h v (by simpa [okValue] using hv)

/-- The nearest entry that is not `Extend`. -/
def base : List Nat → Nat
  | [] => 0
  | a :: l => if is a _Extend then base l else a

/-- The state of GB9c after `left`. -/
def incbOf : List Nat → Incb
  | [] => .none
  | a :: l =>
    if is a _InCBConsonant then .consonant
    else if is a _InCBLinker then if incbOf l = .none then .none else .linker
    else if is a _InCBExtend then incbOf l
    else .none

/-- The number of regional indicators just before. -/
def indicators (left : List Nat) : Nat := (left.takeWhile (is · _RegionalIndicator)).length

/-- The state `s` describes the entries `left` before it. -/
structure Ctx (s : State) (left : List Nat) : Prop where
  ok : ∀ x ∈ left, okValue x = true
  cur : left.head? = some s.current
  ex : s.lastExIgnore = base left.tail
  incb : updateIncb s.current s.incb = incbOf left
  ri : is s.current _RegionalIndicator = true → indicators left = s.regionalIndicatorCount + 1
  pre : is s.current _Prepend = true → s.regionalIndicatorCount = 0

theorem base_eq (left : List Nat) (P : Nat) (hP : is 0 P = false) :
    is (base left) P = (left.dropWhile (is · _Extend)).head?.any (is · P) := by
  induction left with
  | nil => simp [base, hP]
  | cons a l ih =>
    simp only [base, List.dropWhile_cons]
    split
    · simp [ih]
    · simp

theorem incbOf_linker (left : List Nat) (hok : ∀ x ∈ left, okValue x = true) :
    (decide (incbOf left = .linker) = conjunct (left.map gset)) ∧
    (decide (incbOf left = .none) = !(((left.map gset).drop
      (((left.map gset).takeWhile fun x => x .InCBExtend || x .InCBLinker).length)).head?.any (· .InCBConsonant))) := by
  induction left with
  | nil => simp [incbOf, conjunct]
  | cons a l ih =>
    have ih := ih fun x hx => hok x (List.mem_cons_of_mem _ hx)
    have ha := hok a (List.mem_cons_self)
    have h1 := okValue.all (P := fun v => is v _InCBConsonant = true →
      is v _InCBLinker = false ∧ is v _InCBExtend = false) (by decide +kernel) ha
    have h2 := okValue.all (P := fun v => is v _InCBLinker = true → is v _InCBExtend = false)
      (by decide +kernel) ha
    have e1 : gset a .InCBExtend = is a _InCBExtend := rfl
    have e2 : gset a .InCBLinker = is a _InCBLinker := rfl
    have e3 : gset a .InCBConsonant = is a _InCBConsonant := rfl
    simp only [incbOf, conjunct, List.map_cons, List.takeWhile_cons, e1, e2] at ih ⊢
    by_cases c1 : is a _InCBConsonant = true
    · obtain ⟨c2, c3⟩ := h1 c1
      simp [c1, c2, c3, e3]
    · by_cases c2 : is a _InCBLinker = true
      · have c3 := h2 c2
        have := ih.2
        simp only [Bool.not_eq_true] at c1
        simp only [c1, c2, c3, Bool.false_eq_true, if_false, if_true, Bool.or_true, List.length_cons,
          List.drop_succ_cons, List.any_cons, e2, Bool.true_or, Bool.true_and]
        by_cases hn : incbOf l = .none
        · simp [hn] at this ⊢
          simp [this]
        · simp [hn] at this ⊢
          simp [this]
      · by_cases c3 : is a _InCBExtend = true
        · simp only [Bool.not_eq_true] at c1 c2
          simp only [c1, c2, c3, Bool.false_eq_true, if_false, if_true, Bool.or_false, List.length_cons,
            List.drop_succ_cons, List.any_cons, e2, Bool.false_or]
          exact ih
        · simp only [Bool.not_eq_true] at c1 c2 c3
          simp [c1, c2, c3, e3]

theorem updateIncb_ok {v : Nat} {left : List Nat}
    (h : ¬ (is v _InCBConsonant = true ∧ incbOf left = .linker)) :
    updateIncb v (incbOf left) = incbOf (v :: left) := by
  simp only [updateIncb, incbOf, is_or]
  by_cases c1 : is v _InCBConsonant = true
  · have : incbOf left ≠ .linker := fun hl => h ⟨c1, hl⟩
    simp [c1, this]
  · by_cases c2 : is v _InCBLinker = true
    · cases hl : incbOf left <;> simp [c1, c2]
    · by_cases c3 : is v _InCBExtend = true
      · simp [c1, c2, c3]
      · simp [c1, c2, c3]

/-- The state before the rules are applied, with the rune at `s.pos` joined. -/
def nextOf (s : State) (v w : Nat) : State :=
  { pos := s.pos + w, current := v,
    lastExIgnore := if !is s.current _Ignore then s.current else s.lastExIgnore,
    lastLastExIgnore := if !is s.current _Ignore then s.lastExIgnore else s.lastLastExIgnore,
    regionalIndicatorCount := s.regionalIndicatorCount, incb := updateIncb s.current s.incb }

theorem Ctx.next {s : State} {left : List Nat} (h : Ctx s left) {v w : Nat} (hv : okValue v = true)
    {c : Nat} {i : Incb}
    (hi : updateIncb v i = incbOf (v :: left))
    (hri : is v _RegionalIndicator = true → indicators left = c)
    (hpre : is v _Prepend = true → c = 0) :
    Ctx { nextOf s v w with regionalIndicatorCount := c, incb := i } (v :: left) where
  ok := by
    intro x hx
    rcases List.mem_cons.mp hx with rfl | hx
    · exact hv
    · exact h.ok x hx
  cur := rfl
  ex := by
    obtain ⟨ok, cur, ex, _⟩ := h
    cases left with
    | nil => simp at cur
    | cons a l =>
      simp at cur
      subst cur
      simp only [nextOf, _Ignore, List.tail_cons, base, ex]
      cases is s.current _Extend <;> simp
  incb := hi
  ri := by
    intro hr
    simp only [indicators, nextOf] at hri hr ⊢
    rw [List.takeWhile_cons_of_pos (by simpa using hr), List.length_cons, hri hr]
  pre := hpre

theorem pass {s : State} {left : List Nat} (h : Ctx s left) {v : Nat} (w : Nat) (hv : okValue v = true)
    (r : List Nat) :
    (J left (v :: r) = true ∧ ∃ s', rules s (nextOf s v w) = .cont s' ∧ s'.pos = s.pos + w ∧ Ctx s' (v :: left))
    ∨ (J left (v :: r) = false ∧ rules s (nextOf s v w) = .brk s.pos) := by
  have hctx := h
  obtain ⟨ok, cur, ex, incb, ri, pre⟩ := h
  obtain ⟨a, l, rfl⟩ : ∃ a l, left = a :: l := by
    cases left with
    | nil => simp at cur
    | cons a l => exact ⟨a, l, rfl⟩
  simp at cur
  subst cur
  have ha := ok s.current List.mem_cons_self
  -- facts about single entries
  have fCons := okValue.all (P := fun v => is v _InCBConsonant = true → v = 16) (by decide +kernel) hv
  have fRI := okValue.all (P := fun v => is v _RegionalIndicator = true → v = 4096) (by decide +kernel) hv
  have fPre := okValue.all (P := fun v => is v _Prepend = true → v = 2048) (by decide +kernel) hv
  have aRI := okValue.all (P := fun v => is v _RegionalIndicator = true → v = 4096) (by decide +kernel) ha
  have aPre := okValue.all (P := fun v => is v _Prepend = true → v = 2048) (by decide +kernel) ha
  have aZ := okValue.all (P := fun v => is v _ZWJ = true → is v _Extend = false) (by decide +kernel) ha
  have aE := okValue.all (P := fun v => is v _ZWJ = true → is v _Prepend = false) (by decide +kernel) ha
  -- the left sides of the long rules
  have hconj := (incbOf_linker (s.current :: l) ok).1
  have hpict : pictographZwj ((s.current :: l).map gset)
      = (is s.current _ZWJ && is (nextOf s v w).lastLastExIgnore _ExtendedPictographic) := by
    simp only [pictographZwj, List.map_cons, List.head?_cons, Option.any_some, List.tail_cons]
    have : gset s.current .ZWJ = is s.current _ZWJ := rfl
    rw [this]
    cases hz : is s.current _ZWJ
    · rfl
    · have he := aZ hz
      simp only [nextOf, _Ignore, he, Bool.not_false, if_true, ex, List.tail_cons, Bool.true_and]
      rw [base_eq l _ (by decide), List.dropWhile_map, List.head?_map, Option.any_map]
      rfl
  have hodd : oddIndicators ((s.current :: l).map gset)
      = decide (indicators (s.current :: l) % 2 = 1) := by
    have : ((fun x : GSet => x .RegionalIndicator) ∘ gset) = (is · _RegionalIndicator) := rfl
    simp only [oddIndicators, indicators, List.takeWhile_map, List.length_map, this]
    rfl
  have eJ : J (s.current :: l) (v :: r) =
      if is s.current _CR && is v _LF then true
      else if (is s.current _Control || is s.current _CR || is s.current _LF)
        || (is v _Control || is v _CR || is v _LF) then false
      else
        (is s.current _L && (is v _L || is v _V || is v _LV || is v _LVT))
        || ((is s.current _LV || is s.current _V) && (is v _V || is v _T))
        || ((is s.current _LVT || is s.current _T) && is v _T)
        || (is v _Extend || is v _ZWJ)
        || is v _SpacingMark
        || is s.current _Prepend
        || (conjunct ((s.current :: l).map gset) && is v _InCBConsonant)
        || (pictographZwj ((s.current :: l).map gset) && is v _ExtendedPictographic)
        || (oddIndicators ((s.current :: l).map gset) && is v _RegionalIndicator) := rfl
  rw [← hconj, hpict, hodd] at eJ
  -- what a joined rune gives
  have go : ∀ {c : Nat} {i : Incb}, updateIncb v i = incbOf (v :: s.current :: l) →
      (is v _RegionalIndicator = true → indicators (s.current :: l) = c) →
      (is v _Prepend = true → c = 0) →
      ∃ s', Step.cont { nextOf s v w with regionalIndicatorCount := c, incb := i } = Step.cont s'
        ∧ s'.pos = s.pos + w ∧ Ctx s' (v :: s.current :: l) := by
    intro c i h1 h2 h3
    exact ⟨_, rfl, rfl, hctx.next hv h1 h2 h3⟩
  have goPlain : is v _InCBConsonant = false → is v _RegionalIndicator = false → is v _Prepend = false →
      ∃ s', Step.cont (nextOf s v w) = Step.cont s' ∧ s'.pos = s.pos + w ∧ Ctx s' (v :: s.current :: l) := by
    intro h1 h2 h3
    have := go (c := s.regionalIndicatorCount) (i := incbOf (s.current :: l))
      (updateIncb_ok (by simp [h1])) (by simp [h2]) (by simp [h3])
    rw [← incb] at this
    exact this
  have plain : ∀ {m : Nat}, is v m = true → is 16 m = false → is 4096 m = false → is 2048 m = false →
      ∃ s', Step.cont (nextOf s v w) = Step.cont s' ∧ s'.pos = s.pos + w ∧ Ctx s' (v :: s.current :: l) := by
    intro m hm h1 h2 h3
    apply goPlain
    · cases hh : is v _InCBConsonant
      · rfl
      · rw [fCons hh, h1] at hm; cases hm
    · cases hh : is v _RegionalIndicator
      · rfl
      · rw [fRI hh, h2] at hm; cases hm
    · cases hh : is v _Prepend
      · rfl
      · rw [fPre hh, h3] at hm; cases hm
  have hn1 : (nextOf s v w).current = v := rfl
  have hn2 : (nextOf s v w).incb = incbOf (s.current :: l) := incb
  unfold rules
  dsimp only
  rw [hn1, hn2, eJ]
  clear eJ hn1 hn2 hconj hpict hodd
  by_cases c0 : v ||| s.current = 0
  · right
    rw [Nat.or_eq_zero_iff] at c0
    simp [c0.1, c0.2, is_zero]
  rw [if_neg c0]
  by_cases c1 : (is v _LF && is s.current _CR) = true
  · left
    rw [if_pos c1]
    rw [Bool.and_comm] at c1
    rw [if_pos c1]
    rw [Bool.and_eq_true] at c1
    exact ⟨rfl, plain c1.2 (by decide) (by decide) (by decide)⟩
  rw [if_neg c1]
  rw [Bool.and_comm] at c1
  rw [if_neg c1]
  by_cases c2 : is (v ||| s.current) (_Control ||| _CR ||| _LF) = true
  · right
    rw [if_pos c2]
    rw [or_is, is_or, is_or, is_or, is_or, Bool.or_comm] at c2
    rw [if_pos c2]
    exact ⟨rfl, rfl⟩
  rw [if_neg c2]
  rw [or_is, is_or, is_or, is_or, is_or, Bool.or_comm] at c2
  rw [if_neg c2]
  clear c0 c1 c2
  simp only [is_or]
  by_cases c3 : (((is v _L || is v _V) || is v _LV) || is v _LVT) = true ∧ is s.current _L = true
  · left
    rw [if_pos (by simpa using c3)]
    refine ⟨by simp [c3.1, c3.2], plain (m := _L ||| _V ||| _LV ||| _LVT) ?_ (by decide) (by decide) (by decide)⟩
    simpa only [is_or] using c3.1
  rw [if_neg (by simpa using c3)]
  by_cases c4 : (is v _V || is v _T) = true ∧ (is s.current _LV || is s.current _V) = true
  · left
    rw [if_pos (by simpa using c4)]
    refine ⟨by simp [c4.1, c4.2], plain (m := _V ||| _T) ?_ (by decide) (by decide) (by decide)⟩
    simpa only [is_or] using c4.1
  rw [if_neg (by simpa using c4)]
  by_cases c5 : is v _T = true ∧ (is s.current _LVT || is s.current _T) = true
  · left
    rw [if_pos (by simpa using c5)]
    exact ⟨by simp [c5.1, c5.2], plain c5.1 (by decide) (by decide) (by decide)⟩
  rw [if_neg (by simpa using c5)]
  by_cases c6 : (is v _Extend || is v _ZWJ) = true
  · left
    rw [if_pos (by simpa using c6)]
    refine ⟨by simp [c6], plain (m := _Extend ||| _ZWJ) ?_ (by decide) (by decide) (by decide)⟩
    simpa only [is_or] using c6
  rw [if_neg (by simpa using c6)]
  by_cases c7 : is v _SpacingMark = true
  · left
    rw [if_pos c7]
    exact ⟨by simp [c7], plain c7 (by decide) (by decide) (by decide)⟩
  rw [if_neg c7]
  by_cases c8 : is s.current _Prepend = true
  · left
    rw [if_pos c8]
    have ha' := aPre c8
    have hcount := pre c8
    refine ⟨by simp [c8], ?_⟩
    have := go (c := s.regionalIndicatorCount) (i := incbOf (s.current :: l))
      (updateIncb_ok (by rw [ha']; simp [incbOf, is, _InCBConsonant, _InCBLinker, _InCBExtend]))
      (by intro _; rw [hcount, ha']; simp [indicators, is, _RegionalIndicator]) (fun _ => hcount)
    rw [← incb] at this
    exact this
  rw [if_neg c8]
  have e3 : (is s.current _L && (is v _L || is v _V || is v _LV || is v _LVT)) = false := by
    rw [Bool.eq_false_iff]; intro h; rw [Bool.and_eq_true] at h; exact c3 ⟨h.2, h.1⟩
  have e4 : ((is s.current _LV || is s.current _V) && (is v _V || is v _T)) = false := by
    rw [Bool.eq_false_iff]; intro h; rw [Bool.and_eq_true] at h; exact c4 ⟨h.2, h.1⟩
  have e5 : ((is s.current _LVT || is s.current _T) && is v _T) = false := by
    rw [Bool.eq_false_iff]; intro h; rw [Bool.and_eq_true] at h; exact c5 ⟨h.2, h.1⟩
  rw [Bool.not_eq_true] at c6 c7 c8
  simp only [e3, e4, e5, c6, c7, c8, Bool.false_or]
  clear c3 c4 c5 e3 e4 e5
  by_cases c9 : incbOf (s.current :: l) = .linker ∧ is v _InCBConsonant = true
  · left
    rw [if_pos (by simpa using c9)]
    refine ⟨by simp [c9], ?_⟩
    have hv' := fCons c9.2
    exact go (c := s.regionalIndicatorCount) (i := .consonant)
      (by simp [updateIncb, incbOf, hv', is, _InCBConsonant, _InCBLinker, _InCBExtend])
      (by rw [hv']; intro h; simp [is, _RegionalIndicator] at h)
      (by rw [hv']; intro h; simp [is, _Prepend] at h)
  rw [if_neg (by simpa using c9)]
  have e9 : (decide (incbOf (s.current :: l) = .linker) && is v _InCBConsonant) = false := by
    rw [Bool.eq_false_iff]; intro h; simp at h; exact c9 h
  simp only [e9, Bool.false_or]
  by_cases c11 : ((is v _ExtendedPictographic && is s.current _ZWJ)
      && is (nextOf s v w).lastLastExIgnore _ExtendedPictographic) = true
  · left
    rw [if_pos c11]
    simp only [Bool.and_eq_true] at c11
    refine ⟨by simp [c11], plain c11.1.1 (by decide) (by decide) (by decide)⟩
  rw [if_neg c11]
  have e11 : ((is s.current _ZWJ && is (nextOf s v w).lastLastExIgnore _ExtendedPictographic)
      && is v _ExtendedPictographic) = false := by
    rw [Bool.eq_false_iff]; intro h; simp only [Bool.and_eq_true] at h
    apply c11; simp [h]
  simp only [e11, Bool.false_or]
  have eri : is (v &&& s.current) _RegionalIndicator = (is v _RegionalIndicator && is s.current _RegionalIndicator) :=
    and_is_pow v s.current 12
  rw [eri]
  by_cases c12 : is v _RegionalIndicator = true ∧ is s.current _RegionalIndicator = true
  · have hri := ri c12.2
    rw [if_pos (by simp [c12])]
    by_cases codd : (s.regionalIndicatorCount + 1) % 2 = 1
    · left
      rw [if_pos codd]
      refine ⟨by simp [c12, hri, codd], ?_⟩
      have hv' := fRI c12.1
      have := go (c := s.regionalIndicatorCount + 1) (i := incbOf (s.current :: l))
        (updateIncb_ok (by rw [hv']; simp [is, _InCBConsonant])) (fun _ => hri)
        (by rw [hv']; intro h; simp [is, _Prepend] at h)
      exact this
    · right
      rw [if_neg codd]
      exact ⟨by simp [hri]; intro h; exact absurd h codd, rfl⟩
  · right
    rw [if_neg (by simpa using c12)]
    refine ⟨?_, rfl⟩
    cases hh : is v _RegionalIndicator
    · simp
    · have ha0 : is s.current _RegionalIndicator = false := by
        rw [Bool.eq_false_iff]; intro h; exact c12 ⟨hh, h⟩
      simp [indicators, ha0]

theorem step_eq {data : Bytes} {s : State} {v w : Nat} (hp : s.pos < data.length) (hw : w ≠ 0)
    (hl : trie.lookupAt data s.pos = .ok (v, w)) : step data true s = rules s (nextOf s v w) := by
  unfold step
  rw [if_neg (by omega)]
  simp only [hl, if_neg hw]
  rfl

/-- The split function follows the rules. -/
theorem follows : Follows trie Prod.fst Prod.fst (fun _ => J) (splitAdv splitFunc) := by
  apply Follows.of_loop
  · intro d v hd hl
    have : ¬ d.length = 0 := by simpa using hd
    simp only [splitFunc, if_neg this, hl]
    simp
  · intro bs d' v l t hne hl hval hdec
    have h1 : ¬ (bs ++ d').length = 0 := by
      have := List.length_pos_iff.mpr hne
      simp; intro h; exact absurd h hne
    have h2 : ¬ bs.length = 0 := by simpa using hne
    simp only [splitFunc, if_neg h1, hl, if_neg h2]
    have hlen := hdec.length_le
    have := runLoop_grow (T := trie) (data := bs ++ d') (t := t) (body := step (bs ++ d') true)
      (pos := State.pos) (Ctx := Ctx) (cell := Prod.fst) (J := J)
      (by intro s left _ hp; simp [step, hp])
      (by
        intro s left _ hp ⟨v, hv⟩
        unfold step
        rw [if_neg (by omega)]
        simp only [hv]
        simp)
      (by
        intro s left v bs' d'' l hctx hdd hne' hp hl hval hdec
        have hw : bs'.length ≠ 0 := by simpa using hne'
        rcases pass hctx bs'.length (okValue_of hval) (l.map Prod.fst) with ⟨hj, s', hr, hps, hc⟩ | ⟨hj, hr⟩
        · right; left
          refine ⟨1, 1, s', by omega, by simp, by omega, ?_, ?_, ?_, ?_⟩
          · intro fuel
            rw [Nat.add_comm 1]
            simp only [runLoop, step_eq hp hw hl, hr]
          · rw [hps]; simp [bytesOf]
          · simpa using hc
          · intro i hi
            have : i = 0 := by omega
            subst this
            simpa using hj
        · left
          exact ⟨hj, by rw [step_eq hp hw hl, hr]⟩)
      l (init v bs.length) [v] (loopFuel (bs ++ d'))
      { ok := by intro x hx; simp at hx; rw [hx]; exact okValue_of hval
        cur := rfl
        ex := rfl
        incb := by
          have := updateIncb_ok (v := v) (left := []) (by simp [incbOf])
          exact this
        ri := by intro h; simp only [init] at h ⊢; simp [indicators, h]
        pre := fun _ => rfl }
      (by simp [init]) (by simpa [init] using hdec) (by simp [loopFuel]; omega)
    simp only [init] at this
    rw [this]

/-! ## after a boundary the text before does not matter -/

theorem restart : Restart trie.IsValue J := by
  intro A B C hA hB pA pB _ hj
  obtain ⟨a, A', rfl⟩ := List.exists_cons_of_ne_nil hA
  obtain ⟨b, B', rfl⟩ := List.exists_cons_of_ne_nil hB
  cases C with
  | nil => simp [J, graphemeJoins]
  | cons c C =>
  have ha := okValue_of (pA a List.mem_cons_self)
  have hb := okValue_of (pB b List.mem_cons_self)
  -- if `b` extends what is before it, `a` is a control
  have hmark : (is b _Extend || is b _ZWJ) = true → (gset a).control = true := by
    intro hm
    have hbc := okValue.all (P := fun v => (is v _Extend || is v _ZWJ) = true →
      (gset v).control = false ∧ is v _LF = false) (by decide +kernel) hb hm
    have e1 : gset b .Extend = is b _Extend := rfl
    have e2 : gset b .ZWJ = is b _ZWJ := rfl
    have e3 : gset b .LF = is b _LF := rfl
    simp only [J, graphemeJoins, List.map_cons, List.cons_append, e1, e2, e3, hbc.1, hbc.2, hm] at hj
    simpa using hj
  have hinc := okValue.all (P := fun v => (is v _InCBExtend || is v _InCBLinker) = true →
      (is v _Extend || is v _ZWJ) = true) (by decide +kernel) hb
  have hctl := okValue.all (P := fun v => (gset v).control = true →
      is v _InCBExtend = false ∧ is v _InCBLinker = false ∧ is v _InCBConsonant = false
        ∧ is v _Extend = false ∧ is v _ExtendedPictographic = false) (by decide +kernel) ha
  have hrev : ((b :: B').map gset).reverse = (B'.map gset).reverse ++ [gset b] := by simp
  -- the three left sides
  have hconj : conjunct (((b :: B').map gset).reverse ++ (a :: A').map gset)
      = conjunct ((b :: B').map gset).reverse := by
    simp only [conjunct, List.takeWhile_append]
    split
    · rename_i hall
      have hlen : (List.takeWhile (fun x : GSet => x .InCBExtend || x .InCBLinker)
          ((b :: B').map gset).reverse) = ((b :: B').map gset).reverse :=
        List.IsPrefix.eq_of_length (List.takeWhile_prefix _) (by simpa using hall)
      have hbm : (is b _InCBExtend || is b _InCBLinker) = true :=
        takeWhile_length hall (gset b) (by simp)
      obtain ⟨n1, n2, n3, _⟩ := hctl (hmark (hinc hbm))
      have e1 : gset a .InCBExtend = is a _InCBExtend := rfl
      have e2 : gset a .InCBLinker = is a _InCBLinker := rfl
      have e3 : gset a .InCBConsonant = is a _InCBConsonant := rfl
      rw [hlen]
      simp [e1, e2, e3, n1, n2, n3]
    · rename_i hall
      congr 1
      rw [List.drop_append_of_le_length (length_takeWhile_le ..)]
      rw [head?_append_ne]
      simp only [ne_eq, List.drop_eq_nil_iff]
      intro h
      apply hall
      have := length_takeWhile_le (fun x : GSet => x .InCBExtend || x .InCBLinker) ((b :: B').map gset).reverse
      omega
  have hpict : pictographZwj (((b :: B').map gset).reverse ++ (a :: A').map gset)
      = pictographZwj ((b :: B').map gset).reverse := by
    obtain ⟨x, X, hX⟩ := List.exists_cons_of_ne_nil (l := ((b :: B').map gset).reverse) (by simp)
    have hbmem : gset b ∈ x :: X := by rw [← hX]; simp
    rw [hX]
    simp only [pictographZwj, List.cons_append, List.head?_cons, List.tail_cons, Option.any_some]
    cases hz : x .ZWJ
    · rfl
    · simp only [Bool.true_and, List.dropWhile_append]
      split
      · rename_i hemp
        have hXall : X.dropWhile (fun y : GSet => y .Extend) = [] := by simpa using hemp
        rw [hXall]
        have hbm : (is b _Extend || is b _ZWJ) = true := by
          rcases List.mem_cons.mp hbmem with h | h
          · have : gset b .ZWJ = true := by rw [h]; exact hz
            have : is b _ZWJ = true := this
            simp [this]
          · have := dropWhile_nil hXall _ h
            have : is b _Extend = true := this
            simp [this]
        obtain ⟨_, _, _, n4, n5⟩ := hctl (hmark hbm)
        have e4 : gset a .Extend = is a _Extend := rfl
        have e5 : gset a .ExtendedPictographic = is a _ExtendedPictographic := rfl
        simp [e4, e5, n4, n5]
      · rename_i hemp
        rw [head?_append_ne]
        simpa using hemp
  have hodd : (oddIndicators (((b :: B').map gset).reverse ++ (a :: A').map gset))
      = oddIndicators ((b :: B').map gset).reverse := by
    simp only [oddIndicators, List.takeWhile_append]
    split
    · rename_i hall
      have hlen : (List.takeWhile (fun x : GSet => x .RegionalIndicator)
          ((b :: B').map gset).reverse) = ((b :: B').map gset).reverse :=
        List.IsPrefix.eq_of_length (List.takeWhile_prefix _) (by simpa using hall)
      have hbm : is b _RegionalIndicator = true := takeWhile_length hall (gset b) (by simp)
      rw [hlen, List.length_append]
      have heven : (((a :: A').map gset).takeWhile (fun x : GSet => x .RegionalIndicator)).length % 2 = 0 := by
        by_cases hra : is a _RegionalIndicator = true
        · have va := okValue.all (P := fun v => is v _RegionalIndicator = true → v = 4096) (by decide +kernel) ha hra
          have vb := okValue.all (P := fun v => is v _RegionalIndicator = true → v = 4096) (by decide +kernel) hb hbm
          subst va vb
          rcases Nat.mod_two_eq_zero_or_one
            (((4096 :: A').map gset).takeWhile (fun x : GSet => x .RegionalIndicator)).length with h | h
          · exact h
          · exfalso
            have h1 : oddIndicators ((4096 :: A').map gset) = true := by simp only [oddIndicators, h]; rfl
            have h2 : gset 4096 .RegionalIndicator = true := by decide
            have h3 : (gset 4096).control = false := by decide
            have h4 : gset 4096 .LF = false := by decide
            rw [List.map_cons] at h1
            simp [J, graphemeJoins, h1, h2, h3, h4] at hj
        · have : gset a .RegionalIndicator = false := (Bool.not_eq_true _).mp hra
          simp [this]
      congr 1
      simp only [eq_iff_iff]
      omega
    · rfl
  obtain ⟨x, X, hX⟩ := List.exists_cons_of_ne_nil (l := ((b :: B').map gset).reverse) (by simp)
  have h1 : ((b :: B').reverse ++ a :: A').map gset = ((b :: B').map gset).reverse ++ (a :: A').map gset := by
    simp
  have h2 : (b :: B').reverse.map gset = ((b :: B').map gset).reverse := by simp
  simp only [J, h1, h2]
  rw [hX] at hconj hpict hodd ⊢
  simp only [List.cons_append] at hconj hpict hodd
  simp only [graphemeJoins, List.map_cons, List.cons_append] at hconj hpict hodd ⊢
  rw [hconj, hpict, hodd]

/-! ## the ASCII fast path -/

theorem ascii_lookup {b : UInt8} (hb : b.toNat < 0x80) (rest : Bytes) :
    ∃ v, trie.lookup (b :: rest) = .ok (v, 1) ∧ (v = 0 ∨ v = 2 ∨ v = 256 ∨ (v = 1 ∧ b.toNat = 13)) := by
  have h : ∀ n, n < 128 → (match tableAt trie.values n with
      | .ok v => decide (v = 0 ∨ v = 2 ∨ v = 256 ∨ (v = 1 ∧ n = 13))
      | .error _ => false) = true := by decide +kernel
  have h1 := h b.toNat hb
  cases hv : tableAt trie.values b.toNat with
  | error f => rw [hv] at h1; exact absurd h1 (by simp)
  | ok v =>
    rw [hv] at h1
    exact ⟨v, by simp [Trie.lookup, hb, hv], of_decide_eq_true h1⟩

/-- Between two ASCII characters there is a boundary, unless the first is CR. -/
theorem ascii_break {v0 v1 : Nat} (h0 : v0 = 0 ∨ v0 = 2 ∨ v0 = 256)
    (h1 : v1 = 0 ∨ v1 = 2 ∨ v1 = 256 ∨ v1 = 1) (r : List Nat) : J [v0] (v1 :: r) = false := by
  rcases h0 with rfl | rfl | rfl <;> rcases h1 with rfl | rfl | rfl | rfl <;>
    simp [J, graphemeJoins, gset, gbBit, is, GSet.control, conjunct, pictographZwj, oddIndicators,
      _CR, _LF, _Control, _Extend, _ZWJ, _RegionalIndicator, _Prepend, _SpacingMark, _L, _V, _T, _LV, _LVT,
      _ExtendedPictographic, _InCBConsonant, _InCBExtend, _InCBLinker]

theorem advPlain_eq {d : Bytes} (hd : d ≠ []) : advPlain splitFunc d = splitAdv splitFunc d := by
  match d, hd with
  | [b], _ =>
    have := good.adv (d := [b]) (by simp)
    simp at this
    simp only [advPlain]
    split
    · omega
    · rfl
  | b :: b1 :: rest, _ =>
    simp only [advPlain]
    split
    · rename_i hb
      split
      · rename_i hb1
        simp only [Utf8.runeSelf, cr, Bool.and_eq_true, bne_iff_ne, ne_eq] at hb hb1
        obtain ⟨v0, hl0, hv0⟩ := ascii_lookup (of_decide_eq_true hb.1) (b1 :: rest)
        obtain ⟨v1, hl1, hv1⟩ := ascii_lookup hb1 rest
        obtain ⟨_, _, e0, _, _, val0⟩ := wf.lookup_ok (s := b :: b1 :: rest) (by simp)
        obtain ⟨_, _, e1, _, _, val1⟩ := wf.lookup_ok (s := b1 :: rest) (by simp)
        rw [hl0] at e0; rw [hl1] at e1
        cases e0; cases e1
        obtain ⟨l, t, hdec⟩ := wf.decodes rest
        have hd1 := Decodes.cons (T := trie) (bs := [b1]) (by simp) hl1 val1 hdec
        have hd0 := Decodes.cons (T := trie) (bs := [b]) (by simp) hl0 val0 hd1
        have := follows (b :: b1 :: rest) _ t (by simp) hd0
        have hf : firstChunks Prod.fst Prod.fst J ((v0, [b]) :: (v1, [b1]) :: l) = 1 := by
          simp only [List.map_cons, firstChunks, grow]
          rw [ascii_break (by omega) (by omega)]
          simp
        rw [hf] at this
        simpa using this.symm
      · rfl
    · rfl

theorem adv_default {d : Bytes} (hd : d ≠ []) : adv {} splitFunc d = splitAdv splitFunc d := by
  have := advPlain_eq hd
  cases d with
  | nil => exact absurd rfl hd
  | cons b rest => simpa [adv, adv8] using this

end Graphemes
end Uax29
