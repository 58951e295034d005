import Verif.Proofs.Levels
import Verif.Props.Unions
/-! # The positions listed in `Spec/Levels.lean` are all within tokens -/
set_option maxRecDepth 20000
namespace Uax29
open Spec

local notation "gc" => graphemeClasses
local notation "wc" => wordClasses

/-! ## within graphemes -/

/-- No boundary of graphemes, from the rules for what is not a control character. -/
theorem graphemeBreak_false {l b : List Char} {x y : Char} (hx : (gc x).control = false) (hy : (gc y).control = false)
    (h : (gc y .Extend || gc y .ZWJ || gc y .SpacingMark || gc x .Prepend || (conjunct ((x :: l).map gc) && gc y .InCBConsonant)
      || (pictographZwj ((x :: l).map gc) && gc y .ExtendedPictographic)
      || (oddIndicators ((x :: l).map gc) && gc y .RegionalIndicator)) = true) :
    graphemeBreak ((x :: l).reverse.map gc) ((y :: b).map gc) = false := by
  rw [graphemeBreak, ← List.map_reverse, List.reverse_reverse]
  have hj : graphemeJoins ((x :: l).map gc) ((y :: b).map gc) = true := by
    rw [List.map_cons] at h
    rw [List.map_cons, List.map_cons]
    unfold graphemeJoins
    dsimp only
    split
    · rfl
    rw [hx, hy]
    simp only [Bool.or_eq_true] at h
    simp only [Bool.or_self, Bool.false_eq_true, if_false, Bool.or_eq_true]
    rcases h with (((((h | h) | h) | h) | h) | h) | h <;> simp only [h, true_or, or_true]
  rw [hj]
  simp

theorem g_incb {c : Char} (h : (gc c .InCBExtend || gc c .InCBLinker || gc c .InCBConsonant || gc c .ExtendedPictographic || gc c .ZWJ
    || gc c .RegionalIndicator || gc c .Prepend || gc c .SpacingMark) = true) : (gc c).control = false := by
  have := classes_none (fun g _ _ => (g .InCBExtend || g .InCBLinker || g .InCBConsonant || g .ExtendedPictographic || g .ZWJ
    || g .RegionalIndicator || g .Prepend || g .SpacingMark) && g.control) (by decide +kernel) c
  rw [h] at this
  simpa using this

theorem g_consonant {c : Char} (h : gc c .InCBConsonant = true) : (gc c .InCBExtend || gc c .InCBLinker) = false := by
  have := classes_none (fun g _ _ => g .InCBConsonant && (g .InCBExtend || g .InCBLinker)) (by decide +kernel) c
  rw [h] at this
  simpa using this

theorem g_saraAm {y : Char} (h : y = 'ำ' ∨ y = 'ຳ') : (gc y).control = false ∧ gc y .SpacingMark = true := by
  rcases h with rfl | rfl <;> decide +kernel

theorem g_modifier {y : Char} (h : 0x1F3FB ≤ y.toNat ∧ y.toNat ≤ 0x1F3FF) : (gc y).control = false ∧ gc y .Extend = true := by
  have key : ∀ n < 5, (gc (Char.ofNat (0x1F3FB + n))).control = false ∧ gc (Char.ofNat (0x1F3FB + n)) .Extend = true := by
    decide +kernel
  have := key (y.toNat - 0x1F3FB) (by omega)
  rwa [show 0x1F3FB + (y.toNat - 0x1F3FB) = y.toNat by omega, Char.ofNat_toNat] at this

theorem reverse_cases {α : Type} (a : List α) : a = [] ∨ ∃ x l, a = (x :: l).reverse := by
  cases h : a.reverse with
  | nil => exact .inl (by simpa using h)
  | cons x l => exact .inr ⟨x, l, by rw [← h, List.reverse_reverse]⟩

theorem last_cases {α : Type} {a : List α} (h : a ≠ []) : ∃ x l, a = (x :: l).reverse := (reverse_cases a).resolve_left h

theorem Spec.WordCutsGrapheme.within {a b : List Char} (h : WordCutsGrapheme a b) : graphemeBreak (a.map gc) (b.map gc) = false := by
  cases h with
  | saraAm a b x y hx hy =>
    have := graphemeBreak_false (l := a.reverse) (b := b) hx (g_saraAm hy).1 (by simp [(g_saraAm hy).2])
    simpa using this
  | prepend a b x y hx hy =>
    have := graphemeBreak_false (l := a.reverse) (b := b) (x := x) (g_incb (by simp [hx])) hy (by simp [hx])
    simpa using this
  | conjunct a m b c y hc hm hl hy _ =>
    obtain ⟨x, l, hxl⟩ := last_cases (a := a ++ c :: m) (by simp)
    have hr : x :: l = m.reverse ++ c :: a.reverse := by
      rw [← List.reverse_reverse (x :: l), ← hxl]; simp
    have hx : (gc x).control = false := by
      cases hm' : m.reverse with
      | nil =>
        rw [hm'] at hr
        cases hr
        exact g_incb (by simp [hc])
      | cons i m' =>
        rw [hm'] at hr
        cases hr
        have : x ∈ m := by rw [← List.mem_reverse, hm']; simp
        exact g_incb (by rcases hm x this with h | h <;> simp [h])
    rw [hxl]
    refine graphemeBreak_false hx (g_incb (by simp [hy])) ?_
    have hcj : Spec.conjunct ((x :: l).map gc) = true := by
      have ht : ((x :: l).map gc).takeWhile (fun x => x .InCBExtend || x .InCBLinker) = m.reverse.map gc := by
        rw [hr, List.map_append, takeWhile_map_append _ (by
          intro i hi
          obtain ⟨j, hj, rfl⟩ := List.mem_map.mp hi
          simpa using hm j (List.mem_reverse.mp hj)), List.map_cons, List.takeWhile_cons, if_neg (by simp [g_consonant hc]),
          List.append_nil]
      rw [Spec.conjunct, ht, hr, List.length_map, ← List.map_drop, List.drop_left, List.map_cons, List.head?_cons]
      obtain ⟨i, hi, hli⟩ := hl
      simp only [Option.any_some, hc, Bool.and_true, List.any_map, List.any_eq_true]
      exact ⟨i, List.mem_reverse.mpr hi, hli⟩
    rw [hcj, hy]
    simp
  | flags a m rs b r y hr hm hi hrs ho hy =>
    have hne : rs ≠ [] := by rintro rfl; simp at ho
    obtain ⟨i, m', hm'⟩ := last_cases hm
    obtain ⟨x, l, hxl⟩ := last_cases (a := a ++ r :: m ++ rs) (by simp)
    have hr' : x :: l = rs.reverse ++ i :: (m' ++ r :: a.reverse) := by
      rw [← List.reverse_reverse (x :: l), ← hxl, hm']; simp
    have hx : gc x .RegionalIndicator = true := by
      cases hrr : rs.reverse with
      | nil => exact absurd (by simpa using hrr) hne
      | cons j rs' =>
        rw [hrr] at hr'
        cases hr'
        rw [gw_indicator]
        exact hrs x (by rw [← List.mem_reverse, hrr]; simp)
    have hy' : gc y .RegionalIndicator = true := by rw [gw_indicator]; exact hy
    rw [hxl]
    refine graphemeBreak_false (g_incb (by simp [hx])) (g_incb (by simp [hy'])) ?_
    have hod : oddIndicators ((x :: l).map gc) = true := by
      have hii : gc i .RegionalIndicator = false := by
        rw [gw_indicator]
        refine Bool.eq_false_iff.mpr fun h => ?_
        have h1 := w_indicator h
        rw [hi i (by rw [hm']; simp)] at h1
        cases h1
      rw [oddIndicators, hr', List.map_append, takeWhile_map_append _ (by
          intro i hi
          obtain ⟨j, hj, rfl⟩ := List.mem_map.mp hi
          rw [gw_indicator]
          exact hrs j (List.mem_reverse.mp hj)), List.map_cons, List.takeWhile_cons, if_neg (by simp [hii]), List.append_nil]
      simpa using ho
    rw [hod, hy']
    simp

theorem Spec.SentenceCutsGrapheme.within {a b : List Char} (h : SentenceCutsGrapheme a b) : graphemeBreak (a.map gc) (b.map gc) = false := by
  cases h with
  | saraAm a b x y hx hy =>
    have := graphemeBreak_false (l := a.reverse) (b := b) hx (g_saraAm hy).1 (by simp [(g_saraAm hy).2])
    simpa using this
  | modifier a b x y hx hy =>
    have := graphemeBreak_false (l := a.reverse) (b := b) hx (g_modifier hy).1 (by simp [(g_modifier hy).2])
    simpa using this
  | abbreviation a b y hy =>
    have hp : gc '܏' .Prepend = true := by decide +kernel
    have := graphemeBreak_false (l := a.reverse) (b := b) (x := '܏') (g_incb (by simp [hp])) hy (by simp [hp])
    simpa using this
  | exclamation a m b t z y ht hm hz hy =>
    have hp : gc t .ExtendedPictographic = true ∧ gc t .Extend = false := by rcases ht with rfl | rfl <;> decide +kernel
    have := graphemeBreak_false (l := m.reverse ++ t :: a.reverse) (b := b) (x := z) (y := y) (g_incb (by simp [hz]))
      (g_incb (by simp [hy])) (by
        have h1 : pictographZwj ((z :: (m.reverse ++ t :: a.reverse)).map gc) = true := by
          rw [List.map_cons, pictographZwj, List.tail_cons, List.map_append, List.dropWhile_append_of_pos (by
            intro i hi
            obtain ⟨j, hj, rfl⟩ := List.mem_map.mp hi
            exact hm j (List.mem_reverse.mp hj)), List.map_cons, List.dropWhile_cons, if_neg (by simp [hp.2])]
          simp [hz, hp.1]
        rw [h1, hy]
        simp)
    simpa using this
/-! ## within words and phrases -/

/-- What the rules from WB5 on join. -/
def Spec.WSet.used (w : WSet) : Bool :=
  w .ALetter || w .HebrewLetter || w .Numeric || w .Katakana || w .ExtendNumLet || w .MidLetter || w .MidNum || w .MidNumLet
    || w .SingleQuote || w .ExtendedPictographic || w .WSegSpace

theorem used_plain {c : Char} (h : (wc c).used = true) : (wc c).ignorable = false ∧ (wc c).newline = false := by
  have := classes_none (fun _ w _ => w.used && (w.ignorable || w.newline)) (by decide +kernel) c
  rw [h] at this
  simpa using this

theorem ignorable_newline {c : Char} (h : (wc c).ignorable = true) : (wc c).newline = false := by
  have := classes_none (fun _ w _ => w.ignorable && w.newline) (by decide +kernel) c
  rw [h] at this
  simpa using this

theorem used_ahLetter {ph : Bool} {w : WSet} (h : w.ahLetter ph = true) : w.used = true := by
  simp only [WSet.ahLetter, WSet.used, Bool.or_eq_true, Bool.and_eq_true] at *
  grind

theorem used_alnum {ph : Bool} {w : WSet} (h : w.alnum ph = true) : w.used = true := by
  simp only [WSet.alnum, WSet.ahLetter, WSet.used, Bool.or_eq_true, Bool.and_eq_true] at *
  grind

theorem used_midLetter {w : WSet} (h : w.midLetter = true) : w.used = true := by
  simp only [WSet.midLetter, WSet.midNumLetQ, WSet.used, Bool.or_eq_true] at *
  grind

theorem joins_unfold {ph : Bool} {a b : WSet} {l r : List WSet} (ha : a.newline = false) (hb : b.newline = false)
    (h : b.ignorable = true ∨ (a .ZWJ && b .ExtendedPictographic) = true
      ∨ unitJoins ph (units (a :: l)) b (r.dropWhile (·.ignorable)).head? = true) : joins ph (a :: l) (b :: r) = true := by
  unfold joins
  dsimp only
  by_cases h1 : (a .CR && b .LF) = true
  · rw [if_pos h1]
  rw [if_neg h1, if_neg (by rw [ha, hb]; decide)]
  by_cases h2 : (a .ZWJ && b .ExtendedPictographic) = true
  · rw [if_pos h2]
  rw [if_neg h2]
  by_cases h3 : (a .WSegSpace && b .WSegSpace) = true
  · rw [if_pos h3]
  rw [if_neg h3]
  by_cases h4 : b.ignorable = true
  · rw [if_pos h4]
  rw [if_neg h4]
  rcases h with h | h | h
  · exact absurd h h4
  · exact absurd h h2
  · exact h

/-- The rules from WB5 on after a character and what WB4 joins to it. -/
theorem joins_afterUnit {ph : Bool} {a m b : List Char} {c y : Char} (hm : ∀ i ∈ m, (wc i).ignorable = true) (hc : (wc c).used = true)
    (hy : (wc y).used = true)
    (h : unitJoins ph (wc c :: units (a.reverse.map wc)) (wc y) ((b.map wc).dropWhile (·.ignorable)).head? = true) :
    joins ph ((a ++ c :: m).reverse.map wc) ((y :: b).map wc) = true := by
  have hu := units_skip wc (used_plain hc) a.reverse m.reverse fun i hi =>
    ⟨hm i (List.mem_reverse.mp hi), ignorable_newline (hm i (List.mem_reverse.mp hi))⟩
  rw [List.reverse_append, List.reverse_cons, List.append_assoc, List.singleton_append]
  rw [← hu] at h
  have hx : ∃ x l, m.reverse ++ c :: a.reverse = x :: l ∧ (wc x).newline = false := by
    cases hm' : m.reverse with
    | nil => exact ⟨_, _, rfl, (used_plain hc).2⟩
    | cons i m' => exact ⟨_, _, rfl, ignorable_newline (hm i (by rw [← List.mem_reverse, hm']; simp))⟩
  obtain ⟨x, l, hxl, hx⟩ := hx
  rw [hxl] at h ⊢
  exact joins_unfold hx (used_plain hy).2 (.inr (.inr h))

/-- The same with the unit before: WB7 and WB11. -/
theorem joins_afterUnits {ph : Bool} {a m m' b : List Char} {l t y : Char} (hm : ∀ i ∈ m ++ m', (wc i).ignorable = true)
    (hl : (wc l).used = true) (ht : (wc t).used = true) (hy : (wc y).used = true)
    (h : ((wc l).ahLetter ph && (wc t).midLetter && (wc y).ahLetter ph || wc l .Numeric && (wc t).midNum && wc y .Numeric) = true) :
    joins ph ((a ++ l :: m ++ t :: m').reverse.map wc) ((y :: b).map wc) = true := by
  refine joins_afterUnit (fun i hi => hm i (by simp [hi])) ht hy ?_
  have hu := units_skip wc (used_plain hl) a.reverse m.reverse fun i hi =>
    ⟨hm i (by simp [List.mem_reverse.mp hi]), ignorable_newline (hm i (by simp [List.mem_reverse.mp hi]))⟩
  rw [List.reverse_append, List.reverse_cons, List.append_assoc, List.singleton_append, hu]
  simp only [Bool.or_eq_true] at h
  simp only [unitJoins, List.head?_cons, Option.any_some, List.tail_cons]
  rcases h with h | h <;> rw [h] <;> simp only [Bool.or_true, Bool.true_or]

theorem w_modifier {y : Char} (h : 0x1F3FB ≤ y.toNat ∧ y.toNat ≤ 0x1F3FF) : (wc y).ignorable = true := by
  have key : ∀ n < 5, (wc (Char.ofNat (0x1F3FB + n))).ignorable = true := by decide +kernel
  have := key (y.toNat - 0x1F3FB) (by omega)
  rwa [show 0x1F3FB + (y.toNat - 0x1F3FB) = y.toNat by omega, Char.ofNat_toNat] at this

theorem joins_afterLast {ph : Bool} {a b : List Char} {x y : Char} (hx : (wc x).newline = false) (hy : (wc y).newline = false)
    (h : (wc y).ignorable = true ∨ (wc x .ZWJ && wc y .ExtendedPictographic) = true) :
    joins ph ((a ++ [x]).reverse.map wc) ((y :: b).map wc) = true := by
  rw [List.reverse_append, List.reverse_singleton, List.singleton_append]
  exact joins_unfold hx hy (h.imp_right .inl)

theorem Spec.SentenceCutsWord.within {a b : List Char} (h : SentenceCutsWord a b) :
    joins false (a.reverse.map wc) (b.map wc) = true := by
  cases h with
  | stop a m m' b l t y hl ht hm hy _ _ =>
    have ht : (wc t).midLetter = true := by rcases ht with rfl | rfl | rfl | rfl <;> decide +kernel
    exact joins_afterUnits hm (used_ahLetter hl) (used_midLetter ht) (used_ahLetter hy) (by rw [hl, ht, hy]; rfl)
  | armenian a m m' b l y hl hm hy =>
    have ht : (wc '։').midNum = true ∧ (wc '։').used = true := by decide +kernel
    exact joins_afterUnits hm (by simp [WSet.used, hl]) ht.2 (by simp [WSet.used, hy]) (by rw [hl, ht.1, hy]; simp)
  | narrow a m b y hm hy =>
    have hn : wc ' ' .ExtendNumLet = true := by decide +kernel
    refine joins_afterUnit hm (by simp [WSet.used, hn]) ?_ ?_
    · rcases hy with hy | hy | hy | hy
      · exact used_ahLetter hy
      all_goals simp [WSet.used, hy]
    · simp only [unitJoins, List.head?_cons, Option.any_some, hn, Bool.or_true, Bool.true_and, Bool.or_eq_true]
      grind
  | zwj a b x y hx hy =>
    exact joins_afterLast (ignorable_newline (by simp [WSet.ignorable, hx])) (used_plain (by simp [WSet.used, hy])).2
      (.inr (by rw [hx, hy]; rfl))
  | modifier a b x y hx hy => exact joins_afterLast hx (ignorable_newline (w_modifier hy)) (.inl (w_modifier hy))
  | abbreviation a m b y hm hy =>
    refine joins_afterUnit hm (by decide +kernel) ?_ ?_
    · rcases hy with hy | hy | hy
      · exact used_alnum hy
      · simp [WSet.used, hy]
      · exact used_midLetter hy.1
    · rw [unitJoins_onlyLetter (onlyLetter_abbreviation _), head_dropWhile]
      exact hy
  | afterAbbreviation a m m' b t y hm ht hy =>
    have hl : (wc '܏').ahLetter false = true := by decide +kernel
    exact joins_afterUnits hm (used_ahLetter hl) (used_midLetter ht) (used_ahLetter hy) (by rw [hl, ht, hy]; rfl)

theorem Spec.SentenceCutsPhrase.within {a b : List Char} (h : SentenceCutsPhrase a b) :
    joins true (a.reverse.map wc) (b.map wc) = true := by
  cases h with
  | word a b h => exact joins_mono h.within
  | space a m b x y hx hm hy =>
    refine joins_afterUnit hm (by simp [WSet.used, hx]) (used_alnum hy) ?_
    have : (wc x).alnum true = true := by simp [WSet.alnum, hx]
    simp only [unitJoins, List.head?_cons, Option.any_some, this, hy, Bool.and_true, Bool.true_or]
  | pictograph a m b x y hx hm hy =>
    have hx' : (wc x).onlyLetter true = true := by
      rcases hx with hx | rfl
      · exact onlyLetter_pictograph hx
      · exact onlyLetter_abbreviation _
    have hl : (wc x).ahLetter true = true := by
      simp only [WSet.onlyLetter, Bool.and_eq_true] at hx'
      exact hx'.1
    refine joins_afterUnit hm (used_ahLetter hl) ?_ ?_
    · rcases hy with hy | hy | hy
      · exact used_alnum hy
      · simp [WSet.used, hy]
      · exact used_midLetter hy.1
    · rw [unitJoins_onlyLetter hx', head_dropWhile]
      exact hy
  | narrow a m b y hm hy =>
    have hn : wc ' ' .ExtendNumLet = true := by decide +kernel
    refine joins_afterUnit hm (by simp [WSet.used, hn]) (by simp [WSet.used, hy]) ?_
    simp only [unitJoins, List.head?_cons, Option.any_some, hn, WSet.ahLetter, hy, Bool.or_true, Bool.true_and, Bool.true_or]
  | stop a m m' b l t y hl ht hm hy _ =>
    exact joins_afterUnits hm (used_ahLetter hl) (used_midLetter ht) (used_ahLetter hy) (by rw [hl, ht, hy]; rfl)

/-! ## tokens made up of smaller ones -/

/-- Tokens whose boundaries are all boundaries of smaller tokens are made up of these. -/
theorem unions_of {s : List Char} {ws gs : List (List Char)} (hw : ws.flatten = s) (hg : gs.flatten = s)
    (hn : ∀ g ∈ gs, g ≠ []) (h : ∀ a b, s = a ++ b → Boundary ws a → Boundary gs a) :
    ∃ G : List (List (List Char)), G.flatten = gs ∧ G.map List.flatten = ws := by
  refine unions (hw.trans hg.symm) hn ?_
  rintro a ⟨n, hn⟩
  exact h a (ws.drop n).flatten (by rw [← hn, ← List.flatten_append, List.take_append_drop, hw]) ⟨n, hn⟩

/-- The converse. -/
theorem boundary_union {ws gs : List (List Char)} {G : List (List (List Char))} (hG : G.flatten = gs) (hG' : G.map List.flatten = ws)
    {a : List Char} (h : Boundary ws a) : Boundary gs a := by
  obtain ⟨n, rfl⟩ := h
  refine ⟨(G.take n).flatten.length, ?_⟩
  subst hG hG'
  have : G.flatten.take (G.take n).flatten.length = (G.take n).flatten := by
    conv => lhs; rw [← List.take_append_drop n G, List.flatten_append]
    simp
  rw [this, ← List.map_take, List.flatten_flatten]

theorem levels_iff {s : List Char} {ws gs : List (List Char)} {cut : List Char → List Char → Prop} (hw : ws.flatten = s)
    (hg : gs.flatten = s) (hn : ∀ g ∈ gs, g ≠ []) (key : ∀ a b, s = a ++ b → Boundary ws a → (Boundary gs a ↔ ¬ cut a b)) :
    (∃ G : List (List (List Char)), G.flatten = gs ∧ G.map List.flatten = ws) ↔ ∀ a b, s = a ++ b → Boundary ws a → ¬ cut a b := by
  constructor
  · rintro ⟨G, h1, h2⟩ a b hs ha
    exact (key a b hs ha).mp (boundary_union h1 h2 ha)
  · exact fun h => unions_of hw hg hn fun a b hs ha => (key a b hs ha).mpr (h a b hs ha)

end Uax29
