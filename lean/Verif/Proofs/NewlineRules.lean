import Verif.Proofs.Newlines
import Verif.Props.Unions
/-! # The rules of the four packages do not tell one line end from another -/
namespace Uax29
open Spec

local notation "gc" => graphemeClasses
local notation "wc" => wordClasses
local notation "sc" => sentenceClass

theorem lineFeeds_cons (c : Char) (s : List Char) :
    ∃ r, lineFeeds (c :: s) = (if IsLineEnd c then '\n' else c) :: r ∧ (¬ IsLineEnd c → r = lineFeeds s) := by
  by_cases h : c = '\r' ∧ s.head? = some '\n'
  · have hc : IsLineEnd c := .inl h.1
    obtain ⟨s', rfl⟩ : ∃ s', s = '\n' :: s' := by
      cases s with
      | nil => cases h.2
      | cons d s' => exact ⟨s', by simpa using h.2⟩
    have hn : IsLineEnd '\n' := .inr (.inl rfl)
    refine ⟨lineFeeds s', ?_, fun h' => absurd hc h'⟩
    rw [lineFeeds, if_pos h, lineFeeds, if_neg (by simp), if_pos hn, if_pos hc]
  · exact ⟨lineFeeds s, by rw [lineFeeds, if_neg h], fun _ => rfl⟩

theorem dropWhile_stay {α : Type} {p : α → Bool} {x : α} (hx : p x = false) (B A : List α) :
    (B ++ x :: A).dropWhile p = B.dropWhile p ++ x :: A := by
  induction B with
  | nil => simp [hx]
  | cons b B ih =>
    simp only [List.cons_append, List.dropWhile_cons, ih]
    split <;> rfl

/-! ## Graphemes -/

/-- Nothing but a control character. -/
def controlOnly (x : GSet) : Bool :=
  x.control && !(x .Extend || x .ZWJ || x .RegionalIndicator || x .Prepend || x .SpacingMark || x .L || x .V || x .T
    || x .LV || x .LVT || x .ExtendedPictographic || x .InCBConsonant || x .InCBExtend || x .InCBLinker)

theorem lineEnd_control {c : Char} (h : IsLineEnd c) : controlOnly (gc c) = true := by
  rcases h with rfl | rfl | rfl | rfl | rfl <;> decide +kernel

theorem graphemeJoins_line {x y : GSet} (hx : controlOnly x = true) (hy : controlOnly y = true) (B A A' C : List GSet)
    (h : B = [] → C.head?.any (fun c => (x .CR || y .CR) && c .LF) = false) :
    graphemeJoins (B ++ x :: A) C = graphemeJoins (B ++ y :: A') C := by
  simp only [controlOnly, Bool.and_eq_true, Bool.not_eq_true', Bool.or_eq_false_iff] at hx hy
  cases C with
  | nil => cases B <;> rfl
  | cons c C =>
    cases B with
    | nil =>
      have h := h rfl
      simp only [List.head?_cons, Option.any_some, Bool.and_eq_false_iff, Bool.or_eq_false_iff] at h
      have h1 : (x .CR && c .LF) = false := by rcases h with h | h <;> simp [h]
      have h2 : (y .CR && c .LF) = false := by rcases h with h | h <;> simp [h]
      simp [graphemeJoins, h1, h2, hx.1, hy.1]
    | cons b B =>
      have e1 : conjunct (b :: B ++ x :: A) = conjunct (b :: B ++ y :: A') := by
        simp only [conjunct, drop_takeWhile_part]
        rw [takeWhile_part (by simp [hx]), takeWhile_part (by simp [hy]),
          dropWhile_part (x := x) (x' := y) (A' := A') (by simp [hx]) (by simp [hy]) (by simp [hx, hy])]
      have e2 : pictographZwj (b :: B ++ x :: A) = pictographZwj (b :: B ++ y :: A') := by
        simp only [pictographZwj, List.cons_append, List.head?_cons, List.tail_cons]
        rw [dropWhile_part (x := x) (x' := y) (A' := A') (by simp [hx]) (by simp [hy]) (by simp [hx, hy])]
      have e3 : oddIndicators (b :: B ++ x :: A) = oddIndicators (b :: B ++ y :: A') := by
        simp only [oddIndicators]
        rw [takeWhile_part (by simp [hx]), takeWhile_part (by simp [hy])]
      simp only [List.cons_append] at e1 e2 e3 ⊢
      simp only [graphemeJoins, e1, e2, e3]

theorem newlines_graphemes : Newlines graphemeJoins graphemeClasses where
  left x hx B A A' C h := by
    refine graphemeJoins_line (lineEnd_control hx) (lineEnd_control (.inr (.inl rfl))) B A A' _ fun hB => ?_
    rw [Bool.eq_false_iff]
    intro hC
    cases C with
    | nil => cases hC
    | cons c C =>
      simp only [List.map_cons, List.head?_cons, Option.any_some, Bool.and_eq_true, Bool.or_eq_true] at hC
      rcases hC.1 with h1 | h1
      · exact h hB (Graphemes.cr_only h1) (by rw [Graphemes.lf_only hC.2]; rfl)
      · exact absurd h1 (by decide +kernel)
  right a b ha := by
    cases b with
    | nil => rfl
    | cons c b =>
      obtain ⟨r, e, _⟩ := lineFeeds_cons c b
      rw [e, List.map_cons, List.map_cons]
      split
      · rename_i hc
        cases hr : (a.map gc).reverse with
        | nil => rfl
        | cons g l =>
          have hg : g .CR = false := by
            have : g ∈ (a.map gc).reverse := by rw [hr]; exact List.mem_cons_self
            rw [List.mem_reverse] at this
            obtain ⟨d, hd, rfl⟩ := List.mem_map.mp this
            rw [Bool.eq_false_iff]
            intro h'
            exact ha (Graphemes.cr_only h' ▸ hd)
          have h1 := lineEnd_control hc
          have h2 := lineEnd_control (c := '\n') (.inr (.inl rfl))
          simp only [controlOnly, Bool.and_eq_true] at h1 h2
          simp [graphemeJoins, hg, h1.1, h2.1]
      · cases (a.map gc).reverse <;> rfl
  inside A C := by
    have h1 : gc '\r' .CR = true := by decide +kernel
    have h2 : gc '\n' .LF = true := by decide +kernel
    simp [graphemeJoins, h1, h2]

/-! ## Words and phrases -/

/-- Nothing but a newline character. -/
def newlineOnly (x : WSet) : Bool :=
  x.newline && !(x.ignorable || x.midLetter || x.midNum || x .RegionalIndicator || x .Katakana
    || x .ALetter || x .HebrewLetter || x .DoubleQuote || x .Numeric || x .ExtendNumLet || x .WSegSpace
    || x .ExtendedPictographic)

theorem lineEnd_newline {c : Char} (h : IsLineEnd c) : newlineOnly (wc c) = true := by
  rcases h with rfl | rfl | rfl | rfl | rfl <;> decide +kernel

theorem units_line {x y : WSet} (hx : x.newline = true) (hy : y.newline = true) (ix : x.ignorable = false)
    (iy : y.ignorable = false) (A A' : List WSet) (B : List WSet) :
    ∃ U, units (B ++ x :: A) = U ++ x :: units A ∧ units (B ++ y :: A') = U ++ y :: units A' := by
  induction B with
  | nil => exact ⟨[], by simp [units_cons_solid ix], by simp [units_cons_solid iy]⟩
  | cons b B ih =>
    obtain ⟨U, h1, h2⟩ := ih
    cases B with
    | nil =>
      rw [List.nil_append] at h1 h2
      refine ⟨b :: U, ?_, ?_⟩
      · simp only [List.cons_append, List.nil_append]; rw [units]; simp [hx, h1]
      · simp only [List.cons_append, List.nil_append]; rw [units]; simp [hy, h2]
    | cons c B =>
      simp only [List.cons_append] at h1 h2 ⊢
      rw [units, units]
      split
      · exact ⟨U, h1, h2⟩
      · exact ⟨b :: U, by rw [h1]; rfl, by rw [h2]; rfl⟩

theorem any_line {α : Type} {f : α → Bool} {x y : α} (h : f x = f y) (U A A' : List α) :
    (U ++ x :: A).head?.any f = (U ++ y :: A').head?.any f := by
  cases U <;> simp [h]

theorem any2_line {α : Type} {f : α → Bool} {x y : α} (h : f x = f y) (u : α) (U A A' : List α) :
    (u :: U ++ x :: A).tail.head?.any f = (u :: U ++ y :: A').tail.head?.any f := by
  cases U <;> simp [h]

theorem joins_line (ph : Bool) {x y : WSet} (hx : newlineOnly x = true) (hy : newlineOnly y = true) (B A A' C : List WSet)
    (h : B = [] → C.head?.any (fun c => (x .CR || y .CR) && c .LF) = false) :
    joins ph (B ++ x :: A) C = joins ph (B ++ y :: A') C := by
  simp only [newlineOnly, Bool.and_eq_true, Bool.not_eq_true', Bool.or_eq_false_iff] at hx hy
  cases C with
  | nil => cases B <;> rfl
  | cons c C =>
    cases B with
    | nil =>
      have h := h rfl
      simp only [List.head?_cons, Option.any_some, Bool.and_eq_false_iff, Bool.or_eq_false_iff] at h
      have h1 : (x .CR && c .LF) = false := by rcases h with h | h <;> simp [h]
      have h2 : (y .CR && c .LF) = false := by rcases h with h | h <;> simp [h]
      simp [joins, h1, h2, hx.1, hy.1]
    | cons b B =>
      obtain ⟨U, u1, u2⟩ := units_line hx.1 hy.1 (by simp [hx]) (by simp [hy]) A A' (b :: B)
      have hu : unitJoins ph (units (b :: B ++ x :: A)) c = unitJoins ph (units (b :: B ++ y :: A')) c := by
        funext n
        rw [u1, u2]
        cases U with
        | nil => simp [unitJoins, WSet.alnum, WSet.ahLetter, hx, hy]
        | cons u U =>
          simp only [unitJoins]
          rw [takeWhile_part (p := fun w : WSet => w .RegionalIndicator) (x := x) (by simp [hx]),
            takeWhile_part (p := fun w : WSet => w .RegionalIndicator) (x := y) (by simp [hy])]
          rw [any2_line (f := fun w : WSet => w.ahLetter ph) (x := x) (y := y) (A' := units A') (by simp [WSet.ahLetter, hx, hy]),
            any2_line (f := fun w : WSet => w .HebrewLetter) (x := x) (y := y) (A' := units A') (by simp [hx, hy]),
            any2_line (f := fun w : WSet => w .Numeric) (x := x) (y := y) (A' := units A') (by simp [hx, hy])]
          rfl
      simp only [List.cons_append] at hu ⊢
      simp only [joins, hu]

/-- Looking ahead over marks, letters and numbers are the same as before. -/
theorem ahead_line {f : WSet → Bool} (hf : ∀ x, newlineOnly x = true → f x = false) (b : List Char) :
    (((lineFeeds b).map wc).dropWhile (·.ignorable)).head?.any f = ((b.map wc).dropWhile (·.ignorable)).head?.any f := by
  induction b with
  | nil => rfl
  | cons c b ih =>
    obtain ⟨r, e, hr⟩ := lineFeeds_cons c b
    rw [e]
    by_cases hc : IsLineEnd c
    · have h1 := lineEnd_newline hc
      have h2 := lineEnd_newline (c := '\n') (.inr (.inl rfl))
      have f1 := hf _ h1
      have f2 := hf _ h2
      simp only [newlineOnly, Bool.and_eq_true, Bool.not_eq_true', Bool.or_eq_false_iff] at h1 h2
      simp [hc, h1, h2, f1, f2]
    · rw [if_neg hc, hr hc, List.map_cons, List.map_cons, List.dropWhile_cons, List.dropWhile_cons]
      split
      · exact ih
      · rfl

theorem newlines_words (ph : Bool) : Newlines (joins ph) wordClasses where
  left x hx B A A' C h := by
    refine joins_line ph (lineEnd_newline hx) (lineEnd_newline (.inr (.inl rfl))) B A A' _ fun hB => ?_
    rw [Bool.eq_false_iff]
    intro hC
    cases C with
    | nil => cases hC
    | cons c C =>
      simp only [List.map_cons, List.head?_cons, Option.any_some, Bool.and_eq_true, Bool.or_eq_true] at hC
      rcases hC.1 with h1 | h1
      · exact h hB (Words.cr_only h1) (by rw [Words.lf_only hC.2]; rfl)
      · exact absurd h1 (by decide +kernel)
  right a b ha := by
    cases b with
    | nil => rfl
    | cons c b =>
      obtain ⟨r, e, hr⟩ := lineFeeds_cons c b
      rw [e, List.map_cons, List.map_cons]
      by_cases hc : IsLineEnd c
      · rw [if_pos hc]
        cases hl : (a.map wc).reverse with
        | nil => rfl
        | cons g l =>
          have hg : g .CR = false := by
            have : g ∈ (a.map wc).reverse := by rw [hl]; exact List.mem_cons_self
            rw [List.mem_reverse] at this
            obtain ⟨d, hd, rfl⟩ := List.mem_map.mp this
            rw [Bool.eq_false_iff]
            intro h'
            exact ha (Words.cr_only h' ▸ hd)
          have h1 := lineEnd_newline hc
          have h2 := lineEnd_newline (c := '\n') (.inr (.inl rfl))
          simp only [newlineOnly, Bool.and_eq_true] at h1 h2
          simp [joins, hg, h1.1, h2.1]
      · rw [if_neg hc, hr hc]
        have none : ∀ x, newlineOnly x = true → x.ahLetter ph = false ∧ x .HebrewLetter = false ∧ x .Numeric = false := by
          intro x hx
          simp only [newlineOnly, Bool.and_eq_true, Bool.not_eq_true', Bool.or_eq_false_iff] at hx
          simp [WSet.ahLetter, hx]
        have h1 := ahead_line (f := (·.ahLetter ph)) (fun x hx => (none x hx).1) b
        have h2 := ahead_line (f := (· .HebrewLetter)) (fun x hx => (none x hx).2.1) b
        have h3 := ahead_line (f := (· .Numeric)) (fun x hx => (none x hx).2.2) b
        cases (a.map wc).reverse with
        | nil => rfl
        | cons g l => simp only [joins, unitJoins, h1, h2, h3]
  inside A C := by
    have h1 : wc '\r' .CR = true := by decide +kernel
    have h2 : wc '\n' .LF = true := by decide +kernel
    simp [joins, h1, h2]

/-! ## Sentences -/

theorem lineEnd_paraSep {c : Char} (h : IsLineEnd c) : (sc c).paraSep = true := by
  rcases h with rfl | rfl | rfl | rfl | rfl <;> decide +kernel

theorem paraSep_only {x : SB} (h : x.paraSep = true) : x.ignorable = false ∧ x ≠ .Sp ∧ x ≠ .Close ∧ x.saTerm = false
    ∧ x.stops = true ∧ x ≠ .Lower ∧ x ≠ .Upper ∧ x ≠ .ATerm ∧ x ≠ .Numeric ∧ x ≠ .SContinue := by
  revert h
  cases x <;> decide

theorem sunits_line {x y : SB} (hx : x.paraSep = true) (hy : y.paraSep = true) (A A' : List SB) (b : SB) (B : List SB) :
    ∃ u U, sunits (b :: B ++ x :: A) = u :: U ++ x :: sunits A ∧ sunits (b :: B ++ y :: A') = u :: U ++ y :: sunits A' := by
  induction B generalizing b with
  | nil =>
    refine ⟨b, [], ?_, ?_⟩
    · simp only [List.cons_append, List.nil_append]; rw [sunits, sunits_solid (paraSep_only hx).1]; simp [hx]
    · simp only [List.cons_append, List.nil_append]; rw [sunits, sunits_solid (paraSep_only hy).1]; simp [hy]
  | cons c B ih =>
    obtain ⟨u, U, h1, h2⟩ := ih c
    simp only [List.cons_append] at h1 h2 ⊢
    rw [sunits, sunits]
    split
    · exact ⟨u, U, h1, h2⟩
    · exact ⟨b, u :: U, by rw [h1]; rfl, by rw [h2]; rfl⟩

theorem endsClose_line {X : SB → Bool} {x y : SB} (hx : x.paraSep = true) (hy : y.paraSep = true) (h : X x = X y)
    (U V V' : List SB) : endsClose X (U ++ x :: V) = endsClose X (U ++ y :: V') := by
  unfold endsClose
  exact dropWhile_part (by simp [(paraSep_only hx).2.2.1]) (by simp [(paraSep_only hy).2.2.1]) h U V V'

theorem endsCloseSp_line {X : SB → Bool} {x y : SB} (hx : x.paraSep = true) (hy : y.paraSep = true) (h : X x = X y)
    (U V V' : List SB) : endsCloseSp X (U ++ x :: V) = endsCloseSp X (U ++ y :: V') := by
  unfold endsCloseSp
  rw [dropWhile_stay (by simp [(paraSep_only hx).2.1]), dropWhile_stay (by simp [(paraSep_only hy).2.1])]
  exact endsClose_line hx hy h _ V V'

theorem sjoinsIf_line (ahead : Bool) {x y : SB} (hx : x.paraSep = true) (hy : y.paraSep = true) (B A A' C : List SB)
    (h : B = [] → C.head?.any (fun c => (x = .CR || y = .CR) && c = .LF) = false) :
    sjoinsIf ahead (B ++ x :: A) C = sjoinsIf ahead (B ++ y :: A') C := by
  have px := paraSep_only hx
  have py := paraSep_only hy
  cases C with
  | nil => cases B <;> rfl
  | cons c C =>
    cases B with
    | nil =>
      have h := h rfl
      simp only [List.head?_cons, Option.any_some, Bool.and_eq_false_iff, Bool.or_eq_false_iff] at h
      have h1 : (decide (x = .CR) && decide (c = .LF)) = false := by rcases h with h | h <;> simp [h]
      have h2 : (decide (y = .CR) && decide (c = .LF)) = false := by rcases h with h | h <;> simp [h]
      simp only [List.nil_append, sjoinsIf, h1, h2, hx, hy]
      rfl
    | cons b B =>
      obtain ⟨u, U, u1, u2⟩ := sunits_line hx hy A A' b B
      have hu : sunitJoins ahead (sunits (b :: B ++ x :: A)) c = sunitJoins ahead (sunits (b :: B ++ y :: A')) c := by
        rw [u1, u2]
        have e1 := any2_line (f := fun w => decide (w = SB.Upper) || decide (w = .Lower)) (x := x) (y := y)
          (by simp [px, py]) u U (sunits A) (sunits A')
        have e2 := endsCloseSp_line hx hy (X := (· = .ATerm)) (by simp [px, py]) (u :: U) (sunits A) (sunits A')
        have e3 := endsCloseSp_line hx hy (X := (·.saTerm)) (by simp [px, py]) (u :: U) (sunits A) (sunits A')
        have e4 := endsClose_line hx hy (X := (·.saTerm)) (by simp [px, py]) (u :: U) (sunits A) (sunits A')
        have e5 := endsCloseSp_line hx hy (X := (·.saTerm)) (by simp [px, py]) U (sunits A) (sunits A')
        have e6 : (u :: U ++ x :: sunits A).head? = (u :: U ++ y :: sunits A').head? := rfl
        change endsCloseSp (·.saTerm) (u :: U ++ x :: sunits A).tail
          = endsCloseSp (·.saTerm) (u :: U ++ y :: sunits A').tail at e5
        generalize u :: U ++ x :: sunits A = L at *
        generalize u :: U ++ y :: sunits A' = L' at *
        unfold sunitJoins
        dsimp only
        simp only [e1, e2, e3, e4, e5, e6]
      simp only [List.cons_append] at hu ⊢
      simp only [sjoinsIf, hu]

theorem lowerAhead_line (b : List Char) : lowerAhead ((lineFeeds b).map sc) = lowerAhead (b.map sc) := by
  induction b with
  | nil => rfl
  | cons c b ih =>
    obtain ⟨r, e, hr⟩ := lineFeeds_cons c b
    rw [e]
    by_cases hc : IsLineEnd c
    · have h1 := paraSep_only (lineEnd_paraSep hc)
      have h2 := paraSep_only (lineEnd_paraSep (c := '\n') (.inr (.inl rfl)))
      simp [lowerAhead, hc, h1, h2]
    · rw [if_neg hc, hr hc, List.map_cons, List.map_cons]
      by_cases hs : (sc c).stops = true
      · simp [lowerAhead, hs]
      · rw [lowerAhead_nonstop (by simpa using hs), lowerAhead_nonstop (by simpa using hs), ih]

theorem newlines_sentences : Newlines sjoins sentenceClass where
  left x hx B A A' C h := by
    refine sjoinsIf_line _ (lineEnd_paraSep hx) (lineEnd_paraSep (.inr (.inl rfl))) B A A' _ fun hB => ?_
    rw [Bool.eq_false_iff]
    intro hC
    cases C with
    | nil => cases hC
    | cons c C =>
      simp only [List.map_cons, List.head?_cons, Option.any_some, Bool.and_eq_true, Bool.or_eq_true,
        decide_eq_true_eq] at hC
      rcases hC.1 with h1 | h1
      · exact h hB (Sentences.cr_only h1) (by rw [Sentences.lf_only hC.2]; rfl)
      · exact absurd h1 (by decide +kernel)
  right a b ha := by
    unfold sjoins
    rw [lowerAhead_line]
    generalize lowerAhead (b.map sc) = ahead
    cases b with
    | nil => rfl
    | cons c b =>
      obtain ⟨r, e, hr⟩ := lineFeeds_cons c b
      rw [e, List.map_cons, List.map_cons]
      cases hl : (a.map sc).reverse with
      | nil => rfl
      | cons g l =>
        by_cases hc : IsLineEnd c
        · rw [if_pos hc]
          have hg : g ≠ .CR := by
            have : g ∈ (a.map sc).reverse := by rw [hl]; exact List.mem_cons_self
            rw [List.mem_reverse] at this
            obtain ⟨d, hd, rfl⟩ := List.mem_map.mp this
            exact fun h' => ha (Sentences.cr_only h' ▸ hd)
          have h1 := lineEnd_paraSep hc
          have h2 := lineEnd_paraSep (c := '\n') (.inr (.inl rfl))
          have p1 := paraSep_only h1
          have p2 := paraSep_only h2
          simp [sjoinsIf, hg, sunitJoins, h1, h2, p1, p2]
        · rw [if_neg hc]; rfl
  inside A C := by
    have h1 : sc '\r' = .CR := by decide +kernel
    have h2 : sc '\n' = .LF := by decide +kernel
    simp [sjoins, sjoinsIf, h1, h2]

end Uax29
