import Verif.Proofs.JointClasses
import Verif.Spec.Levels
/-! # The rules of one level against those of another -/
set_option maxRecDepth 20000
namespace Uax29
open Spec

local notation "gc" => graphemeClasses
local notation "wc" => wordClasses
local notation "sc" => sentenceClass

/-! ## the tables -/

theorem inRanges_mem : ∀ {rs : List (Nat × Nat)} {n : Nat}, inRanges rs n = true → ∃ r ∈ rs, r.1 ≤ n ∧ n ≤ r.2 := by
  intro rs n h
  simpa [inRanges] using h

theorem gw_newline {c : Char} (h : (gc c).control = false) : (wc c).newline = false := by
  have := classes_none (fun g w _ => w.newline && !g.control) (by decide +kernel) c
  rw [h] at this
  simpa using this

theorem gw_crlf (c : Char) : gc c .CR = wc c .CR ∧ gc c .LF = wc c .LF := by
  have h1 := classes_none (fun g w _ => g .CR != w .CR) (by decide +kernel) c
  have h2 := classes_none (fun g w _ => g .LF != w .LF) (by decide +kernel) c
  exact ⟨by simpa using h1, by simpa using h2⟩

theorem w_letter {c : Char} (h : wc c .ALetter = true) : (wc c).ignorable = false := by
  have := classes_none (fun _ w _ => w .ALetter && w.ignorable) (by decide +kernel) c
  rw [h] at this
  simpa using this

theorem gw_hangul {c : Char} (h : (gc c .L || gc c .V || gc c .T || gc c .LV || gc c .LVT) = true) : wc c .ALetter = true := by
  have := classes_none (fun g w _ => (g .L || g .V || g .T || g .LV || g .LVT) && !w .ALetter) (by decide +kernel) c
  rw [h] at this
  simpa using this

theorem gw_extend {c : Char} (h : (gc c .Extend || gc c .ZWJ) = true) : (wc c).ignorable = true := by
  have := classes_none (fun g w _ => (g .Extend || g .ZWJ) && !w.ignorable) (by decide +kernel) c
  rw [h] at this
  simpa using this

theorem gw_spacing {c : Char} (h : gc c .SpacingMark = true) (h' : (wc c).ignorable = false) : c = 'ำ' ∨ c = 'ຳ' := by
  have := classes_ranges (fun g w _ => g .SpacingMark && !w.ignorable) (base := [(0xE33, 0xE33), (0xEB3, 0xEB3)])
    (by decide +kernel) c
  rw [h, h'] at this
  have h2 : c.val.toNat = 0xE33 ∨ c.val.toNat = 0xEB3 := by
    have h3 := inRanges_mem this.symm
    simp only [List.mem_cons, List.not_mem_nil, or_false] at h3
    obtain ⟨r, rfl | rfl, h4⟩ := h3 <;> dsimp only at h4 <;> omega
  exact h2.imp (fun h => Char.ext (UInt32.toNat_inj.mp h)) (fun h => Char.ext (UInt32.toNat_inj.mp h))

theorem gw_incb {c : Char} (h : (gc c .InCBExtend || gc c .InCBLinker) = true) :
    (wc c).ignorable = true ∧ (wc c).newline = false := by
  have := classes_none (fun g w _ => (g .InCBExtend || g .InCBLinker) && (!w.ignorable || w.newline)) (by decide +kernel) c
  rw [h] at this
  simpa using this

theorem gw_consonant {c : Char} (h : gc c .InCBConsonant = true) : (wc c).ignorable = false ∧ (wc c).newline = false := by
  have := classes_none (fun g w _ => g .InCBConsonant && (w.ignorable || w.newline)) (by decide +kernel) c
  rw [h] at this
  simpa using this

theorem gw_zwj {c : Char} (h : gc c .ZWJ = true) : wc c .ZWJ = true := by
  have := classes_none (fun g w _ => g .ZWJ && !w .ZWJ) (by decide +kernel) c
  rw [h] at this
  simpa using this

theorem gw_pict {c : Char} (h : gc c .ExtendedPictographic = true) : wc c .ExtendedPictographic = true := by
  have := classes_none (fun g w _ => g .ExtendedPictographic && !w .ExtendedPictographic) (by decide +kernel) c
  rw [h] at this
  simpa using this

theorem gw_indicator (c : Char) : gc c .RegionalIndicator = wc c .RegionalIndicator := by
  have := classes_none (fun g w _ => g .RegionalIndicator != w .RegionalIndicator) (by decide +kernel) c
  simpa using this

theorem w_indicator {c : Char} (h : wc c .RegionalIndicator = true) : (wc c).ignorable = false := by
  have := classes_none (fun _ w _ => w .RegionalIndicator && w.ignorable) (by decide +kernel) c
  rw [h] at this
  simpa using this

/-! ## WB4 -/

theorem units_cons {a : WSet} (h : a.ignorable = false) (l : List WSet) : units (a :: l) = a :: units l := by
  cases l with
  | nil => rfl
  | cons c l => rw [units, h]; rfl

theorem units_skip {α : Type} (f : α → WSet) {c : α} (hc : (f c).ignorable = false ∧ (f c).newline = false) (r : List α) :
    ∀ m : List α, (∀ i ∈ m, (f i).ignorable = true ∧ (f i).newline = false) →
      units ((m ++ c :: r).map f) = f c :: units (r.map f)
  | [], _ => units_cons hc.1 _
  | i :: m, h => by
    have ih := units_skip f hc r m fun j hj => h j (List.mem_cons_of_mem _ hj)
    rw [← ih]
    cases m with
    | nil =>
      simp only [List.nil_append, List.map_cons, List.cons_append]
      rw [units, (h i (by simp)).1, hc.2]
      rfl
    | cons j m =>
      simp only [List.map_cons, List.cons_append]
      rw [units, (h i (by simp)).1, (h j (by simp)).2]
      rfl

/-- The nearest unit is the character before the ignorable ones, or an ignorable one at the start of the text or
after a newline. -/
theorem units_cases {α : Type} (f : α → WSet) : ∀ (x : α) (l : List α), ∃ m u r, x :: l = m ++ u :: r
    ∧ (∀ i ∈ m, (f i).ignorable = true) ∧ units ((x :: l).map f) = f u :: units (r.map f)
    ∧ ((f u).ignorable = true → r = [] ∨ ∃ z r', r = z :: r' ∧ (f z).newline = true)
  | x, [] => ⟨[], x, [], rfl, by simp, rfl, fun _ => .inl rfl⟩
  | x, z :: l => by
    by_cases h : ((f x).ignorable && !(f z).newline) = true
    · obtain ⟨m, u, r, h1, h2, h3, h4⟩ := units_cases f z l
      simp only [Bool.and_eq_true, Bool.not_eq_true'] at h
      refine ⟨x :: m, u, r, by rw [h1]; rfl, ?_, ?_, h4⟩
      · intro i hi
        rcases List.mem_cons.mp hi with rfl | hi
        · exact h.1
        · exact h2 i hi
      · rw [← h3, List.map_cons, List.map_cons, units, h.1, h.2]
        rfl
    · refine ⟨[], x, z :: l, rfl, by simp, ?_, fun hx => .inr ⟨z, l, rfl, ?_⟩⟩
      · rw [List.map_cons, List.map_cons, units, if_neg h]
      · rw [hx] at h
        simpa using h

/-! ## words and graphemes -/

theorem joins_of {a b : WSet} {l r : List WSet} (ha : a.newline = false) (hb : b.newline = false)
    (h : (a .ZWJ && b .ExtendedPictographic) = true ∨ b.ignorable = true
      ∨ ∀ n, unitJoins false (units (a :: l)) b n = true) : joins false (a :: l) (b :: r) = true := by
  unfold joins
  dsimp only
  by_cases h1 : (a .CR && b .LF) = true
  · rw [if_pos h1]
  rw [if_neg h1, if_neg (by rw [ha, hb]; decide)]
  by_cases h2 : (a .ZWJ && b .ExtendedPictographic) = true
  · rw [if_pos h2]
  rw [if_neg h2]
  by_cases h3 : (a .WSegSpace && b .WSegSpace) = true
  · rw [if_pos h3]
  rw [if_neg h3]
  by_cases h4 : b.ignorable = true
  · rw [if_pos h4]
  rw [if_neg h4]
  rcases h with h | h | h
  · exact absurd h h2
  · exact absurd h h4
  · exact h _

theorem unitJoins_letters {a b : WSet} {l : List WSet} (ha : a .ALetter = true) (hb : b .ALetter = true) (n : Option WSet) :
    unitJoins false (a :: l) b n = true := by
  simp [unitJoins, WSet.alnum, WSet.ahLetter, ha, hb]

theorem unitJoins_flag {b : WSet} {l : List WSet} (ha : (l.takeWhile (· .RegionalIndicator)).length % 2 = 1)
    (hb : b .RegionalIndicator = true) (n : Option WSet) : unitJoins false l b n = true := by
  simp [unitJoins, ha, hb]

theorem takeWhile_split {α : Type} (p : α → Bool) : ∀ l : List α, ∃ m r, l = m ++ r ∧ l.takeWhile p = m
    ∧ (∀ i ∈ m, p i = true) ∧ r.head?.any p = false
  | [] => ⟨[], [], rfl, rfl, by simp, rfl⟩
  | x :: l => by
    by_cases h : p x = true
    · obtain ⟨m, r, h1, h2, h3, h4⟩ := takeWhile_split p l
      refine ⟨x :: m, r, by rw [h1]; rfl, by rw [List.takeWhile_cons, h, h2]; rfl, ?_, h4⟩
      intro i hi
      rcases List.mem_cons.mp hi with rfl | hi
      · exact h
      · exact h3 i hi
    · refine ⟨[], x :: l, rfl, by rw [List.takeWhile_cons, if_neg h], by simp, ?_⟩
      simpa using h

theorem units_flags {α : Type} (f : α → WSet) (r : List α) : ∀ m : List α, (∀ i ∈ m, (f i).ignorable = false) →
    units ((m ++ r).map f) = m.map f ++ units (r.map f)
  | [], _ => rfl
  | i :: m, h => by
    rw [List.cons_append, List.map_cons, units_cons (h i (by simp)), units_flags f r m fun j hj => h j (List.mem_cons_of_mem _ hj)]
    rfl

theorem takeWhile_map_append {α : Type} (p : α → Bool) {m : List α} (h : ∀ i ∈ m, p i = true) (r : List α) :
    (m ++ r).takeWhile p = m ++ r.takeWhile p := by
  induction m with
  | nil => rfl
  | cons x m ih =>
    rw [List.cons_append, List.takeWhile_cons, h x (by simp), ih fun i hi => h i (List.mem_cons_of_mem _ hi)]
    rfl

/-- Where the grapheme rules join, the word rules do, but for the exceptions. -/
theorem words_of_graphemes {x y : Char} {l b : List Char}
    (h : graphemeJoins ((x :: l).map gc) ((y :: b).map gc) = true) :
    joins false ((x :: l).map wc) ((y :: b).map wc) = true ∨ WordCutsGrapheme (x :: l).reverse (y :: b) := by
  rw [List.map_cons, List.map_cons] at h
  unfold graphemeJoins at h
  dsimp only at h
  split at h
  · rename_i hcr
    rw [(gw_crlf x).1, (gw_crlf y).2] at hcr
    exact .inl (by simp only [List.map_cons, joins]; rw [if_pos hcr])
  split at h
  · cases h
  rename_i hcr hctl
  simp only [Bool.or_eq_true, not_or, Bool.not_eq_true] at hctl
  have hx := gw_newline hctl.1
  have hy := gw_newline hctl.2
  have letters : (gc x .L || gc x .V || gc x .T || gc x .LV || gc x .LVT) = true →
      (gc y .L || gc y .V || gc y .T || gc y .LV || gc y .LVT) = true → joins false ((x :: l).map wc) ((y :: b).map wc) = true := by
    intro h1 h2
    refine joins_of hx hy (.inr (.inr fun n => ?_))
    have hl := gw_hangul h1
    rw [units_cons (w_letter hl)]
    exact unitJoins_letters hl (gw_hangul h2) n
  simp only [Bool.or_eq_true, Bool.and_eq_true] at h
  rcases h with (((((((h | h) | h) | h) | h) | h) | h) | h) | h
  · exact .inl (letters (by simp [h.1]) (by simp only [Bool.or_eq_true]; rcases h.2 with ((h | h) | h) | h <;> simp [h]))
  · exact .inl (letters (by simp only [Bool.or_eq_true]; rcases h.1 with h | h <;> simp [h])
      (by simp only [Bool.or_eq_true]; rcases h.2 with h | h <;> simp [h]))
  · exact .inl (letters (by simp only [Bool.or_eq_true]; rcases h.1 with h | h <;> simp [h]) (by simp [h.2]))
  · exact .inl (joins_of hx hy (.inr (.inl (gw_extend (by simpa using h)))))
  · by_cases hi : (wc y).ignorable = true
    · exact .inl (joins_of hx hy (.inr (.inl hi)))
    · rw [List.reverse_cons]
      exact .inr (.saraAm _ _ _ _ hctl.1 (gw_spacing h (by simpa using hi)))
  · refine .inr ?_
    rw [List.reverse_cons]
    exact .prepend _ _ _ _ h hctl.2
  · obtain ⟨h1, h2⟩ := h
    rw [← List.map_cons (f := gc), conjunct, List.takeWhile_map] at h1
    obtain ⟨m, r, hm, ht, hmi, -⟩ := takeWhile_split ((fun g : GSet => g .InCBExtend || g .InCBLinker) ∘ gc) (x :: l)
    rw [ht, hm, List.length_map, ← List.map_drop, List.drop_left] at h1
    simp only [Bool.and_eq_true] at h1
    cases r with
    | nil => simp at h1
    | cons c r =>
      have hc : gc c .InCBConsonant = true := by simpa using h1.2
      by_cases hl : wc c .ALetter = true ∧ wc y .ALetter = true
      · refine .inl (joins_of hx hy (.inr (.inr fun n => ?_)))
        rw [← List.map_cons, hm, units_skip wc (gw_consonant hc) r m fun i hi => gw_incb (hmi i hi)]
        exact unitJoins_letters hl.1 hl.2 n
      · refine .inr ?_
        rw [hm, List.reverse_append, List.reverse_cons, List.append_assoc]
        exact .conjunct _ _ _ _ _ hc (fun i hi => by simpa using hmi i (List.mem_reverse.mp hi)) (by simpa using h1.1) h2 hl
  · refine .inl (joins_of hx hy (.inl ?_))
    have hz : gc x .ZWJ = true := by
      have := h.1
      simp only [pictographZwj, List.head?_cons, Option.any_some, Bool.and_eq_true] at this
      exact this.1
    rw [gw_zwj hz, gw_pict h.2]
    rfl
  · obtain ⟨h1, h2⟩ := h
    rw [gw_indicator] at h2
    rw [← List.map_cons (f := gc), oddIndicators, List.takeWhile_map, List.length_map, decide_eq_true_eq] at h1
    rw [show ((fun g : GSet => g .RegionalIndicator) ∘ gc) = fun c => wc c .RegionalIndicator from
      funext fun c => gw_indicator c] at h1
    obtain ⟨m, r, hm, ht, hmi, hr⟩ := takeWhile_split (fun c => wc c .RegionalIndicator) (x :: l)
    rw [ht] at h1
    have key : ((units (r.map wc)).takeWhile (· .RegionalIndicator)) = [] →
        joins false ((x :: l).map wc) ((y :: b).map wc) = true := by
      intro h0
      refine joins_of hx hy (.inr (.inr fun n => unitJoins_flag ?_ h2 n))
      rw [← List.map_cons, hm, units_flags wc r m fun i hi => w_indicator (hmi i hi), takeWhile_map_append _ (by
        intro i hi
        obtain ⟨j, hj, rfl⟩ := List.mem_map.mp hi
        exact hmi j hj), h0, List.append_nil, List.length_map]
      exact h1
    cases r with
    | nil => exact .inl (key rfl)
    | cons z r =>
      obtain ⟨m', u, r', hm', hi', hu, _⟩ := units_cases wc z r
      by_cases hz : wc u .RegionalIndicator = true
      · have hne : m' ≠ [] := by
          intro h0
          subst h0
          cases hm'
          simp only [List.head?_cons, Option.any_some] at hr
          rw [hr] at hz
          cases hz
        refine .inr ?_
        rw [hm, hm']
        simp only [List.reverse_append, List.reverse_cons, List.append_assoc, List.singleton_append]
        rw [← List.append_assoc]
        exact .flags _ _ _ _ _ _ hz (by simpa using hne) (fun i hi => hi' i (List.mem_reverse.mp hi))
          (fun i hi => hmi i (List.mem_reverse.mp hi)) (by rw [List.length_reverse]; exact h1) h2
      · refine .inl (key ?_)
        rw [hu, List.takeWhile_cons, if_neg hz]

/-! ## sentences and graphemes -/

/-- Values that do not let a sentence end. -/
def SB.plain (x : SB) : Bool := !(x.saTerm || x.paraSep || x = .Close || x = .Sp)

theorem gs_crlf (c : Char) : gc c .CR = decide (sc c = .CR) ∧ gc c .LF = decide (sc c = .LF) := by
  have h1 := classes_none (fun g _ s => g .CR != decide (s = .CR)) (by decide +kernel) c
  have h2 := classes_none (fun g _ s => g .LF != decide (s = .LF)) (by decide +kernel) c
  exact ⟨by simpa using h1, by simpa using h2⟩

theorem gs_paraSep {c : Char} (h : (gc c).control = false) : (sc c).paraSep = false := by
  have := classes_none (fun g _ s => s.paraSep && !g.control) (by decide +kernel) c
  rw [h] at this
  simpa using this

theorem gs_extend {c : Char} (h : (gc c .Extend || gc c .ZWJ || gc c .SpacingMark) = true) (h' : (sc c).ignorable = false) :
    (c = 'ำ' ∨ c = 'ຳ') ∨ (0x1F3FB ≤ c.toNat ∧ c.toNat ≤ 0x1F3FF) := by
  have := classes_ranges (fun g _ s => (g .Extend || g .ZWJ || g .SpacingMark) && !s.ignorable)
    (base := [(0xE33, 0xE33), (0xEB3, 0xEB3), (0x1F3FB, 0x1F3FF)]) (by decide +kernel) c
  rw [h, h'] at this
  have h3 := inRanges_mem this.symm
  simp only [List.mem_cons, List.not_mem_nil, or_false] at h3
  obtain ⟨r, rfl | rfl | rfl, h4⟩ := h3
  · exact .inl (.inl (Char.ext (UInt32.toNat_inj.mp (show c.val.toNat = 0xE33 by dsimp only at h4; omega))))
  · exact .inl (.inr (Char.ext (UInt32.toNat_inj.mp (show c.val.toNat = 0xEB3 by dsimp only at h4; omega))))
  · exact .inr h4

theorem gs_prepend {c : Char} (h : gc c .Prepend = true) : c = '܏' ∨ ((sc c).ignorable = false ∧ SB.plain (sc c) = true) := by
  have := classes_ranges (fun g _ s => g .Prepend && (s.ignorable || !SB.plain s)) (base := [(0x70F, 0x70F)]) (by decide +kernel) c
  rw [h] at this
  by_cases hp : ((sc c).ignorable || !SB.plain (sc c)) = true
  · rw [hp] at this
    have h3 := inRanges_mem this.symm
    simp only [List.mem_cons, List.not_mem_nil, or_false] at h3
    obtain ⟨r, rfl, h4⟩ := h3
    exact .inl (Char.ext (UInt32.toNat_inj.mp (show c.val.toNat = 0x70F by dsimp only at h4; omega)))
  · exact .inr (by simpa using hp)

theorem gs_letter {c : Char}
    (h : (gc c .L || gc c .V || gc c .T || gc c .LV || gc c .LVT || gc c .InCBConsonant || gc c .RegionalIndicator) = true) :
    (sc c).ignorable = false ∧ SB.plain (sc c) = true := by
  have := classes_none (fun g _ s => (g .L || g .V || g .T || g .LV || g .LVT || g .InCBConsonant || g .RegionalIndicator)
    && (s.ignorable || !SB.plain s)) (by decide +kernel) c
  rw [h] at this
  simpa using this

theorem gs_mark {c : Char} (h : (gc c .InCBExtend || gc c .InCBLinker || gc c .Extend || gc c .ZWJ) = true) :
    SB.plain (sc c) = true := by
  have := classes_none (fun g _ s => (g .InCBExtend || g .InCBLinker || g .Extend || g .ZWJ) && !SB.plain s) (by decide +kernel) c
  rw [h] at this
  simpa using this

theorem gs_pict {c : Char} (h : gc c .ExtendedPictographic = true) :
    (c = '‼' ∨ c = '⁉') ∨ ((sc c).ignorable = false ∧ SB.plain (sc c) = true) := by
  have := classes_ranges (fun g _ s => g .ExtendedPictographic && (s.ignorable || !SB.plain s))
    (base := [(0x203C, 0x203C), (0x2049, 0x2049)]) (by decide +kernel) c
  rw [h] at this
  by_cases hp : ((sc c).ignorable || !SB.plain (sc c)) = true
  · rw [hp] at this
    have h3 := inRanges_mem this.symm
    simp only [List.mem_cons, List.not_mem_nil, or_false] at h3
    obtain ⟨r, rfl | rfl, h4⟩ := h3
    · exact .inl (.inl (Char.ext (UInt32.toNat_inj.mp (show c.val.toNat = 0x203C by dsimp only at h4; omega))))
    · exact .inl (.inr (Char.ext (UInt32.toNat_inj.mp (show c.val.toNat = 0x2049 by dsimp only at h4; omega))))
  · exact .inr (by simpa using hp)

theorem plain_paraSep {x : SB} (h : SB.plain x = true) : x.paraSep = false := by
  revert h; cases x <;> decide

theorem sunits_skip : ∀ {m : List SB} {v : SB} (_ : v.paraSep = false) (_ : ∀ i ∈ m, i.ignorable = true) (l : List SB),
    sunits (m ++ v :: l) = sunits (v :: l)
  | [], _, _, _, _ => rfl
  | [a], v, hv, hm, l => by
    rw [List.singleton_append, sunits, hm a (by simp), hv]
    rfl
  | a :: a' :: m, v, hv, hm, l => by
    have ha' : a'.paraSep = false := by
      have := hm a' (by simp)
      revert this
      cases a' <;> decide
    rw [List.cons_append, List.cons_append, sunits, hm a (by simp), ha']
    exact sunits_skip hv (fun i hi => hm i (List.mem_cons_of_mem _ hi)) l

theorem sunits_cons {a : SB} (h : a.ignorable = false) (l : List SB) : sunits (a :: l) = a :: sunits l := by
  cases l with
  | nil => rfl
  | cons c l => rw [sunits, h]; rfl

/-- The nearest unit does not let a sentence end. -/
theorem sunits_plain {α : Type} (f : α → SB) {c : α} (hc : (f c).ignorable = false ∧ SB.plain (f c) = true) (r : List α) :
    ∀ m : List α, (∀ i ∈ m, SB.plain (f i) = true) →
      ∃ z t, sunits ((m ++ c :: r).map f) = z :: t ∧ SB.plain z = true
  | [], _ => ⟨f c, _, sunits_cons hc.1 _, hc.2⟩
  | i :: m, h => by
    obtain ⟨z, t, h1, h2⟩ := sunits_plain f hc r m fun j hj => h j (List.mem_cons_of_mem _ hj)
    by_cases hi : (f i).ignorable = true
    · refine ⟨z, t, ?_, h2⟩
      rw [← h1]
      cases m with
      | nil =>
        simp only [List.nil_append, List.map_cons, List.cons_append]
        rw [sunits, hi, plain_paraSep hc.2]
        rfl
      | cons j m =>
        simp only [List.map_cons, List.cons_append]
        rw [sunits, hi, plain_paraSep (h j (by simp))]
        rfl
    · exact ⟨f i, _, sunits_cons (by simpa using hi) _, h i (by simp)⟩

theorem sunitJoins_plain {z : SB} (hz : SB.plain z = true) (t : List SB) (ah : Bool) (b : SB) :
    sunitJoins ah (z :: t) b = true := by
  have h1 : endsClose (·.saTerm) (z :: t) = false := by
    revert hz; cases z <;> simp [SB.plain, endsClose, SB.saTerm, SB.paraSep]
  have h2 : endsCloseSp (·.saTerm) (z :: t) = false := by
    revert hz; cases z <;> simp [SB.plain, endsCloseSp, endsClose, SB.saTerm, SB.paraSep]
  have h3 : z.paraSep = false := plain_paraSep hz
  simp [sunitJoins, h1, h2, h3]

theorem sjoins_of {a b : SB} {l r : List SB} (ha : a.paraSep = false)
    (h : b.ignorable = true ∨ ∃ z t, sunits (a :: l) = z :: t ∧ SB.plain z = true) : sjoins (a :: l) (b :: r) = true := by
  unfold sjoins sjoinsIf
  dsimp only
  split
  · rfl
  rw [if_neg (by simp [ha])]
  split
  · rfl
  rename_i hb
  rcases h with h | ⟨z, t, h, hz⟩
  · exact absurd h hb
  · rw [h, sunitJoins_plain hz]

/-- Where the grapheme rules join, the sentence rules do, but for the exceptions. -/
theorem sentences_of_graphemes {x y : Char} {l b : List Char}
    (h : graphemeJoins ((x :: l).map gc) ((y :: b).map gc) = true) :
    sjoins ((x :: l).map sc) ((y :: b).map sc) = true ∨ SentenceCutsGrapheme (x :: l).reverse (y :: b) := by
  rw [List.map_cons, List.map_cons] at h
  unfold graphemeJoins at h
  dsimp only at h
  split at h
  · rename_i hcr
    rw [(gs_crlf x).1, (gs_crlf y).2] at hcr
    refine .inl ?_
    simp only [List.map_cons, sjoins, sjoinsIf]
    rw [if_pos (by simpa using hcr)]
  split at h
  · cases h
  rename_i hcr hctl
  simp only [Bool.or_eq_true, not_or, Bool.not_eq_true] at hctl
  have hx := gs_paraSep hctl.1
  have letters : (gc x .L || gc x .V || gc x .T || gc x .LV || gc x .LVT || gc x .InCBConsonant || gc x .RegionalIndicator) = true →
      sjoins ((x :: l).map sc) ((y :: b).map sc) = true := by
    intro h1
    exact sjoins_of hx (.inr (sunits_plain sc (gs_letter h1) l [] (by simp)))
  simp only [Bool.or_eq_true, Bool.and_eq_true] at h
  rcases h with (((((((h | h) | h) | h) | h) | h) | h) | h) | h
  · exact .inl (letters (by simp [h.1]))
  · exact .inl (letters (by simp only [Bool.or_eq_true]; rcases h.1 with h | h <;> simp [h]))
  · exact .inl (letters (by simp only [Bool.or_eq_true]; rcases h.1 with h | h <;> simp [h]))
  · by_cases hi : (sc y).ignorable = true
    · exact .inl (sjoins_of hx (.inl hi))
    · rcases gs_extend (c := y) (by simp only [Bool.or_eq_true]; rcases h with h | h <;> simp [h]) (by simpa using hi) with h | h <;>
        rw [List.reverse_cons]
      · exact .inr (.saraAm _ _ _ _ hctl.1 h)
      · exact .inr (.modifier _ _ _ _ hctl.1 h)
  · by_cases hi : (sc y).ignorable = true
    · exact .inl (sjoins_of hx (.inl hi))
    · rcases gs_extend (c := y) (by simp [h]) (by simpa using hi) with h | h <;>
        rw [List.reverse_cons]
      · exact .inr (.saraAm _ _ _ _ hctl.1 h)
      · exact .inr (.modifier _ _ _ _ hctl.1 h)
  · rcases gs_prepend h with rfl | h
    · rw [List.reverse_cons]
      exact .inr (.abbreviation _ _ _ hctl.2)
    · exact .inl (sjoins_of hx (.inr (sunits_plain sc h l [] (by simp))))
  · obtain ⟨h1, h2⟩ := h
    rw [← List.map_cons (f := gc), conjunct, List.takeWhile_map] at h1
    obtain ⟨m, r, hm, ht, hmi, -⟩ := takeWhile_split ((fun g : GSet => g .InCBExtend || g .InCBLinker) ∘ gc) (x :: l)
    rw [ht, hm, List.length_map, ← List.map_drop, List.drop_left] at h1
    simp only [Bool.and_eq_true] at h1
    cases r with
    | nil => simp at h1
    | cons c r =>
      have hc : gc c .InCBConsonant = true := by simpa using h1.2
      refine .inl (sjoins_of hx (.inr ?_))
      rw [← List.map_cons, hm]
      refine sunits_plain sc (gs_letter (by simp [hc])) r m fun i hi => gs_mark ?_
      have := hmi i hi
      simp only [Function.comp, Bool.or_eq_true] at this
      simp only [Bool.or_eq_true]
      rcases this with h | h <;> simp [h]
  · obtain ⟨h1, h2⟩ := h
    simp only [pictographZwj, List.head?_cons, Option.any_some, List.tail_cons, Bool.and_eq_true] at h1
    obtain ⟨hz, h1⟩ := h1
    rw [List.dropWhile_map] at h1
    obtain ⟨m, r, hm, ht, hmi, -⟩ := takeWhile_split ((fun g : GSet => g .Extend) ∘ gc) l
    have hdr : l.dropWhile ((fun g : GSet => g .Extend) ∘ gc) = r := by
      have := List.takeWhile_append_dropWhile (p := (fun g : GSet => g .Extend) ∘ gc) (l := l)
      rw [ht] at this
      exact List.append_cancel_left (this.trans hm)
    rw [hdr] at h1
    cases r with
    | nil => simp at h1
    | cons t r =>
      have hp : gc t .ExtendedPictographic = true := by simpa using h1
      rcases gs_pict hp with h | h
      · refine .inr ?_
        rw [hm, List.reverse_cons, List.reverse_append, List.reverse_cons, List.append_assoc r.reverse, List.singleton_append]
        exact .exclamation _ _ _ _ _ _ h (fun i hi => hmi i (List.mem_reverse.mp hi)) hz h2
      · refine .inl (sjoins_of hx (.inr ?_))
        rw [← List.map_cons, hm, ← List.cons_append]
        refine sunits_plain sc h r (x :: m) fun i hi => gs_mark ?_
        rcases List.mem_cons.mp hi with rfl | hi
        · simp [hz]
        · have := hmi i hi
          simp only [Function.comp] at this
          simp [this]
  · refine .inl (letters ?_)
    have h1 := h.1
    rw [oddIndicators, List.takeWhile_cons] at h1
    split at h1
    · rename_i hr
      simp [hr]
    · simp at h1

/-! ## sentences and words -/

/-- Values that no rule from WB5 on joins to the right. -/
def Spec.WSet.inert (w : WSet) : Bool :=
  !(w .ALetter || w .HebrewLetter || w .Numeric || w .Katakana || w .ExtendNumLet || w .RegionalIndicator
    || w .MidLetter || w .MidNum || w .MidNumLet || w .SingleQuote || w .DoubleQuote)

/-- Values before which a sentence may end. -/
def SB.ending (x : SB) : Bool := x.saTerm || x = .Close || x = .Sp

theorem ws_crlf (c : Char) : wc c .CR = decide (sc c = .CR) ∧ wc c .LF = decide (sc c = .LF) := by
  have h1 := classes_none (fun _ w s => w .CR != decide (s = .CR)) (by decide +kernel) c
  have h2 := classes_none (fun _ w s => w .LF != decide (s = .LF)) (by decide +kernel) c
  exact ⟨by simpa using h1, by simpa using h2⟩

theorem ws_paraSep {c : Char} (h : (wc c).newline = false) : (sc c).paraSep = false := by
  have := classes_none (fun _ w s => s.paraSep && !w.newline) (by decide +kernel) c
  rw [h] at this
  simpa using this

theorem ws_space {c : Char} (h : wc c .WSegSpace = true) : sc c = .Sp := by
  have := classes_none (fun _ w s => w .WSegSpace && !decide (s = .Sp)) (by decide +kernel) c
  rw [h] at this
  simpa using this

theorem ws_ignorable {c : Char} (h : (wc c).ignorable = true) (h' : (sc c).ignorable = false) :
    0x1F3FB ≤ c.toNat ∧ c.toNat ≤ 0x1F3FF := by
  have := classes_ranges (fun _ w s => w.ignorable && !s.ignorable) (base := [(0x1F3FB, 0x1F3FF)]) (by decide +kernel) c
  rw [h, h'] at this
  have h3 := inRanges_mem this.symm
  simp only [List.mem_cons, List.not_mem_nil, or_false] at h3
  obtain ⟨r, rfl, h4⟩ := h3
  exact h4

theorem w_inert {c : Char} (h : (wc c).ignorable = true) : (wc c).inert = true := by
  have := classes_none (fun _ w _ => w.ignorable && !w.inert) (by decide +kernel) c
  rw [h] at this
  simpa using this

theorem ws_inert {c : Char} (h : (sc c).ignorable = true) (h' : (wc c).inert = false) : c = '܏' := by
  have := classes_ranges (fun _ w s => s.ignorable && !w.inert) (base := [(0x70F, 0x70F)]) (by decide +kernel) c
  rw [h, h'] at this
  have h3 := inRanges_mem this.symm
  simp only [List.mem_cons, List.not_mem_nil, or_false] at h3
  obtain ⟨r, rfl, h4⟩ := h3
  exact Char.ext (UInt32.toNat_inj.mp (show c.val.toNat = 0x70F by dsimp only at h4; omega))

theorem w_abbreviation : wc '܏' .HebrewLetter = false ∧ wc '܏' .Numeric = false := by decide +kernel

theorem ws_ending {c : Char} (h : SB.ending (sc c) = true) : (wc c).ignorable = false ∧ wc c .ALetter = false
    ∧ wc c .HebrewLetter = false ∧ wc c .Numeric = false ∧ wc c .Katakana = false ∧ wc c .RegionalIndicator = false := by
  have := classes_none (fun _ w s => SB.ending s && (w.ignorable || w .ALetter || w .HebrewLetter || w .Numeric || w .Katakana
    || w .RegionalIndicator)) (by decide +kernel) c
  rw [h] at this
  simpa [and_assoc] using this

theorem ws_narrow {c : Char} (h : SB.ending (sc c) = true) (h' : wc c .ExtendNumLet = true) : c = '\u202F' := by
  have := classes_ranges (fun _ w s => SB.ending s && w .ExtendNumLet) (base := [(0x202F, 0x202F)]) (by decide +kernel) c
  rw [h, h'] at this
  have h3 := inRanges_mem this.symm
  simp only [List.mem_cons, List.not_mem_nil, or_false] at h3
  obtain ⟨r, rfl, h4⟩ := h3
  exact Char.ext (UInt32.toNat_inj.mp (show c.val.toNat = 0x202F by dsimp only at h4; omega))

theorem s_aterm {c : Char} (h : sc c = .ATerm) : c = '.' ∨ c = '․' ∨ c = '﹒' ∨ c = '．' := by
  have := classes_ranges (fun _ _ s => decide (s = .ATerm))
    (base := [(0x2E, 0x2E), (0x2024, 0x2024), (0xFE52, 0xFE52), (0xFF0E, 0xFF0E)]) (by decide +kernel) c
  rw [h] at this
  have h3 := inRanges_mem this.symm
  simp only [List.mem_cons, List.not_mem_nil, or_false] at h3
  obtain ⟨r, rfl | rfl | rfl | rfl, h4⟩ := h3
  · exact .inl (Char.ext (UInt32.toNat_inj.mp (show c.val.toNat = 0x2E by dsimp only at h4; omega)))
  · exact .inr (.inl (Char.ext (UInt32.toNat_inj.mp (show c.val.toNat = 0x2024 by dsimp only at h4; omega))))
  · exact .inr (.inr (.inl (Char.ext (UInt32.toNat_inj.mp (show c.val.toNat = 0xFE52 by dsimp only at h4; omega)))))
  · exact .inr (.inr (.inr (Char.ext (UInt32.toNat_inj.mp (show c.val.toNat = 0xFF0E by dsimp only at h4; omega)))))

theorem ws_midLetter {c : Char} (h : SB.ending (sc c) = true) (h' : (wc c).midLetter = true) : sc c = .ATerm ∨ sc c = .Close := by
  have := classes_none (fun _ w s => SB.ending s && w.midLetter && !(decide (s = .ATerm) || decide (s = .Close))) (by decide +kernel) c
  rw [h, h'] at this
  by_cases h1 : sc c = .ATerm
  · exact .inl h1
  · right
    simpa [h1] using this

theorem ws_midNum {c : Char} (h : SB.ending (sc c) = true) (h' : (wc c).midNum = true) :
    sc c = .ATerm ∨ sc c = .Close ∨ c = '։' := by
  have := classes_ranges (fun _ w s => SB.ending s && w.midNum && !(decide (s = .ATerm) || decide (s = .Close)))
    (base := [(0x589, 0x589)]) (by decide +kernel) c
  rw [h, h'] at this
  by_cases h1 : sc c = .ATerm
  · exact .inl h1
  by_cases h2 : sc c = .Close
  · exact .inr (.inl h2)
  rw [decide_eq_false h1, decide_eq_false h2] at this
  have h3 := inRanges_mem this.symm
  simp only [List.mem_cons, List.not_mem_nil, or_false] at h3
  obtain ⟨r, rfl, h4⟩ := h3
  exact .inr (.inr (Char.ext (UInt32.toNat_inj.mp (show c.val.toNat = 0x589 by dsimp only at h4; omega))))

theorem ws_doubleQuote {c : Char} (h' : wc c .DoubleQuote = true) : sc c = .Close := by
  have := classes_none (fun _ w s => w .DoubleQuote && !decide (s = .Close)) (by decide +kernel) c
  rw [h'] at this
  simpa using this

theorem ws_numeric {c : Char} (h' : wc c .Numeric = true) : sc c = .Numeric := by
  have := classes_none (fun _ w s => w .Numeric && !decide (s = .Numeric)) (by decide +kernel) c
  rw [h'] at this
  simpa using this

/-- A letter and nothing else for the rules from WB5 on. -/
def Spec.WSet.onlyLetter (ph : Bool) (w : WSet) : Bool :=
  w.ahLetter ph && !(w .HebrewLetter || w .Numeric || w .Katakana || w .ExtendNumLet || w .RegionalIndicator || w.midLetter || w.midNum
    || w .DoubleQuote)

theorem onlyLetter_abbreviation (ph : Bool) : (wc '܏').onlyLetter ph = true := by cases ph <;> decide +kernel

theorem onlyLetter_pictograph {c : Char} (h : wc c .ExtendedPictographic = true) : (wc c).onlyLetter true = true := by
  have := classes_none (fun _ w _ => w .ExtendedPictographic && !w.onlyLetter true) (by decide +kernel) c
  rw [h] at this
  simpa using this

theorem unitJoins_onlyLetter {ph : Bool} {w : WSet} (h : w.onlyLetter ph = true) (l : List WSet) (b : WSet) (n : Option WSet) :
    unitJoins ph (w :: l) b n = true ↔
      b.alnum ph = true ∨ b .ExtendNumLet = true ∨ b.midLetter = true ∧ n.any (·.ahLetter ph) = true := by
  simp only [WSet.onlyLetter, Bool.and_eq_true, Bool.not_eq_true', Bool.or_eq_false_iff] at h
  obtain ⟨h1, ⟨⟨⟨⟨⟨⟨h2, h3⟩, h4⟩, h5⟩, h6⟩, h7⟩, h8⟩, h9⟩ := h
  have h10 : w.alnum ph = true := by simp [WSet.alnum, h1]
  simp only [unitJoins, List.head?_cons, Option.any_some, h1, h2, h3, h4, h5, h6, h7, h8, h9, h10,
    List.takeWhile_cons, Bool.false_eq_true, if_false, List.length_nil, Nat.zero_mod, Nat.zero_ne_one, decide_false,
    Bool.or_false, Bool.true_and, Bool.and_false, Bool.false_and, Bool.or_eq_true, Bool.and_eq_true]
  grind

theorem head_dropWhile (b : List Char) (f : WSet → Bool) : (((b.map wc).dropWhile (·.ignorable)).head?).any f
    = (b.dropWhile fun c => (wc c).ignorable).head?.any fun c => f (wc c) := by
  rw [List.dropWhile_map, List.head?_map, Option.any_map]
  rfl

/-- The nearest unit of SB5. -/
theorem sunits_cases {α : Type} (f : α → SB) : ∀ (x : α) (l : List α), ∃ m u r, x :: l = m ++ u :: r
    ∧ (∀ i ∈ m, (f i).ignorable = true) ∧ sunits ((x :: l).map f) = f u :: sunits (r.map f)
    ∧ (m = [] ∨ (f u).paraSep = false)
  | x, [] => ⟨[], x, [], rfl, by simp, rfl, .inl rfl⟩
  | x, z :: l => by
    by_cases h : ((f x).ignorable && !(f z).paraSep) = true
    · obtain ⟨m, u, r, h1, h2, h3, h4⟩ := sunits_cases f z l
      simp only [Bool.and_eq_true, Bool.not_eq_true'] at h
      refine ⟨x :: m, u, r, by rw [h1]; rfl, ?_, ?_, .inr ?_⟩
      · intro i hi
        rcases List.mem_cons.mp hi with rfl | hi
        · exact h.1
        · exact h2 i hi
      · rw [← h3, List.map_cons, List.map_cons, sunits, h.1, h.2]
        rfl
      · rcases h4 with rfl | h4
        · cases h1
          exact h.2
        · exact h4
    · refine ⟨[], x, z :: l, rfl, by simp, ?_, .inl rfl⟩
      rw [List.map_cons, List.map_cons, sunits, if_neg h]

/-- Two ways to split a list. -/
theorem split_cases {α : Type} : ∀ {m n : List α} {u t : α} {r q : List α}, m ++ u :: r = n ++ t :: q →
    u ∈ n ∨ (t ∈ m) ∨ (m = n ∧ u = t ∧ r = q)
  | [], [], _, _, _, _, h => by cases h; exact .inr (.inr ⟨rfl, rfl, rfl⟩)
  | [], _ :: _, _, _, _, _, h => by cases h; exact .inl (by simp)
  | _ :: _, [], _, _, _, _, h => by cases h; exact .inr (.inl (by simp))
  | a :: m, b :: n, _, _, _, _, h => by
    simp only [List.cons_append, List.cons.injEq] at h
    obtain ⟨rfl, h⟩ := h
    rcases split_cases h with h | h | ⟨rfl, rfl, rfl⟩
    · exact .inl (List.mem_cons_of_mem _ h)
    · exact .inr (.inl (List.mem_cons_of_mem _ h))
    · exact .inr (.inr ⟨rfl, rfl, rfl⟩)

theorem unitJoins_inert {a : WSet} (h : a.inert = true) (l : List WSet) (b : WSet) (n : Option WSet) :
    unitJoins false (a :: l) b n = false := by
  simp only [WSet.inert, Bool.not_eq_true', Bool.or_eq_false_iff] at h
  obtain ⟨⟨⟨⟨⟨⟨⟨⟨⟨⟨h1, h2⟩, h3⟩, h4⟩, h5⟩, h6⟩, h7⟩, h8⟩, h9⟩, h10⟩, h11⟩ := h
  simp [unitJoins, WSet.alnum, WSet.ahLetter, WSet.midLetter, WSet.midNum, WSet.midNumLetQ, h1, h2, h3, h4, h5, h6, h7, h8,
    h9, h10, h11]

/-- What the sentence rules need for a boundary that is not after a ParaSep. -/
theorem sunitJoins_false {ah : Bool} {z : SB} {t : List SB} {b : SB} (hz : z.paraSep = false)
    (h : sunitJoins ah (z :: t) b = false) :
    endsCloseSp (·.saTerm) (z :: t) = true ∧ ¬ (z = .ATerm ∧ b = .Numeric) ∧ b ≠ .Sp
      ∧ ¬ (t.head?.any (fun x => x = .Upper || x = .Lower) = true ∧ z = .ATerm ∧ b = .Upper)
      ∧ ¬ (z = .ATerm ∧ ah = true) := by
  unfold sunitJoins at h
  dsimp only at h
  split at h
  · cases h
  rename_i h1
  split at h
  · cases h
  rename_i h2
  split at h
  · cases h
  rename_i h3
  split at h
  · cases h
  split at h
  · cases h
  split at h
  · cases h
  rename_i h6
  split at h
  · rename_i h7
    have h8 : endsCloseSp (·.saTerm) (z :: t) = true := by
      simpa [hz] using h7
    refine ⟨h8, fun hh => h1 (by simp [hh.1, hh.2]), fun hb => h6 (by simp [h8, hb]), fun hh => h2 ?_, fun hh => h3 ?_⟩
    · obtain ⟨hh1, rfl, rfl⟩ := hh
      simpa using hh1
    · obtain ⟨rfl, rfl⟩ := hh
      simp [endsCloseSp, endsClose]
  · cases h

theorem endsCloseSp_head {z : SB} {t : List SB} (h : endsCloseSp (·.saTerm) (z :: t) = true) : SB.ending z = true := by
  revert h
  cases z <;> simp [endsCloseSp, endsClose, SB.ending, SB.saTerm]

/-- A letter or numeral before a Close at the end of a sentence: only the abbreviation mark. -/
theorem close_before {m r r' : List Char} {v : Char} (hm : ∀ i ∈ m, (wc i).ignorable = true) (hr : r = m ++ v :: r')
    (hv : (wc v .ALetter || wc v .HebrewLetter || wc v .Numeric) = true)
    (he : endsClose (·.saTerm) (sunits (r.map sc)) = true) : v = '܏' := by
  subst hr
  have hne : ∃ z l, m ++ v :: r' = z :: l := by cases m <;> exact ⟨_, _, rfl⟩
  obtain ⟨z, l, hzl⟩ := hne
  obtain ⟨n, t, q, h1, h2, h3, _⟩ := sunits_cases sc z l
  rw [hzl, h3] at he
  have ht : SB.ending (sc t) = true := by
    revert he
    cases sc t <;> simp [endsClose, SB.ending, SB.saTerm]
  rcases split_cases (hzl.trans h1) with h | h | ⟨_, rfl, _⟩
  · refine ws_inert (h2 v h) ?_
    simp only [Bool.or_eq_true] at hv
    simp only [WSet.inert]
    rcases hv with (hv | hv) | hv <;> simp [hv]
  · have := (ws_ending ht).1
    rw [hm t h] at this
    cases this
  · obtain ⟨_, h4, h5, h6, _⟩ := ws_ending ht
    rw [h4, h5, h6] at hv
    cases hv

/-- Where the word rules join, the sentence rules do, but for the exceptions. -/
theorem sentences_of_words {x y : Char} {l b : List Char} (h : joins false ((x :: l).map wc) ((y :: b).map wc) = true) :
    sjoins ((x :: l).map sc) ((y :: b).map sc) = true ∨ SentenceCutsWord (x :: l).reverse (y :: b) := by
  rw [List.map_cons, List.map_cons] at h
  unfold joins at h
  dsimp only at h
  rw [List.map_cons, List.map_cons]
  unfold sjoins sjoinsIf
  dsimp only
  rw [(ws_crlf x).1, (ws_crlf y).2] at h
  by_cases h0 : (decide (sc x = .CR) && decide (sc y = .LF)) = true
  · exact .inl (if_pos h0)
  rw [if_neg h0] at h ⊢
  split at h
  · cases h
  rename_i hnl
  simp only [Bool.or_eq_true, not_or, Bool.not_eq_true] at hnl
  have hx := ws_paraSep hnl.1
  rw [if_neg (by rw [hx]; decide)]
  by_cases hi : (sc y).ignorable = true
  · exact .inl (if_pos hi)
  rw [if_neg hi]
  split at h
  · rename_i hz
    rw [Bool.and_eq_true] at hz
    rw [List.reverse_cons]
    exact .inr (.zwj _ _ _ _ hz.1 hz.2)
  have hlow : sc y = .Lower → lowerAhead (sc y :: b.map sc) = true := by
    intro hl
    simp [lowerAhead, hl, SB.stops]
  generalize lowerAhead (sc y :: b.map sc) = ah at hlow ⊢
  cases hs : sunitJoins ah (sunits (sc x :: l.map sc)) (sc y) with
  | true => exact .inl rfl
  | false =>
  refine .inr ?_
  obtain ⟨n, t, q, e1, e2, e3, e4⟩ := sunits_cases sc x l
  rw [List.map_cons] at e3
  rw [e3] at hs
  have ht0 : (sc t).paraSep = false := by
    rcases e4 with rfl | e4
    · cases e1
      exact hx
    · exact e4
  obtain ⟨hend, hsix, hsp, hseven, height⟩ := sunitJoins_false ht0 hs
  have ht := endsCloseSp_head hend
  split at h
  · rename_i hz
    rw [Bool.and_eq_true] at hz
    exact absurd (ws_space hz.2) hsp
  split at h
  · rename_i hw
    rw [List.reverse_cons]
    exact .modifier _ _ _ _ hnl.1 (ws_ignorable hw (by simpa using hi))
  obtain ⟨m, u, r, w1, w2, w3, _⟩ := units_cases wc x l
  rw [List.map_cons] at w3
  rw [w3] at h
  rcases split_cases (w1.symm.trans e1) with hu | hu | ⟨rfl, rfl, rfl⟩
  · by_cases hin : (wc u).inert = true
    · rw [unitJoins_inert hin] at h
      cases h
    · have := ws_inert (e2 u hu) (by simpa using hin)
      subst this
      rw [unitJoins_onlyLetter (onlyLetter_abbreviation _), head_dropWhile] at h
      rw [w1, List.reverse_append, List.reverse_cons, List.append_assoc, List.singleton_append]
      exact .abbreviation _ _ _ _ (fun i hi => w2 i (List.mem_reverse.mp hi)) h
  · have := (ws_ending ht).1
    rw [w2 t hu] at this
    cases this
  · obtain ⟨g1, g2, g3, g4, g5, g6⟩ := ws_ending ht
    have narrow : wc u .ExtendNumLet = true → ((wc y).ahLetter false = true ∨ wc y .Numeric = true ∨ wc y .Katakana = true
        ∨ wc y .ExtendNumLet = true) → SentenceCutsWord (x :: l).reverse (y :: b) := by
      intro he hy
      have := ws_narrow ht he
      subst this
      rw [w1, List.reverse_append, List.reverse_cons, List.append_assoc, List.singleton_append]
      exact .narrow _ _ _ _ (fun i hi => w2 i (List.mem_reverse.mp hi)) hy
    -- the unit before the nearest one
    have second : ∀ f : WSet → Bool, (units (r.map wc)).head?.any f = true →
        ∃ m2 v r2, r = m2 ++ v :: r2 ∧ (∀ i ∈ m2, (wc i).ignorable = true) ∧ f (wc v) = true := by
      intro f hf
      cases r with
      | nil => simp [units] at hf
      | cons z r =>
        obtain ⟨m2, v, r2, v1, v2, v3, _⟩ := units_cases wc z r
        rw [v3] at hf
        exact ⟨m2, v, r2, v1, v2, by simpa using hf⟩
    have close : sc u = .Close → endsClose (·.saTerm) (sunits (r.map sc)) = true := by
      intro hc
      rw [hc] at hend
      simpa [endsCloseSp, endsClose] using hend
    have abbreviation : ∀ (m2 r2 : List Char), r = m2 ++ '܏' :: r2 → (∀ i ∈ m2, (wc i).ignorable = true) →
        (wc u).midLetter = true → (wc y).ahLetter false = true → SentenceCutsWord (x :: l).reverse (y :: b) := by
      intro m2 r2 hr hm2 hu hy
      rw [w1, hr]
      have := SentenceCutsWord.afterAbbreviation r2.reverse m2.reverse m.reverse b u y (by
        intro i hi
        rcases List.mem_append.mp hi with hi | hi
        · exact hm2 i (List.mem_reverse.mp hi)
        · exact w2 i (List.mem_reverse.mp hi)) hu hy
      simpa using this
    unfold unitJoins at h
    simp only [List.head?_cons, Option.any_some, List.tail_cons, WSet.alnum, WSet.ahLetter, Bool.false_and, Bool.or_false, g2, g3,
      g4, g5, g6, List.takeWhile_cons, Bool.false_eq_true, if_false, List.length_nil, Nat.zero_mod, Nat.zero_ne_one, decide_false,
      Bool.false_or, Bool.or_eq_true, Bool.and_eq_true] at h
    rcases h with (((h | h) | h) | h) | h
    · obtain ⟨⟨h1, h2⟩, h3⟩ := h
      obtain ⟨m2, v, r2, v1, v2, v3⟩ := second _ h1
      rcases ws_midLetter ht h2 with hc | hc
      · rw [w1, v1]
        have := SentenceCutsWord.stop r2.reverse m2.reverse m.reverse b v u y (by simpa [WSet.ahLetter] using v3) (s_aterm hc) (by
          intro i hi
          rcases List.mem_append.mp hi with hi | hi
          · exact v2 i (List.mem_reverse.mp hi)
          · exact w2 i (List.mem_reverse.mp hi)) (by simpa [WSet.ahLetter] using h3)
          (fun hl => height ⟨hc, hlow hl⟩) (by
          intro hm2 hup
          refine not_or.mp fun hvl => hseven ⟨?_, hc, hup⟩
          rw [v1, List.map_append, List.map_cons, sunits_skip (by rcases hvl with hvl | hvl <;> rw [hvl] <;> rfl) (by
              intro i hi
              obtain ⟨j, hj, rfl⟩ := List.mem_map.mp hi
              exact hm2 j (List.mem_reverse.mpr hj)),
            sunits_cons (by rcases hvl with hvl | hvl <;> rw [hvl] <;> rfl)]
          rcases hvl with hvl | hvl <;> rw [hvl] <;> rfl)
        simpa using this
      · have := close_before v2 v1 (by simp only [Bool.or_eq_true] at v3 ⊢; exact .inl v3) (close hc)
        subst this
        exact abbreviation m2 r2 v1 v2 h2 (by simpa [WSet.ahLetter] using h3)
    · obtain ⟨⟨h1, h2⟩, h3⟩ := h
      obtain ⟨m2, v, r2, v1, v2, v3⟩ := second _ h1
      have := close_before v2 v1 (by simp [v3]) (close (ws_doubleQuote h2))
      subst this
      rw [w_abbreviation.1] at v3
      cases v3
    · obtain ⟨⟨h1, h2⟩, h3⟩ := h
      obtain ⟨m2, v, r2, v1, v2, v3⟩ := second _ h1
      rcases ws_midNum ht h2 with hc | hc | hc
      · exact absurd ⟨hc, ws_numeric h3⟩ hsix
      · have := close_before v2 v1 (by simp [v3]) (close hc)
        subst this
        rw [w_abbreviation.2] at v3
        cases v3
      · rw [w1, v1, hc]
        have := SentenceCutsWord.armenian r2.reverse m2.reverse m.reverse b v y v3 (by
          intro i hi
          rcases List.mem_append.mp hi with hi | hi
          · exact v2 i (List.mem_reverse.mp hi)
          · exact w2 i (List.mem_reverse.mp hi)) h3
        simpa using this
    · exact narrow h.1 (.inr (.inr (.inr h.2)))
    · refine narrow h.1 ?_
      simp only [WSet.ahLetter, Bool.false_and, Bool.or_false, Bool.or_eq_true]
      grind

/-! ## sentences and phrases -/

theorem ws_plain {c : Char} (h : (sc c).ignorable = true) :
    wc c .ExtendedPictographic = false ∧ wc c .WSegSpace = false := by
  have := classes_none (fun _ w s => s.ignorable && (w .ExtendedPictographic || w .WSegSpace)) (by decide +kernel) c
  rw [h] at this
  simpa using this

theorem w_space {c : Char} (h : wc c .WSegSpace = true) : (wc c).midLetter = false ∧ (wc c).midNum = false
    ∧ wc c .DoubleQuote = false ∧ wc c .ExtendNumLet = false := by
  have := classes_none (fun _ w _ => w .WSegSpace && (w.midLetter || w.midNum || w .DoubleQuote || w .ExtendNumLet))
    (by decide +kernel) c
  rw [h] at this
  simpa [and_assoc] using this

theorem unitJoins_inert' {a : WSet} (h : a.inert = true) (h' : a .ExtendedPictographic = false ∧ a .WSegSpace = false)
    (l : List WSet) (b : WSet) (n : Option WSet) : unitJoins true (a :: l) b n = false := by
  simp only [WSet.inert, Bool.not_eq_true', Bool.or_eq_false_iff] at h
  obtain ⟨⟨⟨⟨⟨⟨⟨⟨⟨⟨h1, h2⟩, h3⟩, h4⟩, h5⟩, h6⟩, h7⟩, h8⟩, h9⟩, h10⟩, h11⟩ := h
  simp [unitJoins, WSet.alnum, WSet.ahLetter, WSet.midLetter, WSet.midNum, WSet.midNumLetQ, h1, h2, h3, h4, h5, h6, h7, h8,
    h9, h10, h11, h'.1, h'.2]

/-- Where the phrase rules join, the sentence rules do, but for the exceptions. -/
theorem sentences_of_phrases {x y : Char} {l b : List Char} (h : joins true ((x :: l).map wc) ((y :: b).map wc) = true) :
    sjoins ((x :: l).map sc) ((y :: b).map sc) = true ∨ SentenceCutsPhrase (x :: l).reverse (y :: b) := by
  rw [List.map_cons, List.map_cons] at h
  unfold joins at h
  dsimp only at h
  rw [List.map_cons, List.map_cons]
  unfold sjoins sjoinsIf
  dsimp only
  rw [(ws_crlf x).1, (ws_crlf y).2] at h
  by_cases h0 : (decide (sc x = .CR) && decide (sc y = .LF)) = true
  · exact .inl (if_pos h0)
  rw [if_neg h0] at h ⊢
  split at h
  · cases h
  rename_i hnl
  simp only [Bool.or_eq_true, not_or, Bool.not_eq_true] at hnl
  have hx := ws_paraSep hnl.1
  rw [if_neg (by rw [hx]; decide)]
  by_cases hi : (sc y).ignorable = true
  · exact .inl (if_pos hi)
  rw [if_neg hi]
  split at h
  · rename_i hz
    rw [Bool.and_eq_true] at hz
    rw [List.reverse_cons]
    exact .inr (.word _ _ (.zwj _ _ _ _ hz.1 hz.2))
  have hlow : sc y = .Lower → lowerAhead (sc y :: b.map sc) = true := by
    intro hl
    simp [lowerAhead, hl, SB.stops]
  generalize lowerAhead (sc y :: b.map sc) = ah at hlow ⊢
  cases hs : sunitJoins ah (sunits (sc x :: l.map sc)) (sc y) with
  | true => exact .inl rfl
  | false =>
  refine .inr ?_
  obtain ⟨n, t, q, e1, e2, e3, e4⟩ := sunits_cases sc x l
  rw [List.map_cons] at e3
  rw [e3] at hs
  have ht0 : (sc t).paraSep = false := by
    rcases e4 with rfl | e4
    · cases e1
      exact hx
    · exact e4
  obtain ⟨hend, hsix, hsp, hseven, height⟩ := sunitJoins_false ht0 hs
  have ht := endsCloseSp_head hend
  split at h
  · rename_i hz
    rw [Bool.and_eq_true] at hz
    exact absurd (ws_space hz.2) hsp
  split at h
  · rename_i hw
    rw [List.reverse_cons]
    exact .word _ _ (.modifier _ _ _ _ hnl.1 (ws_ignorable hw (by simpa using hi)))
  obtain ⟨m, u, r, w1, w2, w3, _⟩ := units_cases wc x l
  rw [List.map_cons] at w3
  rw [w3] at h
  rcases split_cases (w1.symm.trans e1) with hu | hu | ⟨rfl, rfl, rfl⟩
  · by_cases hin : (wc u).inert = true
    · rw [unitJoins_inert' hin (ws_plain (e2 u hu))] at h
      cases h
    · have := ws_inert (e2 u hu) (by simpa using hin)
      subst this
      rw [unitJoins_onlyLetter (onlyLetter_abbreviation _), head_dropWhile] at h
      rw [w1, List.reverse_append, List.reverse_cons, List.append_assoc, List.singleton_append]
      exact .pictograph _ _ _ _ _ (.inr rfl) (fun i hi => w2 i (List.mem_reverse.mp hi)) h
  · have := (ws_ending ht).1
    rw [w2 t hu] at this
    cases this
  · obtain ⟨g1, g2, g3, g4, g5, g6⟩ := ws_ending ht
    have narrow : wc u .ExtendNumLet = true → ((wc y).ahLetter false = true ∨ wc y .Numeric = true ∨ wc y .Katakana = true
        ∨ wc y .ExtendNumLet = true) → SentenceCutsWord (x :: l).reverse (y :: b) := by
      intro he hy
      have := ws_narrow ht he
      subst this
      rw [w1, List.reverse_append, List.reverse_cons, List.append_assoc, List.singleton_append]
      exact .narrow _ _ _ _ (fun i hi => w2 i (List.mem_reverse.mp hi)) hy
    -- the unit before the nearest one
    have second : ∀ f : WSet → Bool, (units (r.map wc)).head?.any f = true →
        ∃ m2 v r2, r = m2 ++ v :: r2 ∧ (∀ i ∈ m2, (wc i).ignorable = true) ∧ f (wc v) = true := by
      intro f hf
      cases r with
      | nil => simp [units] at hf
      | cons z r =>
        obtain ⟨m2, v, r2, v1, v2, v3, _⟩ := units_cases wc z r
        rw [v3] at hf
        exact ⟨m2, v, r2, v1, v2, by simpa using hf⟩
    have close : sc u = .Close → endsClose (·.saTerm) (sunits (r.map sc)) = true := by
      intro hc
      rw [hc] at hend
      simpa [endsCloseSp, endsClose] using hend
    have abbreviation : ∀ (m2 r2 : List Char), r = m2 ++ '܏' :: r2 → (∀ i ∈ m2, (wc i).ignorable = true) →
        (wc u).midLetter = true → (wc y).ahLetter false = true → SentenceCutsWord (x :: l).reverse (y :: b) := by
      intro m2 r2 hr hm2 hu hy
      rw [w1, hr]
      have := SentenceCutsWord.afterAbbreviation r2.reverse m2.reverse m.reverse b u y (by
        intro i hi
        rcases List.mem_append.mp hi with hi | hi
        · exact hm2 i (List.mem_reverse.mp hi)
        · exact w2 i (List.mem_reverse.mp hi)) hu hy
      simpa using this
    by_cases hp : wc u .ExtendedPictographic = true
    · rw [unitJoins_onlyLetter (onlyLetter_pictograph hp), head_dropWhile] at h
      rw [w1, List.reverse_append, List.reverse_cons, List.append_assoc, List.singleton_append]
      exact .pictograph _ _ _ _ _ (.inl hp) (fun i hi => w2 i (List.mem_reverse.mp hi)) h
    by_cases hw : wc u .WSegSpace = true
    · have hmid := w_space hw
      unfold unitJoins at h
      simp only [List.head?_cons, Option.any_some, List.tail_cons, WSet.ahLetter, hp, g2, g3, g4, g5, g6, hmid,
        List.takeWhile_cons, Bool.false_eq_true, if_false, List.length_nil, Nat.zero_mod, Nat.zero_ne_one, decide_false,
        Bool.or_false, Bool.and_false, Bool.false_and] at h
      rw [w1, List.reverse_append, List.reverse_cons, List.append_assoc, List.singleton_append]
      refine .space _ _ _ _ _ hw (fun i hi => w2 i (List.mem_reverse.mp hi)) ?_
      simp only [Bool.and_eq_true] at h
      exact h.2
    rw [Bool.not_eq_true] at hp hw
    unfold unitJoins at h
    simp only [List.head?_cons, Option.any_some, List.tail_cons, WSet.alnum, WSet.ahLetter, Bool.false_and, Bool.or_false, Bool.true_and, hp, hw, g2, g3,
      g4, g5, g6, List.takeWhile_cons, Bool.false_eq_true, if_false, List.length_nil, Nat.zero_mod, Nat.zero_ne_one, decide_false,
      Bool.false_or, Bool.or_eq_true, Bool.and_eq_true] at h
    rcases h with (((h | h) | h) | h) | h
    · obtain ⟨⟨h1, h2⟩, h3⟩ := h
      obtain ⟨m2, v, r2, v1, v2, v3⟩ := second _ h1
      by_cases hvy : wc v .ExtendedPictographic = true ∨ wc y .ExtendedPictographic = true
      · rw [w1, v1]
        have := SentenceCutsPhrase.stop r2.reverse m2.reverse m.reverse b v u y (by simpa [WSet.ahLetter] using v3) h2 (by
          intro i hi
          rcases List.mem_append.mp hi with hi | hi
          · exact v2 i (List.mem_reverse.mp hi)
          · exact w2 i (List.mem_reverse.mp hi)) (by simpa [WSet.ahLetter, or_assoc] using h3) hvy
        simpa using this
      rw [not_or, Bool.not_eq_true, Bool.not_eq_true] at hvy
      rw [hvy.1] at v3
      rw [hvy.2] at h3
      refine .word _ _ ?_
      rcases ws_midLetter ht h2 with hc | hc
      · rw [w1, v1]
        have := SentenceCutsWord.stop r2.reverse m2.reverse m.reverse b v u y (by simpa [WSet.ahLetter] using v3) (s_aterm hc) (by
          intro i hi
          rcases List.mem_append.mp hi with hi | hi
          · exact v2 i (List.mem_reverse.mp hi)
          · exact w2 i (List.mem_reverse.mp hi)) (by simpa [WSet.ahLetter] using h3)
          (fun hl => height ⟨hc, hlow hl⟩) (by
          intro hm2 hup
          refine not_or.mp fun hvl => hseven ⟨?_, hc, hup⟩
          rw [v1, List.map_append, List.map_cons, sunits_skip (by rcases hvl with hvl | hvl <;> rw [hvl] <;> rfl) (by
              intro i hi
              obtain ⟨j, hj, rfl⟩ := List.mem_map.mp hi
              exact hm2 j (List.mem_reverse.mpr hj)),
            sunits_cons (by rcases hvl with hvl | hvl <;> rw [hvl] <;> rfl)]
          rcases hvl with hvl | hvl <;> rw [hvl] <;> rfl)
        simpa using this
      · have := close_before v2 v1 (by simp only [Bool.or_eq_true] at v3 ⊢; exact .inl (by simpa using v3)) (close hc)
        subst this
        exact abbreviation m2 r2 v1 v2 h2 (by simpa [WSet.ahLetter] using h3)
    · obtain ⟨⟨h1, h2⟩, h3⟩ := h
      obtain ⟨m2, v, r2, v1, v2, v3⟩ := second _ h1
      refine .word _ _ ?_
      have := close_before v2 v1 (by simp [v3]) (close (ws_doubleQuote h2))
      subst this
      rw [w_abbreviation.1] at v3
      cases v3
    · obtain ⟨⟨h1, h2⟩, h3⟩ := h
      obtain ⟨m2, v, r2, v1, v2, v3⟩ := second _ h1
      refine .word _ _ ?_
      rcases ws_midNum ht h2 with hc | hc | hc
      · exact absurd ⟨hc, ws_numeric h3⟩ hsix
      · have := close_before v2 v1 (by simp [v3]) (close hc)
        subst this
        rw [w_abbreviation.2] at v3
        cases v3
      · rw [w1, v1, hc]
        have := SentenceCutsWord.armenian r2.reverse m2.reverse m.reverse b v y v3 (by
          intro i hi
          rcases List.mem_append.mp hi with hi | hi
          · exact v2 i (List.mem_reverse.mp hi)
          · exact w2 i (List.mem_reverse.mp hi)) h3
        simpa using this
    · exact .word _ _ (narrow h.1 (.inr (.inr (.inr h.2))))
    · by_cases hy : wc y .ExtendedPictographic = true
      · have := ws_narrow ht h.1
        subst this
        rw [w1, List.reverse_append, List.reverse_cons, List.append_assoc, List.singleton_append]
        exact .narrow _ _ _ _ (fun i hi => w2 i (List.mem_reverse.mp hi)) hy
      · refine .word _ _ (narrow h.1 ?_)
        simp only [WSet.ahLetter, Bool.false_and, Bool.or_false, Bool.or_eq_true]
        grind

end Uax29
