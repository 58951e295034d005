import Verif.Spec.ClusterGrammar
import Verif.Props.Clusters
import Verif.Props.GenTestText
import Verif.Props.Divide
/-! # Graphemes are the longest matches of the regular expression: C97 -/
namespace Uax29
open Spec

/-- Kinds of characters of which a character has at most one. -/
inductive GKind where | cr | lf | control | prepend | mark | ri | l | v | t | lv | lvt | pict | cons
  deriving DecidableEq

def gkind : GB → GKind
  | .CR => .cr | .LF => .lf | .Control => .control | .Prepend => .prepend | .RegionalIndicator => .ri
  | .L => .l | .V => .v | .T => .t | .LV => .lv | .LVT => .lvt | .ExtendedPictographic => .pict | .InCBConsonant => .cons
  | .Extend | .ZWJ | .SpacingMark | .InCBExtend | .InCBLinker => .mark

def allGB : List GB := [.CR, .LF, .Control, .Extend, .ZWJ, .RegionalIndicator, .Prepend, .SpacingMark, .L, .V, .T, .LV, .LVT,
  .ExtendedPictographic, .InCBConsonant, .InCBExtend, .InCBLinker]

theorem mem_allGB (g : GB) : g ∈ allGB := by cases g <;> decide

abbrev gc := graphemeClasses

theorem kind_unique {c : Char} {g h : GB} (hg : gc c g = true) (hh : gc c h = true) : gkind g = gkind h := by
  have := Graphemes.okValue.all (P := fun v => ∀ g ∈ allGB, ∀ h ∈ allGB, gset v g = true → gset v h = true → gkind g = gkind h)
    (by decide +kernel) (Graphemes.okValue_of (Graphemes.wf.prop_value c))
  rw [← graphemeClasses_eq] at this
  exact this g (mem_allGB g) h (mem_allGB h) hg hh

theorem no_kind {c : Char} {g h : GB} (hg : gc c g = true) (hk : gkind g ≠ gkind h) : gc c h = false := by
  cases hh : gc c h with
  | false => rfl
  | true => exact absurd (kind_unique hg hh) hk

/-- A mark: Extend, ZWJ or SpacingMark. -/
def GMark (c : Char) : Prop := gc c .Extend = true ∨ gc c .ZWJ = true ∨ gc c .SpacingMark = true

theorem mark_of_incb {c : Char} (h : gc c .InCBExtend = true ∨ gc c .InCBLinker = true) : GMark c := by
  have := Graphemes.okValue.all (P := fun v => (gset v .InCBExtend = true ∨ gset v .InCBLinker = true) →
      (gset v .Extend = true ∨ gset v .ZWJ = true ∨ gset v .SpacingMark = true))
    (by decide +kernel) (Graphemes.okValue_of (Graphemes.wf.prop_value c))
  rw [← graphemeClasses_eq] at this
  exact this h

theorem GMark.no {c : Char} (h : GMark c) {g : GB} (hg : gkind g ≠ .mark) : gc c g = false := by
  rcases h with h | h | h <;> exact no_kind h fun e => hg (by rw [← e]; rfl)

theorem not_control_of {c : Char} {g : GB} (h : gc c g = true) (h1 : gkind g ≠ .cr) (h2 : gkind g ≠ .lf) (h3 : gkind g ≠ .control) :
    (gc c).control = false := by
  simp [GSet.control, no_kind (h := .CR) h h1, no_kind (h := .LF) h h2, no_kind (h := .Control) h h3]

theorem GMark.not_control {c : Char} (h : GMark c) : (gc c).control = false := by
  rcases h with h | h | h <;> exact not_control_of h (by decide) (by decide) (by decide)

/-- Hangul neighbours, GB6 to GB8. -/
def HPair (a d : Char) : Prop :=
  (gc a .L = true ∧ (gc d .L = true ∨ gc d .V = true ∨ gc d .LV = true ∨ gc d .LVT = true))
  ∨ ((gc a .LV = true ∨ gc a .V = true) ∧ (gc d .V = true ∨ gc d .T = true))
  ∨ ((gc a .LVT = true ∨ gc a .T = true) ∧ gc d .T = true)

/-- `x` is joined to `d`. -/
def JoinsNext (x : List Char) (d : Char) : Prop := graphemeJoins (x.map gc).reverse [gc d] = true

theorem joins_head (l : List GSet) (b : GSet) (r : List GSet) : graphemeJoins l (b :: r) = graphemeJoins l [b] := by
  cases l <;> rfl

theorem joinsNext_iff {x : List Char} {a d : Char} (ha : (gc a).control = false) :
    JoinsNext (x ++ [a]) d ↔ (gc d).control = false ∧ (HPair a d ∨ GMark d ∨ gc a .Prepend = true
      ∨ (conjunct ((x ++ [a]).map gc).reverse = true ∧ gc d .InCBConsonant = true)
      ∨ (pictographZwj ((x ++ [a]).map gc).reverse = true ∧ gc d .ExtendedPictographic = true)
      ∨ (oddIndicators ((x ++ [a]).map gc).reverse = true ∧ gc d .RegionalIndicator = true)) := by
  have hcr : gc a .CR = false := by
    cases h : gc a .CR with
    | false => rfl
    | true => simp [GSet.control, h] at ha
  unfold JoinsNext
  generalize hL : ((x ++ [a]).map gc).reverse = L
  have hL' : L = gc a :: (x.map gc).reverse := by rw [← hL]; simp
  rw [hL', graphemeJoins, if_neg (by simp [hcr]), ← hL']
  cases hd : (gc d).control with
  | true => simp
  | false =>
    simp only [ha, Bool.or_self, Bool.false_eq_true, if_false, true_and, HPair, GMark, Bool.or_eq_true, Bool.and_eq_true]
    grind

/-- All positions within `u` join. -/
def AllJoined (u : List Char) : Prop := ∀ x d y, u = x ++ d :: y → x ≠ [] → JoinsNext x d

theorem joined_nil : AllJoined [] := by
  intro x d y h; simp at h

theorem joined_one (c : Char) : AllJoined [c] := by
  intro x d y h hx
  obtain ⟨e, x, rfl⟩ := List.exists_cons_of_ne_nil hx
  simp at h

theorem joined_snoc {u : List Char} {d : Char} : AllJoined (u ++ [d]) ↔ AllJoined u ∧ (u = [] ∨ JoinsNext u d) := by
  constructor
  · intro h
    refine ⟨fun x e y hu hx => h x e (y ++ [d]) (by simp [hu]) hx, ?_⟩
    by_cases hu : u = []
    · exact .inl hu
    · exact .inr (h u d [] rfl hu)
  · rintro ⟨h1, h2⟩ x e y hu hx
    rcases List.eq_nil_or_concat y with rfl | ⟨y', q, hy⟩
    · have := List.append_inj' hu rfl
      simp only [List.cons.injEq, and_true] at this
      obtain ⟨rfl, rfl⟩ := this
      exact h2.resolve_left hx
    · rw [List.concat_eq_append] at hy
      subst hy
      rw [← List.cons_append, ← List.append_assoc] at hu
      exact h1 x e y' (List.append_inj' hu rfl).1 hx

/-! ## Matches have no boundary within them -/

theorem AllJoined.marks {x : List Char} (h : AllJoined x) (hne : x ≠ []) (hx : ∀ c ∈ x, (gc c).control = false) :
    ∀ {m : List Char}, (∀ c ∈ m, GMark c) → AllJoined (x ++ m) := by
  intro m
  induction m generalizing x with
  | nil => intro _; simpa using h
  | cons e m ih =>
    intro hm
    have he := hm e (by simp)
    have : AllJoined (x ++ [e]) := by
      refine joined_snoc.mpr ⟨h, .inr ?_⟩
      rw [← List.dropLast_concat_getLast hne, joinsNext_iff (hx _ (List.getLast_mem hne))]
      exact ⟨he.not_control, .inr (.inl he)⟩
    have := ih this (by simp) (by
      intro c hc
      rcases List.mem_append.mp hc with hc | hc
      · exact hx c hc
      · rw [List.mem_singleton.mp hc]; exact he.not_control) fun c hc => hm c (List.mem_cons_of_mem _ hc)
    simpa using this

theorem AllJoined.next {x : List Char} (h : AllJoined x) {a d : Char} {x' : List Char} (hx : x = x' ++ [a])
    (ha : (gc a).control = false) (hd : (gc d).control = false)
    (hj : HPair a d ∨ GMark d ∨ gc a .Prepend = true
      ∨ (conjunct (x.map gc).reverse = true ∧ gc d .InCBConsonant = true)
      ∨ (pictographZwj (x.map gc).reverse = true ∧ gc d .ExtendedPictographic = true)
      ∨ (oddIndicators (x.map gc).reverse = true ∧ gc d .RegionalIndicator = true)) : AllJoined (x ++ [d]) := by
  refine joined_snoc.mpr ⟨h, .inr ?_⟩
  subst hx
  rw [joinsNext_iff ha]
  exact ⟨hd, hj⟩

theorem prepend_not_control {c : Char} (h : gc c .Prepend = true) : (gc c).control = false :=
  not_control_of h (by decide) (by decide) (by decide)

/-- Prepend characters, and any character after them that is no control character. -/
theorem joined_prepend : ∀ {pre : List Char}, (∀ c ∈ pre, gc c .Prepend = true) → AllJoined pre
    ∧ ∀ d, (gc d).control = false → AllJoined (pre ++ [d]) := by
  intro pre
  generalize hr : pre.reverse = r
  have : pre = r.reverse := by rw [← hr, List.reverse_reverse]
  subst this
  clear hr
  induction r with
  | nil => exact fun _ => ⟨joined_nil, fun d _ => joined_one d⟩
  | cons e r ih =>
    intro h
    simp only [List.reverse_cons] at h ⊢
    have he := h e (by simp)
    have := (ih fun c hc => h c (by simp only [List.mem_append]; exact .inl hc)).2 e (prepend_not_control he)
    exact ⟨this, fun d hd => this.next rfl (prepend_not_control he) hd (.inr (.inr (.inl he)))⟩

def HKind (c : Char) : Prop := gc c .L = true ∨ gc c .V = true ∨ gc c .T = true ∨ gc c .LV = true ∨ gc c .LVT = true

theorem HKind.no {c : Char} (h : HKind c) {g : GB} (hg : gkind g ∉ [GKind.l, .v, .t, .lv, .lvt]) : gc c g = false := by
  rcases h with h | h | h | h | h <;> exact no_kind h fun e => hg (by rw [← e]; decide)

theorem HKind.not_control {c : Char} (h : HKind c) : (gc c).control = false := by
  simp [GSet.control, h.no (g := .CR) (by decide), h.no (g := .LF) (by decide), h.no (g := .Control) (by decide)]

theorem hangul_kind {s : List Char} (h : Hangul gc s) : s ≠ [] ∧ ∀ c ∈ s, HKind c := by
  cases h with
  | vowels l v t hl hv ht hne =>
    refine ⟨by simp [hne], fun c hc => ?_⟩
    simp only [List.mem_append] at hc
    rcases hc with (hc | hc) | hc
    · exact .inl (hl c hc)
    · exact .inr (.inl (hv c hc))
    · exact .inr (.inr (.inl (ht c hc)))
  | lv l v t x hl hx hv ht =>
    refine ⟨by simp, fun c hc => ?_⟩
    simp only [List.mem_append, List.mem_cons] at hc
    rcases hc with (hc | rfl | hc) | hc
    · exact .inl (hl c hc)
    · exact .inr (.inr (.inr (.inl hx)))
    · exact .inr (.inl (hv c hc))
    · exact .inr (.inr (.inl (ht c hc)))
  | lvt l t x hl hx ht =>
    refine ⟨by simp, fun c hc => ?_⟩
    simp only [List.mem_append, List.mem_cons] at hc
    rcases hc with hc | rfl | hc
    · exact .inl (hl c hc)
    · exact .inr (.inr (.inr (.inr hx)))
    · exact .inr (.inr (.inl (ht c hc)))
  | leading l hl hne => exact ⟨hne, fun c hc => .inl (hl c hc)⟩
  | trailing t ht hne => exact ⟨hne, fun c hc => .inr (.inr (.inl (ht c hc)))⟩

theorem picto_last {s : List Char} (h : Picto gc s) : (∃ s' k, s = s' ++ [k] ∧ gc k .ExtendedPictographic = true)
    ∧ ∀ c ∈ s, (gc c).control = false := by
  induction h with
  | one p hp => exact ⟨⟨[], p, rfl, hp⟩, by
      intro c hc
      rw [List.mem_singleton.mp hc]
      exact not_control_of hp (by decide) (by decide) (by decide)⟩
  | more s ext z p hs he hz hp ih =>
    refine ⟨⟨s ++ ext ++ [z], p, by simp, hp⟩, ?_⟩
    intro c hc
    simp only [List.mem_append, List.mem_cons, List.not_mem_nil, or_false] at hc
    rcases hc with (hc | hc) | rfl | rfl
    · exact ih.2 c hc
    · exact (GMark.not_control (.inl (he c hc)))
    · exact (GMark.not_control (.inr (.inl hz)))
    · exact not_control_of hp (by decide) (by decide) (by decide)

theorem conjuncts_last {s : List Char} (h : Conjuncts gc s) : (∃ s' k, s = s' ++ [k] ∧ gc k .InCBConsonant = true)
    ∧ ∀ c ∈ s, (gc c).control = false := by
  induction h with
  | one p hp => exact ⟨⟨[], p, rfl, hp⟩, by
      intro c hc
      rw [List.mem_singleton.mp hc]
      exact not_control_of hp (by decide) (by decide) (by decide)⟩
  | more s m c hs hm hl hc ih =>
    refine ⟨⟨s ++ m, c, by simp, hc⟩, ?_⟩
    intro e he
    simp only [List.mem_append, List.mem_cons, List.not_mem_nil, or_false] at he
    rcases he with (he | he) | rfl
    · exact ih.2 e he
    · exact (mark_of_incb (hm e he)).not_control
    · exact not_control_of hc (by decide) (by decide) (by decide)

theorem conjunct_of {m l : List Char} {k : Char} (hm : ∀ e ∈ m, gc e .InCBExtend = true ∨ gc e .InCBLinker = true)
    (hl : ∃ e ∈ m, gc e .InCBLinker = true) (hk : gc k .InCBConsonant = true) :
    conjunct ((l ++ [k] ++ m).map gc).reverse = true := by
  have e : ((l ++ [k] ++ m).map gc).reverse = (m.map gc).reverse ++ gc k :: (l.map gc).reverse := by simp
  have h1 : ∀ x ∈ (m.map gc).reverse, (x .InCBExtend || x .InCBLinker) = true := by
    intro x hx
    rw [List.mem_reverse] at hx
    obtain ⟨c, hc, rfl⟩ := List.mem_map.mp hx
    simpa using hm c hc
  have h2 : (gc k .InCBExtend || gc k .InCBLinker) = false := by
    simp [no_kind (h := .InCBExtend) hk (by decide), no_kind (h := .InCBLinker) hk (by decide)]
  have h3 : ((m.map gc).reverse ++ gc k :: (l.map gc).reverse).takeWhile (fun x => x .InCBExtend || x .InCBLinker)
      = (m.map gc).reverse := by
    rw [List.takeWhile_append_of_pos h1, List.takeWhile_cons_of_neg (by simp [h2]), List.append_nil]
  obtain ⟨x, hx, hxl⟩ := hl
  rw [e, conjunct, h3]
  simp only [List.drop_left, List.head?_cons, Option.any_some, hk, Bool.and_true, List.any_reverse, List.any_map, List.any_eq_true]
  exact ⟨x, hx, hxl⟩

theorem pictographZwj_of {ext l : List Char} {k z : Char} (he : ∀ e ∈ ext, gc e .Extend = true) (hz : gc z .ZWJ = true)
    (hk : gc k .ExtendedPictographic = true) : pictographZwj ((l ++ [k] ++ ext ++ [z]).map gc).reverse = true := by
  have e : ((l ++ [k] ++ ext ++ [z]).map gc).reverse = gc z :: ((ext.map gc).reverse ++ gc k :: (l.map gc).reverse) := by simp
  have h1 : ∀ x ∈ (ext.map gc).reverse, x .Extend = true := by
    intro x hx
    rw [List.mem_reverse] at hx
    obtain ⟨c, hc, rfl⟩ := List.mem_map.mp hx
    exact he c hc
  rw [e, pictographZwj]
  simp only [List.head?_cons, Option.any_some, hz, Bool.true_and, List.tail_cons]
  rw [List.dropWhile_append_of_pos h1, List.dropWhile_cons_of_neg (by simp [no_kind (h := .Extend) hk (by decide)])]
  simpa using hk

theorem joined_hangul {pre s : List Char} (hpre : ∀ c ∈ pre, gc c .Prepend = true) (h : Hangul gc s) : AllJoined (pre ++ s) := by
  have h1 := OneCluster.of_chain h.chain.1
  intro x d y hx hne
  have at_start : ∀ y, s = d :: y → pre ≠ [] → JoinsNext pre d := by
    intro y hs hp
    exact ((joined_prepend hpre).2 d ((hangul_kind h).2 d (by simp [hs])).not_control) pre d [] rfl hp
  rcases List.append_eq_append_iff.mp hx with ⟨x', rfl, hs⟩ | ⟨z, rfl, hs⟩
  · by_cases hx' : x' = []
    · subst hx'
      simpa using at_start y (by simpa using hs) (by simpa using hne)
    · have := h1 pre [] x' d y hs hx'
      rw [List.append_nil, List.map_cons, joins_head] at this
      exact this
  · cases z with
    | nil => simpa using at_start y (by simpa using hs.symm) (by simpa using hne)
    | cons e z =>
      simp only [List.cons_append, List.cons.injEq] at hs
      obtain ⟨rfl, _⟩ := hs
      exact (joined_prepend hpre).1 x d z rfl hne

theorem core_joined {pre s : List Char} (hpre : ∀ c ∈ pre, gc c .Prepend = true) (h : Core gc s) :
    AllJoined (pre ++ s) ∧ s ≠ [] ∧ ∀ c ∈ s, (gc c).control = false := by
  have hp0 : ∀ c ∈ pre, (gc c).control = false := fun c hc => prepend_not_control (hpre c hc)
  cases h with
  | hangul h => exact ⟨joined_hangul hpre h, (hangul_kind h).1, fun c hc => ((hangul_kind h).2 c hc).not_control⟩
  | flag a b ha hb =>
    have na := not_control_of ha (by decide) (by decide) (by decide)
    have nb := not_control_of hb (by decide) (by decide) (by decide)
    refine ⟨?_, by simp, by simp [na, nb]⟩
    have := ((joined_prepend hpre).2 a na).next (d := b) rfl na nb (.inr (.inr (.inr (.inr (.inr ⟨?_, hb⟩)))))
    · simpa using this
    · rw [List.map_append, List.reverse_append]
      simp only [List.map_cons, List.map_nil, List.reverse_cons, List.reverse_nil, List.nil_append, List.singleton_append,
        oddIndicators, List.takeWhile_cons, ha, if_true]
      have : ((pre.map gc).reverse).takeWhile (· .RegionalIndicator) = [] := by
        rw [← List.map_reverse]
        cases hr : pre.reverse with
        | nil => rfl
        | cons e r =>
          have he : e ∈ pre := by rw [← List.mem_reverse, hr]; simp
          simp [no_kind (h := .RegionalIndicator) (hpre e he) (by decide)]
      simp [this]
  | picto h =>
    refine ⟨?_, ?_, (picto_last h).2⟩
    · induction h with
      | one p hp => exact (joined_prepend hpre).2 p (not_control_of hp (by decide) (by decide) (by decide))
      | more s ext z p hs he hz hp ih =>
        obtain ⟨⟨s', k, rfl, hk⟩, hc⟩ := picto_last hs
        have h1 : AllJoined (pre ++ (s' ++ [k]) ++ (ext ++ [z])) := ih.marks (by simp) (by
          intro c hm
          rcases List.mem_append.mp hm with hm | hm
          · exact hp0 c hm
          · exact hc c hm) (by
          intro c hm
          rcases List.mem_append.mp hm with hm | hm
          · exact .inl (he c hm)
          · rw [List.mem_singleton.mp hm]; exact .inr (.inl hz))
        have h2 := h1.next (x' := pre ++ (s' ++ [k]) ++ ext) (a := z) (d := p) (by simp) (GMark.not_control (.inr (.inl hz)))
          (not_control_of hp (by decide) (by decide) (by decide))
          (.inr (.inr (.inr (.inr (.inl ⟨by
            have := pictographZwj_of (l := pre ++ s') he hz hk
            rw [← this]; simp, hp⟩)))))
        simpa using h2
    · cases h <;> simp
  | conjuncts h =>
    refine ⟨?_, ?_, (conjuncts_last h).2⟩
    · induction h with
      | one p hp => exact (joined_prepend hpre).2 p (not_control_of hp (by decide) (by decide) (by decide))
      | more s m c hs hm hl hc ih =>
        obtain ⟨⟨s', k, rfl, hk⟩, hcc⟩ := conjuncts_last hs
        have h1 : AllJoined (pre ++ (s' ++ [k]) ++ m) := ih.marks (by simp) (by
          intro c hm
          rcases List.mem_append.mp hm with hm | hm
          · exact hp0 c hm
          · exact hcc c hm) (fun e he => mark_of_incb (hm e he))
        have hne : m ≠ [] := by rintro rfl; simp at hl
        have h2 := h1.next (x' := pre ++ (s' ++ [k]) ++ m.dropLast) (a := m.getLast hne) (d := c)
          (by rw [List.append_assoc _ m.dropLast, List.dropLast_concat_getLast])
          (mark_of_incb (hm _ (List.getLast_mem hne))).not_control
          (not_control_of hc (by decide) (by decide) (by decide))
          (.inr (.inr (.inr (.inl ⟨by
            have := conjunct_of (l := pre ++ s') hm hl hk
            rw [← this]; simp, hc⟩))))
        simpa using h2
    · cases h <;> simp
  | other c h =>
    have nc : (gc c).control = false := by simp [GSet.control, h]
    exact ⟨(joined_prepend hpre).2 c nc, by simp, by simp [nc]⟩

theorem cluster_joined {u : List Char} (h : Cluster gc u) : u ≠ [] ∧ AllJoined u := by
  cases h with
  | crlf c d hc hd =>
    refine ⟨by simp, ?_⟩
    have : AllJoined ([c] ++ [d]) := joined_snoc.mpr ⟨joined_one c, .inr (by simp [JoinsNext, graphemeJoins, hc, hd])⟩
    simpa using this
  | control c h => exact ⟨by simp, joined_one c⟩
  | cluster pre core post hpre hcore hpost =>
    obtain ⟨h1, h2, h3⟩ := core_joined hpre hcore
    refine ⟨by simp [h2], h1.marks (by simp [h2]) ?_ hpost⟩
    intro c hc
    rcases List.mem_append.mp hc with hc | hc
    · exact prepend_not_control (hpre c hc)
    · exact h3 c hc

/-! ## Texts with no boundary within them match -/

theorem hangul_snoc {s s' : List Char} {a d : Char} (h : Hangul gc s) (hs : s = s' ++ [a]) (hp : HPair a d) : Hangul gc (s ++ [d]) := by
  have last : ∀ {l : List Char} {g : GB} {r : List Char}, (∀ c ∈ l, gc c g = true) → l ≠ [] → r ++ l = s' ++ [a] → gc a g = true := by
    intro l g r hl hne e
    rw [← List.dropLast_concat_getLast hne, ← List.append_assoc] at e
    have := (List.append_inj' e rfl).2
    simp only [List.cons.injEq, and_true] at this
    rw [← this]
    exact hl _ (List.getLast_mem hne)
  have addAll : ∀ {l : List Char} {g : GB}, (∀ c ∈ l, gc c g = true) → gc d g = true → ∀ c ∈ l ++ [d], gc c g = true := by
    intro l g hl hd c hc
    rcases List.mem_append.mp hc with hc | hc
    · exact hl c hc
    · rw [List.mem_singleton.mp hc]; exact hd
  have one : ∀ {g : GB}, gc d g = true → ∀ c ∈ [d], gc c g = true := by
    intro g hd c hc
    rw [List.mem_singleton.mp hc]; exact hd
  -- what may follow
  have afterL : gc a .L = true → gc d .L = true ∨ gc d .V = true ∨ gc d .LV = true ∨ gc d .LVT = true := by
    intro h
    rcases hp with h' | ⟨h' | h', _⟩ | ⟨h' | h', _⟩
    · exact h'.2
    all_goals exact absurd (kind_unique h h') (by decide)
  have afterV : (gc a .LV = true ∨ gc a .V = true) → gc d .V = true ∨ gc d .T = true := by
    intro h
    rcases hp with ⟨h', _⟩ | h' | ⟨h' | h', _⟩
    · rcases h with h | h <;> exact absurd (kind_unique h h') (by decide)
    · exact h'.2
    all_goals rcases h with h | h <;> exact absurd (kind_unique h h') (by decide)
  have afterT : (gc a .LVT = true ∨ gc a .T = true) → gc d .T = true := by
    intro h
    rcases hp with ⟨h', _⟩ | ⟨h' | h', _⟩ | h'
    · rcases h with h | h <;> exact absurd (kind_unique h h') (by decide)
    · rcases h with h | h <;> exact absurd (kind_unique h h') (by decide)
    · rcases h with h | h <;> exact absurd (kind_unique h h') (by decide)
    · exact h'.2
  cases h with
  | vowels l v t hl hv ht hne =>
    by_cases htn : t = []
    · subst htn
      rw [List.append_nil] at hs ⊢
      rcases afterV (.inr (last hv hne hs)) with hd | hd
      · have := Hangul.vowels (cl := gc) l (v ++ [d]) [] hl (addAll hv hd) (by simp) (by simp)
        simpa using this
      · exact Hangul.vowels (cl := gc) l v [d] hl hv (one hd) hne
    · have := Hangul.vowels (cl := gc) l v (t ++ [d]) hl hv (addAll ht (afterT (.inr (last ht htn hs)))) hne
      simpa using this
  | lv l v t x hl hx hv ht =>
    by_cases htn : t = []
    · subst htn
      rw [List.append_nil] at hs ⊢
      have : gc a .LV = true ∨ gc a .V = true := by
        by_cases hvn : v = []
        · subst hvn
          exact .inl (last (l := [x]) (g := .LV) (by simpa using hx) (by simp) hs)
        · refine .inr (last (r := l ++ [x]) hv hvn ?_)
          rw [← hs]; simp
      rcases afterV this with hd | hd
      · have := Hangul.lv (cl := gc) l (v ++ [d]) [] x hl hx (addAll hv hd) (by simp)
        simpa using this
      · exact Hangul.lv (cl := gc) l v [d] x hl hx hv (one hd)
    · have := Hangul.lv (cl := gc) l v (t ++ [d]) x hl hx hv (addAll ht (afterT (.inr (last ht htn hs))))
      simpa using this
  | lvt l t x hl hx ht =>
    have : gc a .LVT = true ∨ gc a .T = true := by
      by_cases htn : t = []
      · subst htn
        exact .inl (last (l := [x]) (g := .LVT) (by simpa using hx) (by simp) hs)
      · refine .inr (last (r := l ++ [x]) ht htn ?_)
        rw [← hs]; simp
    have := Hangul.lvt (cl := gc) l (t ++ [d]) x hl hx (addAll ht (afterT this))
    simpa using this
  | leading l hl hne =>
    rcases afterL (last (r := []) hl hne hs) with hd | hd | hd | hd
    · exact .leading _ (addAll hl hd) (by simp)
    · have := Hangul.vowels (cl := gc) s [d] [] hl (one hd) (by simp) (by simp)
      simpa using this
    · have := Hangul.lv (cl := gc) s [] [] d hl hd (by simp) (by simp)
      simpa using this
    · have := Hangul.lvt (cl := gc) s [] d hl hd (by simp)
      simpa using this
  | trailing t ht hne => exact .trailing _ (addAll ht (afterT (.inr (last (r := []) ht hne hs)))) (by simp)

theorem conjunct_none {l : List Char} (h : ∀ c ∈ l, gc c .InCBConsonant = false) : conjunct (l.map gc).reverse = false := by
  rw [← List.map_reverse, conjunct]
  simp only [Bool.and_eq_false_iff]
  right
  cases hd : (List.drop _ _ : List GSet) with
  | nil => rfl
  | cons x r =>
    have : x ∈ l.reverse.map gc := List.mem_of_mem_drop (by rw [hd]; simp)
    obtain ⟨c, hc, rfl⟩ := List.mem_map.mp this
    simpa using h c (List.mem_reverse.mp hc)

theorem pictographZwj_none {l : List Char} (h : ∀ c ∈ l, gc c .ExtendedPictographic = false) :
    pictographZwj (l.map gc).reverse = false := by
  rw [← List.map_reverse, pictographZwj]
  simp only [Bool.and_eq_false_iff]
  right
  cases hd : (List.dropWhile _ _ : List GSet) with
  | nil => rfl
  | cons x r =>
    have h1 : x ∈ (l.reverse.map gc).tail := (List.dropWhile_sublist _).subset (by rw [hd]; simp)
    obtain ⟨c, hc, rfl⟩ := List.mem_map.mp (List.mem_of_mem_tail h1)
    simpa using h c (List.mem_reverse.mp hc)

/-- GB9c after a core and marks. -/
theorem conjunct_inv {l post : List Char} {k : Char} (hk : ¬ GMark k) (hpost : ∀ c ∈ post, GMark c)
    (h : conjunct ((l ++ [k] ++ post).map gc).reverse = true) :
    gc k .InCBConsonant = true ∧ (∀ e ∈ post, gc e .InCBExtend = true ∨ gc e .InCBLinker = true)
      ∧ ∃ e ∈ post, gc e .InCBLinker = true := by
  have e : ((l ++ [k] ++ post).map gc).reverse = (post.reverse.map gc) ++ gc k :: (l.map gc).reverse := by simp
  rw [e] at h
  have h2 : (gc k .InCBExtend || gc k .InCBLinker) = false := by
    rw [Bool.eq_false_iff]
    intro h
    exact hk (mark_of_incb (by simpa using h))
  -- marks that are not taken leave one that is no consonant
  by_cases hall : ∀ e ∈ post, gc e .InCBExtend = true ∨ gc e .InCBLinker = true
  · have h1 : ∀ x ∈ post.reverse.map gc, (x .InCBExtend || x .InCBLinker) = true := by
      intro x hx
      obtain ⟨c, hc, rfl⟩ := List.mem_map.mp hx
      simpa using hall c (List.mem_reverse.mp hc)
    have h3 : (post.reverse.map gc ++ gc k :: (l.map gc).reverse).takeWhile (fun x => x .InCBExtend || x .InCBLinker)
        = post.reverse.map gc := by
      rw [List.takeWhile_append_of_pos h1, List.takeWhile_cons_of_neg (by simp [h2]), List.append_nil]
    rw [conjunct, h3] at h
    simp only [List.drop_left, List.head?_cons, Option.any_some, Bool.and_eq_true, List.any_map, List.any_eq_true,
      List.mem_reverse] at h
    exact ⟨h.2, hall, h.1⟩
  · exfalso
    rw [conjunct, Bool.and_eq_true] at h
    replace h := h.2
    have : ∀ (r : List Char), (∀ c ∈ r, GMark c) → (¬ ∀ e ∈ r, gc e .InCBExtend = true ∨ gc e .InCBLinker = true) → ∀ (q : List GSet),
        ∃ c, GMark c ∧ ((r.map gc ++ q).drop ((r.map gc ++ q).takeWhile (fun x => x .InCBExtend || x .InCBLinker)).length).head?
          = some (gc c) := by
      intro r
      induction r with
      | nil => intro _ h; exact absurd (by simp) h
      | cons c r ih =>
        intro hm hn q
        by_cases hc : (gc c .InCBExtend || gc c .InCBLinker) = true
        · obtain ⟨c', h1, h2⟩ := ih (fun x hx => hm x (List.mem_cons_of_mem _ hx)) (fun hh => hn (by
            intro e he
            rcases List.mem_cons.mp he with rfl | he
            · simpa using hc
            · exact hh e he)) q
          refine ⟨c', h1, ?_⟩
          rw [List.map_cons, List.cons_append, List.takeWhile_cons_of_pos (by simpa using hc)]
          simpa using h2
        · refine ⟨c, hm c (by simp), ?_⟩
          rw [List.map_cons, List.cons_append, List.takeWhile_cons_of_neg (by simpa using hc)]
          rfl
    obtain ⟨c, h1, h2⟩ := this post.reverse (fun c hc => hpost c (List.mem_reverse.mp hc))
      (fun hh => hall fun e he => hh e (List.mem_reverse.mpr he)) (gc k :: (l.map gc).reverse)
    rw [h2] at h
    simp [h1.no (g := .InCBConsonant) (by decide)] at h

/-- GB11 after a core and marks. -/
theorem pictographZwj_inv {l post : List Char} {k : Char} (hk : ¬ GMark k) (hpost : ∀ c ∈ post, GMark c)
    (h : pictographZwj ((l ++ [k] ++ post).map gc).reverse = true) :
    gc k .ExtendedPictographic = true ∧ ∃ ext z, post = ext ++ [z] ∧ gc z .ZWJ = true ∧ ∀ e ∈ ext, gc e .Extend = true := by
  rcases List.eq_nil_or_concat post with rfl | ⟨ext, z, hp⟩
  · have e : ((l ++ [k] ++ []).map gc).reverse = gc k :: (l.map gc).reverse := by simp
    rw [e, pictographZwj] at h
    simp only [List.head?_cons, Option.any_some, Bool.and_eq_true] at h
    exact absurd (.inr (.inl h.1)) hk
  · rw [List.concat_eq_append] at hp
    subst hp
    have e : ((l ++ [k] ++ (ext ++ [z])).map gc).reverse = gc z :: (ext.reverse.map gc ++ gc k :: (l.map gc).reverse) := by simp
    rw [e, pictographZwj] at h
    simp only [List.head?_cons, Option.any_some, Bool.and_eq_true, List.tail_cons] at h
    obtain ⟨hz, h⟩ := h
    have hke : gc k .Extend = false := by
      rw [Bool.eq_false_iff]
      intro h
      exact hk (.inl h)
    have : ∀ (r : List Char), (∀ c ∈ r, GMark c) →
        ((r.map gc ++ gc k :: (l.map gc).reverse).dropWhile (· .Extend)).head?.any (· .ExtendedPictographic) = true →
        gc k .ExtendedPictographic = true ∧ ∀ e ∈ r, gc e .Extend = true := by
      intro r
      induction r with
      | nil =>
        intro _ h
        rw [List.map_nil, List.nil_append, List.dropWhile_cons_of_neg (by simp [hke])] at h
        exact ⟨by simpa using h, by simp⟩
      | cons c r ih =>
        intro hm h
        cases hc : gc c .Extend with
        | true =>
          rw [List.map_cons, List.cons_append, List.dropWhile_cons_of_pos (by simpa using hc)] at h
          obtain ⟨h1, h2⟩ := ih (fun x hx => hm x (List.mem_cons_of_mem _ hx)) h
          refine ⟨h1, fun e he => ?_⟩
          rcases List.mem_cons.mp he with rfl | he
          · exact hc
          · exact h2 e he
        | false =>
          rw [List.map_cons, List.cons_append, List.dropWhile_cons_of_neg (by simp [hc])] at h
          simp [(hm c (by simp)).no (g := .ExtendedPictographic) (by decide)] at h
    obtain ⟨h1, h2⟩ := this ext.reverse (fun c hc => hpost c (by simp [List.mem_reverse.mp hc])) h
    exact ⟨h1, ext, z, rfl, hz, fun e he => h2 e (List.mem_reverse.mpr he)⟩

theorem hangul_one {k : Char} (h : HKind k) : Hangul gc [k] := by
  rcases h with h | h | h | h | h
  · exact .leading _ (by simpa using h) (by simp)
  · exact .vowels [] [k] [] (by simp) (by simpa using h) (by simp) (by simp)
  · exact .trailing _ (by simpa using h) (by simp)
  · exact .lv [] [] [] k (by simp) h (by simp) (by simp)
  · exact .lvt [] [] k (by simp) h (by simp)

/-- The last character of a core. -/
theorem core_last {s s' : List Char} {k : Char} (h : Core gc s) (hs : s = s' ++ [k]) :
    (Hangul gc s ∧ HKind k) ∨ (∃ a, s = [a, k] ∧ gc a .RegionalIndicator = true ∧ gc k .RegionalIndicator = true)
    ∨ (Picto gc s ∧ gc k .ExtendedPictographic = true) ∨ (Conjuncts gc s ∧ gc k .InCBConsonant = true) ∨ s = [k] := by
  cases h with
  | hangul h => exact .inl ⟨h, (hangul_kind h).2 k (by simp [hs])⟩
  | flag a b ha hb =>
    have := List.append_inj' (s₁ := [a]) (t₁ := [b]) hs rfl
    simp only [List.cons.injEq, and_true] at this
    rw [← this.2]
    exact .inr (.inl ⟨a, rfl, ha, hb⟩)
  | picto h =>
    obtain ⟨⟨t, q, ht, hq⟩, _⟩ := picto_last h
    have := (List.append_inj' (ht.symm.trans hs) rfl).2
    simp only [List.cons.injEq, and_true] at this
    rw [← this]
    exact .inr (.inr (.inl ⟨h, hq⟩))
  | conjuncts h =>
    obtain ⟨⟨t, q, ht, hq⟩, _⟩ := conjuncts_last h
    have := (List.append_inj' (ht.symm.trans hs) rfl).2
    simp only [List.cons.injEq, and_true] at this
    rw [← this]
    exact .inr (.inr (.inr (.inl ⟨h, hq⟩)))
  | other c h =>
    have := List.append_inj' (s₁ := []) (t₁ := [c]) hs rfl
    simp only [List.cons.injEq, and_true] at this
    rw [← this.2]
    exact .inr (.inr (.inr (.inr rfl)))

theorem HPair.kinds {a d : Char} (h : HPair a d) : HKind a := by
  rcases h with ⟨h, _⟩ | ⟨h | h, _⟩ | ⟨h | h, _⟩
  · exact .inl h
  · exact .inr (.inr (.inr (.inl h)))
  · exact .inr (.inl h)
  · exact .inr (.inr (.inr (.inr h)))
  · exact .inr (.inr (.inl h))

theorem cluster_snoc {x : List Char} {d : Char} (h : Cluster gc x) (hj : JoinsNext x d) : Cluster gc (x ++ [d]) := by
  cases h with
  | crlf c e hc he =>
    exfalso
    have h1 : gc e .CR = false := no_kind he (by decide)
    simp [JoinsNext, graphemeJoins, h1, GSet.control, he] at hj
  | control c h =>
    have hcc : (gc c).control = true := by
      rcases h with h | h | h <;> simp [GSet.control, h]
    simp only [JoinsNext, graphemeJoins, List.map_cons, List.map_nil, List.reverse_cons, List.reverse_nil, List.nil_append, hcc,
      Bool.true_or, if_true] at hj
    split at hj
    · rename_i h
      rw [Bool.and_eq_true] at h
      exact .crlf c d h.1 h.2
    · cases hj
  | cluster pre core post hpre hcore hpost =>
    obtain ⟨_, hne, hnc⟩ := core_joined hpre hcore
    have hlast := List.dropLast_concat_getLast hne
    generalize core.dropLast = core' at hlast
    generalize core.getLast hne = k at hlast
    have hall : ∀ c ∈ pre ++ core ++ post, (gc c).control = false := by
      intro c hc
      simp only [List.mem_append] at hc
      rcases hc with (hc | hc) | hc
      · exact prepend_not_control (hpre c hc)
      · exact hnc c hc
      · exact (GMark.not_control (hpost c hc))
    have hx : pre ++ core ++ post ≠ [] := by simp [hne]
    -- the last character
    have hxl := List.dropLast_concat_getLast hx
    have hac := hall _ (List.getLast_mem hx)
    generalize hya : (pre ++ core ++ post).dropLast = y at hxl
    generalize (pre ++ core ++ post).getLast hx = a at hxl hac
    have ha : (post = [] ∧ a = k) ∨ GMark a := by
      rcases List.eq_nil_or_concat post with rfl | ⟨post', z, hp⟩
      · left
        rw [← hlast, List.append_nil, ← List.append_assoc] at hxl
        have := (List.append_inj' hxl rfl).2
        simpa using this
      · right
        rw [List.concat_eq_append] at hp
        rw [hp, ← List.append_assoc] at hxl
        have := (List.append_inj' hxl rfl).2
        simp only [List.cons.injEq, and_true] at this
        rw [this]
        exact hpost z (by simp [hp])
    rw [← hxl, joinsNext_iff hac, hxl] at hj
    obtain ⟨hd, hj⟩ := hj
    have other : Core gc [d] := .other d (by
      simp only [GSet.control, Bool.or_eq_false_iff] at hd
      exact ⟨hd.1.1, hd.1.2, hd.2⟩)
    have hk := core_last hcore hlast.symm
    rcases hj with hj | hj | hj | ⟨hj, hdc⟩ | ⟨hj, hdp⟩ | ⟨hj, hdr⟩
    · -- Hangul
      rcases ha with ⟨rfl, rfl⟩ | ha
      · have : Hangul gc (core ++ [d]) := by
          have hH := hj.kinds
          rcases hk with ⟨h, _⟩ | ⟨_, _, _, h⟩ | ⟨_, h⟩ | ⟨_, h⟩ | h
          · exact hangul_snoc h hlast.symm hj
          · simp [hH.no (g := .RegionalIndicator) (by decide)] at h
          · simp [hH.no (g := .ExtendedPictographic) (by decide)] at h
          · simp [hH.no (g := .InCBConsonant) (by decide)] at h
          · rw [h]
            exact hangul_snoc (hangul_one hH) (s' := []) rfl hj
        have := Cluster.cluster (cl := gc) pre (core ++ [d]) [] hpre (.hangul this) (by simp)
        simpa using this
      · rcases ha with h | h | h <;> simp [hj.kinds.no (g := .Extend) (by decide), hj.kinds.no (g := .ZWJ) (by decide),
          hj.kinds.no (g := .SpacingMark) (by decide)] at h
    · -- a mark
      have := Cluster.cluster (cl := gc) pre core (post ++ [d]) hpre hcore (by
        intro c hc
        rcases List.mem_append.mp hc with hc | hc
        · exact hpost c hc
        · rw [List.mem_singleton.mp hc]; exact hj)
      simpa using this
    · -- Prepend
      rcases ha with ⟨rfl, rfl⟩ | ha
      · have : core = [a] := by
          rcases hk with ⟨_, h⟩ | ⟨_, _, _, h⟩ | ⟨_, h⟩ | ⟨_, h⟩ | h
          · simp [h.no (g := .Prepend) (by decide)] at hj
          · exact absurd (kind_unique h hj) (by decide)
          · exact absurd (kind_unique h hj) (by decide)
          · exact absurd (kind_unique h hj) (by decide)
          · exact h
        subst this
        have := Cluster.cluster (cl := gc) (pre ++ [a]) [d] [] (by
          intro c hc
          rcases List.mem_append.mp hc with hc | hc
          · exact hpre c hc
          · rw [List.mem_singleton.mp hc]; exact hj) other (by simp)
        simpa using this
      · simp [ha.no (g := .Prepend) (by decide)] at hj
    · -- conjuncts
      by_cases hkm : GMark k
      · exfalso
        have : core = [k] := by
          rcases hk with ⟨_, h⟩ | ⟨_, _, _, h⟩ | ⟨_, h⟩ | ⟨_, h⟩ | h
          · rcases hkm with h' | h' | h' <;> simp [h.no (g := .Extend) (by decide), h.no (g := .ZWJ) (by decide),
              h.no (g := .SpacingMark) (by decide)] at h'
          · simp [hkm.no (g := .RegionalIndicator) (by decide)] at h
          · simp [hkm.no (g := .ExtendedPictographic) (by decide)] at h
          · simp [hkm.no (g := .InCBConsonant) (by decide)] at h
          · exact h
        subst this
        rw [conjunct_none] at hj
        · cases hj
        · intro c hc
          simp only [List.mem_append, List.mem_singleton] at hc
          rcases hc with (hc | rfl) | hc
          · exact no_kind (hpre c hc) (by decide)
          · exact hkm.no (by decide)
          · exact GMark.no (hpost c hc) (by decide)
      · rw [← hlast, ← List.append_assoc] at hj
        obtain ⟨h1, h2, h3⟩ := conjunct_inv hkm hpost hj
        have : Conjuncts gc core := by
          rcases hk with ⟨_, h⟩ | ⟨_, _, _, h⟩ | ⟨_, h⟩ | ⟨h, _⟩ | h
          · simp [h.no (g := .InCBConsonant) (by decide)] at h1
          · exact absurd (kind_unique h h1) (by decide)
          · exact absurd (kind_unique h h1) (by decide)
          · exact h
          · rw [h]; exact .one k h1
        have := Cluster.cluster (cl := gc) pre (core ++ post ++ [d]) [] hpre (.conjuncts (.more core post d this h2 h3 hdc)) (by simp)
        simpa using this
    · -- pictographs
      by_cases hkm : GMark k
      · exfalso
        have : core = [k] := by
          rcases hk with ⟨_, h⟩ | ⟨_, _, _, h⟩ | ⟨_, h⟩ | ⟨_, h⟩ | h
          · rcases hkm with h' | h' | h' <;> simp [h.no (g := .Extend) (by decide), h.no (g := .ZWJ) (by decide),
              h.no (g := .SpacingMark) (by decide)] at h'
          · simp [hkm.no (g := .RegionalIndicator) (by decide)] at h
          · simp [hkm.no (g := .ExtendedPictographic) (by decide)] at h
          · simp [hkm.no (g := .InCBConsonant) (by decide)] at h
          · exact h
        subst this
        rw [pictographZwj_none] at hj
        · cases hj
        · intro c hc
          simp only [List.mem_append, List.mem_singleton] at hc
          rcases hc with (hc | rfl) | hc
          · exact no_kind (hpre c hc) (by decide)
          · exact hkm.no (by decide)
          · exact GMark.no (hpost c hc) (by decide)
      · rw [← hlast, ← List.append_assoc] at hj
        obtain ⟨h1, ext, z, rfl, h2, h3⟩ := pictographZwj_inv hkm hpost hj
        have : Picto gc core := by
          rcases hk with ⟨_, h⟩ | ⟨_, _, _, h⟩ | ⟨h, _⟩ | ⟨_, h⟩ | h
          · simp [h.no (g := .ExtendedPictographic) (by decide)] at h1
          · exact absurd (kind_unique h h1) (by decide)
          · exact h
          · exact absurd (kind_unique h h1) (by decide)
          · rw [h]; exact .one k h1
        have := Cluster.cluster (cl := gc) pre (core ++ ext ++ [z, d]) [] hpre (.picto (.more core ext z d this h3 h2 hdp)) (by simp)
        simpa using this
    · -- flags
      have har : gc a .RegionalIndicator = true := by
        cases h : gc a .RegionalIndicator with
        | true => rfl
        | false =>
          rw [← hxl] at hj
          simp [oddIndicators, h] at hj
      rcases ha with ⟨rfl, rfl⟩ | ha
      · rcases hk with ⟨_, h⟩ | ⟨b, h, hb, _⟩ | ⟨_, h⟩ | ⟨_, h⟩ | h
        · simp [h.no (g := .RegionalIndicator) (by decide)] at har
        · exfalso
          subst h
          have : ((pre.map gc).reverse).takeWhile (· .RegionalIndicator) = [] := by
            rw [← List.map_reverse]
            cases hr : pre.reverse with
            | nil => rfl
            | cons e r =>
              have he : e ∈ pre := by rw [← List.mem_reverse, hr]; simp
              simp [no_kind (h := .RegionalIndicator) (hpre e he) (by decide)]
          simp [oddIndicators, har, hb, this] at hj
        · exact absurd (kind_unique h har) (by decide)
        · exact absurd (kind_unique h har) (by decide)
        · subst h
          have := Cluster.cluster (cl := gc) pre [a, d] [] hpre (.flag a d har hdr) (by simp)
          simpa using this
      · simp [ha.no (g := .RegionalIndicator) (by decide)] at har

/-- The regular expression matches the texts that have no boundary within them. -/
theorem cluster_iff {u : List Char} : Cluster gc u ↔ u ≠ [] ∧ AllJoined u := by
  refine ⟨cluster_joined, ?_⟩
  rintro ⟨hne, hj⟩
  generalize hr : u.reverse = r
  have : u = r.reverse := by rw [← hr, List.reverse_reverse]
  subst this
  clear hr
  induction r with
  | nil => exact absurd rfl hne
  | cons d r ih =>
    rw [List.reverse_cons] at hj ⊢
    rw [joined_snoc] at hj
    by_cases hrn : r.reverse = []
    · rw [hrn, List.nil_append]
      cases hc : (gc d).control with
      | true =>
        refine .control d ?_
        simp only [GSet.control, Bool.or_eq_true] at hc
        exact or_assoc.mp hc
      | false =>
        have := Cluster.cluster (cl := gc) [] [d] [] (by simp) (.other d (by
          simp only [GSet.control, Bool.or_eq_false_iff] at hc
          exact ⟨hc.1.1, hc.1.2, hc.2⟩)) (by simp)
        simpa using this
    · exact cluster_snoc (ih hrn hj.1) (hj.2.resolve_left hrn)

/-- **C97** The graphemes are the longest matches of the regular expression of UAX #29, from left to right, given the properties in
the shipped table. -/
theorem C97_graphemes (s : List Char) : ∃ ts : List (List Char), defaultTokens .graphemes (utf8 s) = .ok (ts.map utf8)
    ∧ LongestMatches (Cluster graphemeClasses) s ts := by
  obtain ⟨ts, h1, h2, -, -⟩ := C08_conform s
  refine ⟨ts, h1, ?_⟩
  induction ts generalizing s with
  | nil =>
    rw [← h2]
    exact .nil
  | cons t ts ih =>
    obtain ⟨us, k1, k2, k3, k4⟩ := C08_conform s
    have hu := (List.map_inj_right fun _ _ h => utf8_inj h).mp (Except.ok.inj (h1.symm.trans k1))
    subst hu
    have ht : t ≠ [] := k3 t (by simp)
    have hs : s = t ++ ts.flatten := by rw [← h2]; rfl
    have inner : ∀ x d y, t = x ++ d :: y → x ≠ [] → JoinsNext x d := by
      intro x d y hx hne
      have hnb : ¬ Boundary (t :: ts) x := by
        have := boundary_inside hne (y := d :: y) (by simp) ts []
        rw [← hx] at this
        simpa using this
      rw [k4 x (d :: y ++ ts.flatten) (by rw [hs, hx]; simp), List.cons_append, List.map_cons, graphemeBreak, joins_head] at hnb
      unfold JoinsNext
      simpa [hne] using hnb
    have hrest : defaultTokens .graphemes (utf8 ts.flatten) = .ok (ts.map utf8) := by
      have := (C74_utf8 .graphemes s [utf8 t] (ts.map utf8) h1).2
      rwa [utf8_flatten] at this
    rw [hs]
    refine .cons (cluster_iff.mpr ⟨ht, inner⟩) ht ?_ (ih ts.flatten hrest rfl)
    intro u hu hpre
    obtain ⟨hune, huj⟩ := cluster_iff.mp hu
    obtain ⟨r, hr⟩ := hpre
    rcases List.append_eq_append_iff.mp hr with ⟨z, hz, _⟩ | ⟨z, hz, hz2⟩
    · exact ⟨z, hz.symm⟩
    · cases z with
      | nil => exact ⟨[], by simp [hz]⟩
      | cons d z =>
        exfalso
        have hb := (k4 t ts.flatten hs).mp ⟨1, by simp⟩
        have hj := huj t d z hz ht
        rw [hz2, List.cons_append, List.map_cons, graphemeBreak, joins_head] at hb
        rw [JoinsNext] at hj
        simp [ht, hj] at hb

/-- Only one division of a text is made up of longest matches. -/
theorem C97_unique {α : Type} {R : List α → Prop} {s : List α} {ts us : List (List α)} (h : LongestMatches R s ts)
    (h' : LongestMatches R s us) : ts = us := by
  induction h generalizing us with
  | nil =>
    generalize hs : ([] : List α) = s at h'
    cases h' with
    | nil => rfl
    | cons ht hne _ _ => exact absurd (List.append_eq_nil_iff.mp hs.symm).1 hne
  | @cons t rest ts ht hne hmax hrest ih =>
    generalize hs : t ++ rest = s at h'
    cases h' with
    | nil => exact absurd (List.append_eq_nil_iff.mp hs).1 hne
    | @cons t' rest' ts' ht' hne' hmax' hrest' =>
      have h1 := hmax t' ht' (by rw [hs]; exact List.prefix_append _ _)
      have h2 := hmax' t ht (by rw [← hs]; exact List.prefix_append _ _)
      have : t = t' := List.IsPrefix.eq_of_length_le h2 h1.length_le
      subst this
      rw [ih (List.append_cancel_left hs ▸ hrest')]

/-- The graphemes of a text, exactly: some division of the text is the result if and only if it is made up of longest matches. -/
theorem C97_iff (s : List Char) (ts : List (List Char)) :
    defaultTokens .graphemes (utf8 s) = .ok (ts.map utf8) ↔ LongestMatches (Cluster graphemeClasses) s ts := by
  obtain ⟨us, h1, h2⟩ := C97_graphemes s
  constructor
  · intro h
    have := (List.map_inj_right fun _ _ h => utf8_inj h).mp (Except.ok.inj (h1.symm.trans h))
    exact this ▸ h2
  · intro h
    rw [C97_unique h h2, h1]

-- a Prepend character (an Arabic number sign), a conjunct (ka, virama, ka) and a vowel sign
example : Cluster graphemeClasses ['\u0600', 'क', '\u094D', 'क', '\u093E'] :=
  .cluster ['\u0600'] ['क', '\u094D', 'क'] ['\u093E'] (by decide +kernel)
    (.conjuncts (.more ['क'] ['\u094D'] 'क' (.one _ (by decide +kernel)) (by decide +kernel) (by decide +kernel) (by decide +kernel)))
    (by decide +kernel)
-- two people with a ZWJ, and a flag
example : Cluster graphemeClasses ['👩', '🏽', '‍', '👨'] :=
  .cluster [] ['👩', '🏽', '‍', '👨'] [] (by simp)
    (.picto (.more ['👩'] ['🏽'] '‍' '👨' (.one _ (by decide +kernel)) (by decide +kernel) (by decide +kernel) (by decide +kernel)))
    (by simp)
example : Cluster graphemeClasses ['🇩', '🇪'] :=
  .cluster [] ['🇩', '🇪'] [] (by simp) (.flag _ _ (by decide +kernel) (by decide +kernel)) (by simp)
-- two letters are no match, neither are the marks before a pictograph and it
example : ¬ Cluster graphemeClasses ['a', 'b'] ∧ ¬ Cluster graphemeClasses ['\u0301', '‍', '👨'] := by
  have h1 : ¬ JoinsNext ['a'] 'b' := by unfold JoinsNext; decide +kernel
  have h2 : ¬ JoinsNext ['\u0301', '‍'] '👨' := by unfold JoinsNext; decide +kernel
  exact ⟨fun h => h1 ((cluster_iff.mp h).2 ['a'] 'b' [] rfl (by simp)),
    fun h => h2 ((cluster_iff.mp h).2 ['\u0301', '‍'] '👨' [] rfl (by simp))⟩
example : defaultTokens .graphemes (utf8 ['\u0600', 'क', '\u094D', 'क', '\u093E', '🇩', '🇪', '🇩', '\r', '\n', 'a'])
    = .ok [utf8 ['\u0600', 'क', '\u094D', 'क', '\u093E'], utf8 ['🇩', '🇪'], utf8 ['🇩'], utf8 ['\r', '\n'], utf8 ['a']] := by
  decide +kernel

end Uax29
