import Verif.Props.Ascii
/-! # Property C92: sentences of ASCII text -/
namespace Uax29
open Spec Spec.Ascii

/-! ## the properties of ASCII characters -/

/-- What the rules ask of an ASCII character. -/
structure AsciiSB (x : SB) (c : Char) : Prop where
  cr : x = .CR ↔ c = '\r'
  lf : x = .LF ↔ c = '\n'
  para : x.paraSep = lineEnd c
  sp : x = .Sp ↔ blank c = true
  close : x = .Close ↔ closing c = true
  aterm : x = .ATerm ↔ c = '.'
  term : x.saTerm = terminator c
  num : x = .Numeric ↔ digit c = true
  up : x = .Upper ↔ upper c = true
  low : x = .Lower ↔ lower c = true
  letters : x = .Upper ∨ x = .Lower ↔ letter c = true
  cont : (x.paraSep || decide (x = .Sp) || x.saTerm || decide (x = .SContinue)) = continues c
  stops : x.stops = (letter c || lineEnd c || terminator c)
  ignorable : x.ignorable = false

instance (x : SB) (c : Char) : Decidable (AsciiSB x c) :=
  decidable_of_iff ((x = .CR ↔ c = '\r') ∧ (x = .LF ↔ c = '\n') ∧ x.paraSep = lineEnd c ∧ (x = .Sp ↔ blank c = true)
    ∧ (x = .Close ↔ closing c = true) ∧ (x = .ATerm ↔ c = '.') ∧ x.saTerm = terminator c ∧ (x = .Numeric ↔ digit c = true)
    ∧ (x = .Upper ↔ upper c = true) ∧ (x = .Lower ↔ lower c = true) ∧ (x = .Upper ∨ x = .Lower ↔ letter c = true)
    ∧ (x.paraSep || decide (x = .Sp) || x.saTerm || decide (x = .SContinue)) = continues c
    ∧ x.stops = (letter c || lineEnd c || terminator c) ∧ x.ignorable = false)
    ⟨fun ⟨h1, h2, h3, h4, h5, h6, h7, h8, h9, h10, h11, h12, h13, h14⟩ => ⟨h1, h2, h3, h4, h5, h6, h7, h8, h9, h10, h11, h12, h13, h14⟩,
     fun ⟨h1, h2, h3, h4, h5, h6, h7, h8, h9, h10, h11, h12, h13, h14⟩ => ⟨h1, h2, h3, h4, h5, h6, h7, h8, h9, h10, h11, h12, h13, h14⟩⟩

theorem ascii_sentences (c : Char) (hc : c.toNat < 0x80) : AsciiSB (sentenceClass c) c :=
  of_decide_eq_true (ascii_ofNat (fun c => decide (AsciiSB (sentenceClass c) c)) (by decide +kernel) c hc)

/-! ## the rules without Extend and Format -/

theorem dropWhile_pass {p : SB → Bool} : ∀ {s l : List SB}, (∀ x ∈ s, p x = true) → (s ++ l).dropWhile p = l.dropWhile p
  | [], _, _ => rfl
  | a :: s, l, h => by
    rw [List.cons_append, List.dropWhile_cons, if_pos (h a List.mem_cons_self), dropWhile_pass fun x hx => h x (List.mem_cons_of_mem _ hx)]

theorem dropWhile_stop {p : SB → Bool} {t : SB} {l : List SB} (h : p t = false) : (t :: l).dropWhile p = t :: l := by
  rw [List.dropWhile_cons, if_neg (by simp [h])]

/-- Text before a position that ends with a terminator, `Close*` and `Sp*`, nearest first. -/
theorem endsCloseSp_iff {l : List SB} : endsCloseSp (·.saTerm) l = true ↔
    ∃ s q t p, l = s ++ (q ++ t :: p) ∧ (∀ x ∈ s, x = .Sp) ∧ (∀ x ∈ q, x = .Close) ∧ t.saTerm = true := by
  constructor
  · intro h
    simp only [endsCloseSp, endsClose] at h
    have e1 := List.takeWhile_append_dropWhile (p := fun x => decide (x = SB.Sp)) (l := l)
    have e2 := List.takeWhile_append_dropWhile (p := fun x => decide (x = SB.Close)) (l := l.dropWhile fun x => decide (x = SB.Sp))
    cases hd : (l.dropWhile fun x => decide (x = SB.Sp)).dropWhile fun x => decide (x = SB.Close) with
    | nil => rw [hd] at h; cases h
    | cons t p =>
      rw [hd] at h e2
      refine ⟨l.takeWhile fun x => decide (x = SB.Sp), (l.dropWhile fun x => decide (x = SB.Sp)).takeWhile fun x => decide (x = SB.Close),
        t, p, ?_, ?_, ?_, h⟩
      · rw [e2, e1]
      · intro x hx
        exact of_decide_eq_true (List.all_eq_true.mp List.all_takeWhile x hx)
      · intro x hx
        exact of_decide_eq_true (List.all_eq_true.mp List.all_takeWhile x hx)
  · rintro ⟨s, q, t, p, rfl, hs, hq, ht⟩
    have h1 : (s ++ (q ++ t :: p)).dropWhile (fun x => decide (x = SB.Sp)) = q ++ t :: p := by
      rw [dropWhile_pass (by simpa using hs)]
      cases q with
      | nil => exact dropWhile_stop (by cases t <;> first | rfl | cases ht)
      | cons c q => exact dropWhile_stop (by rw [hq c List.mem_cons_self]; rfl)
    have h2 : (q ++ t :: p).dropWhile (fun x => decide (x = SB.Close)) = t :: p := by
      rw [dropWhile_pass (by simpa using hq)]
      exact dropWhile_stop (by cases t <;> first | rfl | cases ht)
    simp only [endsCloseSp, endsClose, h1, h2]
    exact ht

/-- SB6 to SB998 after a terminator. -/
theorem sunitJoins_mark {s q p : List SB} {t b : SB} {ahead : Bool} (hs : ∀ x ∈ s, x = .Sp) (hq : ∀ x ∈ q, x = .Close)
    (ht : t.saTerm = true) :
    sunitJoins ahead (s ++ (q ++ t :: p)) b =
      ((decide (t = .ATerm) && ahead)
        || (decide (t = .ATerm) && q.isEmpty && s.isEmpty
          && (decide (b = .Numeric) || (decide (b = .Upper) && p.head?.any fun x => decide (x = .Upper) || decide (x = .Lower))))
        || (b.paraSep || decide (b = .Sp) || b.saTerm || decide (b = .SContinue)) || (s.isEmpty && decide (b = .Close))) := by
  have h1 : (s ++ (q ++ t :: p)).dropWhile (fun x => decide (x = SB.Sp)) = q ++ t :: p := by
    rw [dropWhile_pass (by simpa using hs)]
    cases q with
    | nil => exact dropWhile_stop (by cases t <;> first | rfl | cases ht)
    | cons c q => exact dropWhile_stop (by rw [hq c List.mem_cons_self]; rfl)
  have h2 : (q ++ t :: p).dropWhile (fun x => decide (x = SB.Close)) = t :: p := by
    rw [dropWhile_pass (by simpa using hq)]
    exact dropWhile_stop (by cases t <;> first | rfl | cases ht)
  have e1 : ∀ X, endsCloseSp X (s ++ (q ++ t :: p)) = X t := by
    intro X
    simp only [endsCloseSp, endsClose, h1, h2, List.head?_cons, Option.any_some]
  cases s with
  | nil =>
    have e2 : endsClose (·.saTerm) (q ++ t :: p) = true := by
      simp only [endsClose, h2, List.head?_cons, Option.any_some, ht]
    simp only [List.nil_append] at e1 ⊢
    cases q with
    | nil =>
      simp only [List.nil_append] at e1 e2 ⊢
      simp only [sunitJoins, e1, e2, List.head?_cons, List.tail_cons, Option.any_some, ht]
      generalize (p.head?.any fun x => decide (x = SB.Upper) || decide (x = SB.Lower)) = u
      cases t <;> first | exact absurd ht (by decide) | (cases b <;> cases u <;> cases ahead <;> rfl)
    | cons c q =>
      have := hq c List.mem_cons_self
      subst this
      simp only [List.cons_append] at e1 e2 ⊢
      simp only [sunitJoins, e1, e2, List.head?_cons, List.tail_cons, Option.any_some, ht]
      generalize ((q ++ t :: p).head?.any fun x => decide (x = SB.Upper) || decide (x = SB.Lower)) = u
      cases t <;> first | exact absurd ht (by decide) | (cases b <;> cases u <;> cases ahead <;> rfl)
  | cons c s =>
    have := hs c List.mem_cons_self
    subst this
    have e2 : endsClose (·.saTerm) (SB.Sp :: s ++ (q ++ t :: p)) = false := rfl
    simp only [List.cons_append] at e1 e2 ⊢
    simp only [sunitJoins, e1, e2, List.head?_cons, List.tail_cons, Option.any_some, ht]
    generalize ((s ++ (q ++ t :: p)).head?.any fun x => decide (x = SB.Upper) || decide (x = SB.Lower)) = u
    generalize q.isEmpty = v
    cases t <;> first | exact absurd ht (by decide) | (cases b <;> cases u <;> cases ahead <;> cases v <;> rfl)

theorem sunits_kept : ∀ {l : List SB}, (∀ x ∈ l, x.ignorable = false) → sunits l = l
  | [], _ => rfl
  | [_], _ => rfl
  | a :: c :: l, h => by
    rw [sunits, if_neg (by simp [h a List.mem_cons_self]), sunits_kept fun x hx => h x (List.mem_cons_of_mem _ hx)]

/-- A boundary by SB11. -/
theorem sunitJoins_ends {l : List SB} {b : SB} {ahead : Bool} (h : sunitJoins ahead l b = false)
    (hp : l.head?.any (·.paraSep) = false) : endsCloseSp (·.saTerm) l = true := by
  unfold sunitJoins at h
  simp only [hp, Bool.false_and, Bool.or_false] at h
  cases he : endsCloseSp (·.saTerm) l with
  | true => rfl
  | false =>
    simp only [he, Bool.false_and, Bool.false_eq_true, if_false] at h
    split at h
    · cases h
    · split at h
      · cases h
      · split at h
        · cases h
        · split at h
          · cases h
          · cases h

/-! ## C92 -/

local notation "sc" => sentenceClass

theorem smallFirst_eq : ∀ {l : List Char}, (∀ c ∈ l, AsciiSB (sc c) c) → lowerAhead (l.map sc) = smallFirst l
  | [], _ => rfl
  | c :: l, h => by
    have hc := h c List.mem_cons_self
    have ih := smallFirst_eq fun c hc => h c (List.mem_cons_of_mem _ hc)
    simp only [lowerAhead, smallFirst, List.map_cons, List.dropWhile_cons] at ih ⊢
    rw [hc.stops]
    cases hb : (letter c || lineEnd c || terminator c) with
    | false => simpa using ih
    | true =>
      simp only [Bool.not_true, Bool.false_eq_true, if_false, List.head?_cons, Option.any_some, Option.some.injEq]
      exact Bool.eq_iff_iff.mpr (by rw [decide_eq_true_iff]; exact hc.low)

/-- After a terminator, the text before it nearest character first. -/
theorem mark_iff {s q p r : List Char} {t y : Char} (h : ∀ c ∈ s ++ (q ++ t :: p), AsciiSB (sc c) c)
    (hr : ∀ c ∈ y :: r, AsciiSB (sc c) c) (ht : terminator t = true) (hq : ∀ c ∈ q, closing c = true)
    (hs : ∀ c ∈ s, blank c = true) :
    sunitJoins (lowerAhead ((y :: r).map sc)) ((s ++ (q ++ t :: p)).map sc) (sc y) = false ↔
      continues y = false ∧ (s = [] → closing y = false) ∧ (t = '.' → smallFirst (y :: r) = false)
      ∧ (t = '.' → q = [] → s = [] → digit y = false)
      ∧ (t = '.' → q = [] → s = [] → upper y = true → p.head?.any letter = false) := by
  have hy := hr y List.mem_cons_self
  have htt := h t (by simp)
  have hp : (p.map sc).head?.any (fun x => decide (x = .Upper) || decide (x = .Lower)) = p.head?.any letter := by
    cases p with
    | nil => rfl
    | cons c p =>
      have := (h c (by simp)).letters
      simp only [List.map_cons, List.head?_cons, Option.any_some]
      exact Bool.eq_iff_iff.mpr (by simpa using this)
  rw [List.map_append, List.map_append, List.map_cons (a := t), sunitJoins_mark, hp, smallFirst_eq hr, hy.cont]
  · have e1 : decide (sc t = .ATerm) = decide (t = '.') := decide_eq_decide.mpr htt.aterm
    have e2 : decide (sc y = .Numeric) = digit y := Bool.eq_iff_iff.mpr (by simpa using hy.num)
    have e3 : decide (sc y = .Upper) = upper y := Bool.eq_iff_iff.mpr (by simpa using hy.up)
    have e4 : decide (sc y = .Close) = closing y := Bool.eq_iff_iff.mpr (by simpa using hy.close)
    rw [e1, e2, e3, e4]
    cases s <;> cases q <;> simp <;> grind
  · intro x hx
    obtain ⟨c, hc, rfl⟩ := List.mem_map.mp hx
    exact (h c (by simp [hc])).sp.mpr (hs c hc)
  · intro x hx
    obtain ⟨c, hc, rfl⟩ := List.mem_map.mp hx
    exact (h c (by simp [hc])).close.mpr (hq c hc)
  · rw [htt.term]; exact ht

theorem not_lineEnd {c : Char} (h : terminator c = true ∨ closing c = true ∨ blank c = true) : lineEnd c = false := by
  simp only [terminator, closing, blank, Bool.or_eq_true, decide_eq_true_eq] at h
  rcases h with ((rfl | rfl) | rfl) | (((((((rfl | rfl) | rfl) | rfl) | rfl) | rfl) | rfl) | rfl) | (((rfl | rfl) | rfl) | rfl) <;> decide

theorem sentenceBreak_ascii {a b : List Char} (h : ∀ c ∈ a ++ b, AsciiSB (sc c) c) (ha : a ≠ []) (hb : b ≠ []) :
    sentenceBreak (a.map sc) (b.map sc) = true ↔ SentenceEnds a b := by
  rcases reverse_cases a with rfl | ⟨x, l, rfl⟩
  · exact absurd rfl ha
  obtain ⟨y, r, rfl⟩ := List.exists_cons_of_ne_nil hb
  have hl : ∀ c ∈ x :: l, AsciiSB (sc c) c := fun c hc => h c (List.mem_append_left _ (List.mem_reverse.mpr hc))
  have hr : ∀ c ∈ y :: r, AsciiSB (sc c) c := fun c hc => h c (List.mem_append_right _ hc)
  have hx := hl x List.mem_cons_self
  have hy := hr y List.mem_cons_self
  have hu : sunits ((x :: l).map sc) = (x :: l).map sc :=
    sunits_kept fun z hz => by obtain ⟨c, hc, rfl⟩ := List.mem_map.mp hz; exact (hl c hc).ignorable
  have e : sentenceBreak (((x :: l).reverse).map sc) ((y :: r).map sc) = true ↔
      ¬ (x = '\r' ∧ y = '\n') ∧ (lineEnd x = true ∨ sunitJoins (lowerAhead ((y :: r).map sc)) ((x :: l).map sc) (sc y) = false) := by
    rw [sentenceBreak, ← List.map_reverse, List.reverse_reverse, sjoins]
    have e0 : sjoinsIf (lowerAhead ((y :: r).map sc)) ((x :: l).map sc) ((y :: r).map sc) =
        (if sc x = .CR && sc y = .LF then true else if (sc x).paraSep then false
          else if (sc y).ignorable then true else sunitJoins (lowerAhead ((y :: r).map sc)) (sunits ((x :: l).map sc)) (sc y)) := rfl
    rw [e0, hu, hx.para, hy.ignorable]
    by_cases h1 : x = '\r' ∧ y = '\n'
    · rw [if_pos (by rw [hx.cr.mpr h1.1, hy.lf.mpr h1.2]; rfl)]
      exact ⟨fun h0 => by simp at h0, fun h0 => absurd h1 h0.1⟩
    · have h2 : ¬ (sc x = .CR ∧ sc y = .LF) := fun h3 => h1 ⟨hx.cr.mp h3.1, hy.lf.mp h3.2⟩
      simp only [h1, not_false_eq_true, true_and]
      rw [if_neg (by simpa using h2)]
      cases lineEnd x <;> simp
  rw [e]
  constructor
  · rintro ⟨h1, h2⟩
    cases hle : lineEnd x with
    | true =>
      rw [List.reverse_cons]
      exact .line _ _ x hle (by simpa using h1)
    | false =>
      have h3 := h2.resolve_left (by simp [hle])
      obtain ⟨s, q, t, p, e1, e2, e3, e4⟩ := endsCloseSp_iff.mp (sunitJoins_ends h3 (by
        simp only [List.map_cons, List.head?_cons, Option.any_some, hx.para, hle]))
      obtain ⟨s', w, k1, rfl, k2⟩ := List.map_eq_append_iff.mp e1
      obtain ⟨q', w', rfl, rfl, k3⟩ := List.map_eq_append_iff.mp k2
      obtain ⟨t', p', rfl, rfl, rfl⟩ := List.map_eq_cons_iff.mp k3
      rw [k1] at hl h3 ⊢
      have m1 : terminator t' = true := by rw [← (hl t' (by simp)).term]; exact e4
      have m2 : ∀ c ∈ q', closing c = true := fun c hc => (hl c (by simp [hc])).close.mp (e3 _ (List.mem_map_of_mem hc))
      have m3 : ∀ c ∈ s', blank c = true := fun c hc => (hl c (by simp [hc])).sp.mp (e2 _ (List.mem_map_of_mem hc))
      obtain ⟨n1, n2, n3, n4, n5⟩ := (mark_iff hl hr m1 m2 m3).mp h3
      have := SentenceEnds.mark p'.reverse q'.reverse s'.reverse r t' y m1 (by simpa using m2) (by simpa using m3) n1
        (by simpa using n2) n3 (by simpa using n4) (by simpa using n5)
      simpa using this
  · intro hse
    generalize hA : (x :: l).reverse = A at hse
    generalize hB : y :: r = B at hse
    cases hse with
    | line a b z hz hcr =>
      have hA' := congrArg List.reverse hA
      simp only [List.reverse_reverse, List.reverse_append, List.reverse_cons, List.reverse_nil, List.nil_append,
        List.cons_append, List.cons.injEq] at hA'
      obtain ⟨rfl, _⟩ := hA'
      subst hB
      exact ⟨by simpa using hcr, .inl hz⟩
    | mark a q s b t y' ht hq hs h1 h2 h3 h4 h5 =>
      cases hB
      have hA' : x :: l = s.reverse ++ (q.reverse ++ t :: a.reverse) := by
        have := congrArg List.reverse hA
        simpa using this
      have hne : lineEnd x = false := by
        refine not_lineEnd ?_
        cases hs' : s.reverse with
        | cons c s' =>
          rw [hs'] at hA'
          cases hA'
          exact .inr (.inr (hs x (List.mem_reverse.mp (by rw [hs']; exact List.mem_cons_self))))
        | nil =>
          rw [hs'] at hA'
          cases hq' : q.reverse with
          | cons c q' =>
            rw [hq'] at hA'
            cases hA'
            exact .inr (.inl (hq x (List.mem_reverse.mp (by rw [hq']; exact List.mem_cons_self))))
          | nil =>
            rw [hq'] at hA'
            cases hA'
            exact .inl ht
      refine ⟨fun h0 => by rw [h0.1] at hne; exact absurd hne (by decide), .inr ?_⟩
      rw [hA'] at hl ⊢
      refine (mark_iff hl hr ht (by simpa using hq) (by simpa using hs)).mpr ⟨h1, by simpa using h2, h3, by simpa using h4, by simpa using h5⟩

/-- **C92** The sentences of ASCII text: where they end is said by `SentenceEnds` without tables and rules. -/
theorem C92_sentences (s : List Char) (h : ∀ c ∈ s, c.toNat < 0x80) :
    ∃ ws : List (List Char), defaultTokens .sentences (utf8 s) = .ok (ws.map utf8) ∧ ws.flatten = s ∧ (∀ w ∈ ws, w ≠ [])
      ∧ ∀ a b, s = a ++ b → a ≠ [] → b ≠ [] → (Boundary ws a ↔ SentenceEnds a b) := by
  obtain ⟨ws, w1, w2, w3, w4⟩ := C10_conform s
  refine ⟨ws, w1, w2, w3, fun a b hab ha hb => ?_⟩
  rw [w4 a b hab]
  exact sentenceBreak_ascii (fun c hc => ascii_sentences c (h c (by rw [hab]; exact hc))) ha hb

example : defaultTokens .sentences (utf8 "He said \"Hi!\" to us. (Yes.) It is 3.4 in the U.S. now, etc. and so on?! No.\r\nOk.".toList)
    = .ok (["He said \"Hi!\" ", "to us. ", "(Yes.) ", "It is 3.4 in the U.S. now, etc. and so on?! ", "No.\r\n", "Ok."].map
      fun t => utf8 t.toList) := by decide +kernel
-- The same by `SentenceEnds`: between "us. " and "(Yes", and not before "now".
example : SentenceEnds "to us. ".toList "(Yes.)".toList :=
  .mark "to us".toList [] " ".toList "Yes.)".toList '.' '(' (by decide) (by decide) (by decide) (by decide) (by decide) (by decide)
    (by decide) (by decide)
example : smallFirst "now, etc.".toList = true ∧ smallFirst "(Yes.)".toList = false := by decide

end Uax29
