import Verif.Proofs.Hangul
import Verif.Spec.RunLength
/-! # Rules that do not count the characters of a run -/
set_option maxRecDepth 20000
namespace Uax29
open Spec

local notation "gc" => graphemeClasses
local notation "wc" => wordClasses
local notation "sc" => sentenceClass

/-- Rules that do not count characters of the same kind, for the kinds of `forms`. -/
structure Uncounted {K : Type} (J : List K → List K → Bool) (cl : Char → K) (forms : K → Bool) : Prop where
  left : ∀ x, forms x = true → (∃ c, cl c = x) → ∀ B A C, J (B ++ x :: x :: A) C = J (B ++ x :: A) C
  right : ∀ x, forms x = true → (∃ c, cl c = x) → ∀ L B A, J L (B ++ x :: x :: A) = J L (B ++ x :: A)
  inside : ∀ x, forms x = true → (∃ c, cl c = x) → ∀ A C, J (x :: A) (x :: C) = true

section
variable {α K : Type} {cl₀ : α → K} {cl : Char → K} {forms : K → Bool} {f : α → List Char} {J : List K → List K → Bool}

theorem map_replicate {c : α} (h : ∀ d ∈ f c, cl d = cl₀ c) : (f c).map cl = List.replicate (f c).length (cl₀ c) := by
  rw [List.eq_replicate_iff]
  refine ⟨by simp, fun x hx => ?_⟩
  obtain ⟨d, hd, rfl⟩ := List.mem_map.mp hx
  exact h d hd

/-- Such rules do not tell a character from a run of its kind. -/
theorem Uncounted.replacing (hJ : Uncounted J cl forms) (hne : ∀ c, f c ≠ []) (hs : ∀ c, ∀ d ∈ f c, cl d = cl₀ c)
    (h1 : ∀ c, forms (cl₀ c) = true ∨ (f c).length = 1) : Replacing f J cl₀ cl := by
  have real : ∀ c, ∃ d, cl d = cl₀ c := fun c => by
    obtain ⟨d, r, e⟩ := List.exists_cons_of_ne_nil (hne c)
    exact ⟨d, hs c d (by rw [e]; exact List.mem_cons_self)⟩
  have len : ∀ c, ∃ n, (f c).length = n + 1 ∧ (forms (cl₀ c) = true ∨ n = 0) := fun c => by
    have := List.length_pos_iff.mpr (hne c)
    refine ⟨(f c).length - 1, by omega, ?_⟩
    rcases h1 c with h | h
    · exact .inl h
    · exact .inr (by omega)
  refine ⟨hne, ?_, ?_, ?_⟩
  · intro c B A C
    rw [map_replicate (hs c), List.reverse_replicate]
    obtain ⟨n, hn, hf⟩ := len c
    rw [hn]
    clear hn
    induction n with
    | zero => rfl
    | succ n ih =>
      have hf : forms (cl₀ c) = true := by simpa using hf
      rw [← ih (.inl hf), List.replicate_succ, List.replicate_succ, List.cons_append, List.cons_append,
        hJ.left _ hf (real c)]
  · intro L b
    have key : ∀ b B, J L (B ++ (expand f b).map cl) = J L (B ++ b.map cl₀) := by
      intro b
      induction b with
      | nil => intro B; rfl
      | cons c b ih =>
        intro B
        have := ih (B ++ [cl₀ c])
        rw [List.append_assoc, List.append_assoc] at this
        rw [List.map_cons, show cl₀ c :: b.map cl₀ = [cl₀ c] ++ b.map cl₀ from rfl, ← this, expand_cons, List.map_append,
          map_replicate (hs c)]
        obtain ⟨n, hn, hf⟩ := len c
        rw [hn]
        clear hn
        induction n with
        | zero => rfl
        | succ n ih =>
          have hf : forms (cl₀ c) = true := by simpa using hf
          rw [← ih (.inl hf), List.replicate_succ, List.replicate_succ, List.cons_append, List.cons_append,
            hJ.right _ hf (real c)]
    exact key b []
  · intro c x y e hx hy A C
    obtain ⟨i, k, rfl⟩ : ∃ i k, x = i ++ [k] := ⟨_, _, (List.dropLast_concat_getLast hx).symm⟩
    obtain ⟨y0, y1, rfl⟩ := List.exists_cons_of_ne_nil hy
    have hf : forms (cl₀ c) = true := by
      rcases h1 c with h | h
      · exact h
      · rw [e] at h; simp at h; omega
    have e1 := hs c k (by simp [e])
    have e2 := hs c y0 (by simp [e])
    simp only [List.map_append, List.map_cons, List.map_nil, List.reverse_append, List.reverse_cons, List.reverse_nil,
      List.nil_append, List.cons_append, e1, e2]
    exact hJ.inside _ hf (real c) _ _

end

theorem Uncounted.stretches {K : Type} {cl : Char → K} {forms : K → Bool} {f : Char → List Char} {J : List K → List K → Bool}
    (hJ : Uncounted J cl forms) (hf : Stretches cl forms f) : Replacing f J cl cl := by
  refine hJ.replacing (fun c => ?_) (fun c d hd => ?_) (fun c => ?_)
  · rcases hf c with h | h
    · rw [h]; simp
    · exact h.2.1
  · rcases hf c with h | h
    · rw [h, List.mem_singleton] at hd; rw [hd]
    · exact h.2.2 d hd
  · rcases hf c with h | h
    · exact .inr (by rw [h]; rfl)
    · exact .inl h.1

theorem head_double {α : Type} {p : α → Bool} (x : α) (B A : List α) :
    ((B ++ x :: x :: A).dropWhile p).head? = ((B ++ x :: A).dropWhile p).head? := by
  induction B with
  | nil => by_cases h : p x = true <;> simp [h]
  | cons b B ih =>
    simp only [List.cons_append, List.dropWhile_cons]
    split
    · exact ih
    · rfl

theorem dropWhile_double {α : Type} {p q : α → Bool} (x : α) (B A : List α) :
    ((B ++ x :: x :: A).dropWhile p).head?.any q = ((B ++ x :: A).dropWhile p).head?.any q := by
  rw [head_double]

theorem takeWhile_double {α : Type} {p q : α → Bool} (x : α) (B A : List α) :
    ((B ++ x :: x :: A).takeWhile p).any q = ((B ++ x :: A).takeWhile p).any q := by
  induction B with
  | nil => by_cases h : p x = true <;> simp [h]
  | cons b B ih =>
    simp only [List.cons_append, List.takeWhile_cons]
    split
    · rw [List.any_cons, List.any_cons, ih]
    · rfl

/-! ## Graphemes -/

theorem gforms_only {c : Char} (h : (gc c).forms = true) : (gc c).control = false ∧ gc c .ZWJ = false
    ∧ gc c .RegionalIndicator = false := by
  have := classes_none (fun g _ _ => g.forms && (g.control || g .ZWJ || g .RegionalIndicator)) (by decide +kernel) c
  rw [h] at this
  simpa [and_assoc] using this

theorem uncounted_graphemes : Uncounted graphemeJoins graphemeClasses GSet.forms := by
  refine ⟨?_, ?_, ?_⟩
  · rintro x hx ⟨c, rfl⟩ B A C
    obtain ⟨h1, h2, h3⟩ := gforms_only hx
    generalize gc c = x at *
    have e1 : conjunct (B ++ x :: x :: A) = conjunct (B ++ x :: A) := by
      simp only [conjunct, drop_takeWhile_part]
      rw [takeWhile_double, dropWhile_double]
    have e2 : pictographZwj (B ++ x :: x :: A) = pictographZwj (B ++ x :: A) := by
      cases B with
      | nil => simp [pictographZwj, h2]
      | cons b B =>
        simp only [pictographZwj, List.cons_append, List.head?_cons, List.tail_cons]
        rw [dropWhile_double]
    have e3 : oddIndicators (B ++ x :: x :: A) = oddIndicators (B ++ x :: A) := by
      simp only [oddIndicators]
      rw [takeWhile_part (p := fun y : GSet => y .RegionalIndicator) h3, takeWhile_part (p := fun y : GSet => y .RegionalIndicator) h3]
    cases C with
    | nil => cases B <;> rfl
    | cons d C =>
      cases B with
      | nil => simp only [List.nil_append] at e1 e2 e3 ⊢; simp only [graphemeJoins, e1, e2, e3]
      | cons b B => simp only [List.cons_append] at e1 e2 e3 ⊢; simp only [graphemeJoins, e1, e2, e3]
  · intro x hx _ L B A
    cases L with
    | nil => cases B <;> rfl
    | cons => cases B <;> rfl
  · rintro x hx ⟨c, rfl⟩ A C
    obtain ⟨h1, h2, h3⟩ := gforms_only hx
    have hcr : gc c .CR = false := by
      simp only [GSet.control, Bool.or_eq_false_iff] at h1
      exact h1.1.2
    simp only [graphemeJoins, h1, hcr]
    simp only [GSet.forms, Bool.or_eq_true] at hx
    rcases hx with ((((hx | hx) | hx) | hx) | hx) | hx <;> simp [hx]

/-! ## Words and phrases -/

theorem forms_only (ph : Bool) {c : Char} (h : (wc c).forms ph = true) : (wc c).newline = false ∧ (wc c).midLetter = false
    ∧ (wc c).midNum = false ∧ wc c .DoubleQuote = false ∧ wc c .RegionalIndicator = false := by
  have := classes_none (fun _ w _ => w.forms ph && (w.newline || w.midLetter || w.midNum || w .DoubleQuote
    || w .RegionalIndicator)) (by cases ph <;> decide +kernel) c
  rw [h] at this
  simpa [and_assoc] using this

theorem units_double {x : WSet} (hx : x.newline = false) (hi : x.ignorable = true) (A : List WSet) :
    ∀ B : List WSet, units (B ++ x :: x :: A) = units (B ++ x :: A)
  | [] => by
    rw [List.nil_append, List.nil_append, units]
    simp [hi, hx]
  | b :: B => by
    have ih := units_double hx hi A B
    cases B with
    | nil =>
      simp only [List.nil_append, List.cons_append] at ih ⊢
      rw [units, ih]
      conv => rhs; rw [units]
    | cons c B =>
      simp only [List.cons_append] at ih ⊢
      rw [units, ih]
      conv => rhs; rw [units]

theorem joins_double (ph : Bool) {x : WSet} (hx : x.newline = false) (hi : x.ignorable = true) (B A C : List WSet) :
    joins ph (B ++ x :: x :: A) C = joins ph (B ++ x :: A) C := by
  have h := units_double hx hi A B
  cases C with
  | nil => cases B <;> rfl
  | cons c C =>
    cases B with
    | nil => simp only [List.nil_append] at h ⊢; simp only [joins, h]
    | cons b B => simp only [List.cons_append] at h ⊢; simp only [joins, h]

theorem uncounted_words (ph : Bool) : Uncounted (joins ph) wordClasses (WSet.forms ph) := by
  refine ⟨?_, ?_, ?_⟩
  · rintro x hx ⟨c, rfl⟩ B A C
    obtain ⟨h1, h3, h4, h5, h6⟩ := forms_only ph hx
    by_cases h2 : (wc c).ignorable = true
    · exact joins_double ph h1 h2 B A C
    · have h2 : (wc c).ignorable = false := by simpa using h2
      rw [joins_forget ph h2 h3 h4 h5 h6, joins_forget ph h2 h3 h4 h5 h6 B A]
  · rintro x hx ⟨c, rfl⟩ L B A
    cases L with
    | nil => cases B <;> rfl
    | cons a L =>
      cases B with
      | nil =>
        obtain ⟨h1, h3, h4, h5, h6⟩ := forms_only ph hx
        simp [joins, unitJoins, h3, h4, h5]
      | cons b B =>
        have := head_double (p := (·.ignorable)) (wc c) B A
        simp only [List.cons_append, joins, this]
  · rintro x hx ⟨c, rfl⟩ A C
    obtain ⟨h1, h3, h4, h5, h6⟩ := forms_only ph hx
    have hcr : wc c .CR = false := by
      simp only [WSet.newline, Bool.or_eq_false_iff] at h1
      exact h1.1.2
    simp only [joins, h1, hcr]
    by_cases h2 : (wc c).ignorable = true
    · simp [h2]
    · have h2 : (wc c).ignorable = false := by simpa using h2
      rw [units_cons_solid h2]
      simp only [WSet.ignorable, Bool.or_eq_false_iff] at h2
      simp only [WSet.forms, h2, Bool.or_false, Bool.or_eq_true, Bool.and_eq_true] at hx
      rcases hx with (((((hx | hx) | hx) | hx) | hx) | hx) | ⟨hp, hx⟩ <;>
        simp [*, unitJoins, WSet.alnum, WSet.ahLetter]

/-! ## Sentences -/

theorem sforms_only {x : SB} (h : x.forms = true) : x.paraSep = false ∧ x ≠ .CR ∧ x ≠ .ATerm ∧ x ≠ .LF := by
  revert h
  cases x <;> decide

theorem sunits_double {x : SB} (hx : x.paraSep = false) (hi : x.ignorable = true) (A : List SB) :
    ∀ B : List SB, sunits (B ++ x :: x :: A) = sunits (B ++ x :: A)
  | [] => by
    rw [List.nil_append, List.nil_append, sunits]
    simp [hi, hx]
  | b :: B => by
    have ih := sunits_double hx hi A B
    cases B with
    | nil =>
      simp only [List.nil_append, List.cons_append] at ih ⊢
      rw [sunits, ih]
      conv => rhs; rw [sunits]
    | cons c B =>
      simp only [List.cons_append] at ih ⊢
      rw [sunits, ih]
      conv => rhs; rw [sunits]

theorem sunits_twice {x : SB} (hi : x.ignorable = false) (A : List SB) (B : List SB) :
    ∃ U, sunits (B ++ x :: x :: A) = U ++ x :: x :: sunits A ∧ sunits (B ++ x :: A) = U ++ x :: sunits A := by
  induction B with
  | nil => exact ⟨[], by simp [sunits_solid hi], by simp [sunits_solid hi]⟩
  | cons b B ih =>
    obtain ⟨U, h1, h2⟩ := ih
    cases B with
    | nil =>
      simp only [List.nil_append, List.cons_append] at h1 h2 ⊢
      rw [sunits]
      conv => enter [1, U, 2]; rw [sunits]
      split
      · exact ⟨U, h1, h2⟩
      · exact ⟨b :: U, by rw [h1]; rfl, by rw [h2]; rfl⟩
    | cons c B =>
      simp only [List.cons_append] at h1 h2 ⊢
      rw [sunits]
      conv => enter [1, U, 2]; rw [sunits]
      split
      · exact ⟨U, h1, h2⟩
      · exact ⟨b :: U, by rw [h1]; rfl, by rw [h2]; rfl⟩

theorem endsClose_double (X : SB → Bool) (x : SB) (U V : List SB) :
    endsClose X (U ++ x :: x :: V) = endsClose X (U ++ x :: V) := dropWhile_double x U V

theorem endsCloseSp_double (X : SB → Bool) (x : SB) (U V : List SB) :
    endsCloseSp X (U ++ x :: x :: V) = endsCloseSp X (U ++ x :: V) := by
  induction U with
  | nil =>
    by_cases h : x = .Sp
    · subst h; simp only [List.nil_append, endsCloseSp_sp]
    · rw [List.nil_append, List.nil_append, endsCloseSp_not _ h, endsCloseSp_not _ h]
      exact endsClose_double X x [] V
  | cons u U ih =>
    by_cases h : u = .Sp
    · subst h; rw [List.cons_append, List.cons_append, endsCloseSp_sp, endsCloseSp_sp, ih]
    · rw [List.cons_append, List.cons_append, endsCloseSp_not _ h, endsCloseSp_not _ h]
      exact endsClose_double X x (u :: U) V

/-- The rules do not count characters of the same kind. -/
theorem sunitJoins_double (ahead : Bool) {x : SB} (hx : x.forms = true) (U V : List SB) (c : SB) :
    sunitJoins ahead (U ++ x :: x :: V) c = sunitJoins ahead (U ++ x :: V) c := by
  obtain ⟨h2, h6, h7, _⟩ := sforms_only hx
  have e2 := endsCloseSp_double (· = .ATerm) x U V
  have e3 := endsCloseSp_double (·.saTerm) x U V
  have e4 := endsClose_double (·.saTerm) x U V
  have e6 : (U ++ x :: x :: V).head? = (U ++ x :: V).head? := by cases U <;> rfl
  have e1 : ((U ++ x :: x :: V).tail.head?.any (fun w => w = .Upper || w = .Lower) && (U ++ x :: V).head?.any (· = .ATerm))
      = ((U ++ x :: V).tail.head?.any (fun w => w = .Upper || w = .Lower) && (U ++ x :: V).head?.any (· = .ATerm)) := by
    cases U with
    | nil => simp [h7]
    | cons u U => cases U <;> rfl
  have e5 : ((U ++ x :: V).head?.any (·.paraSep) && endsCloseSp (·.saTerm) (U ++ x :: x :: V).tail)
      = ((U ++ x :: V).head?.any (·.paraSep) && endsCloseSp (·.saTerm) (U ++ x :: V).tail) := by
    cases U with
    | nil => simp [h2]
    | cons u U => simp only [List.cons_append, List.tail_cons, endsCloseSp_double]
  generalize U ++ x :: x :: V = L at *
  generalize U ++ x :: V = L' at *
  unfold sunitJoins
  dsimp only
  rw [e6]
  simp only [e1, e2, e3, e4, e5]

theorem sjoinsIf_double (ahead : Bool) {x : SB} (hx : x.forms = true) (B A C : List SB) :
    sjoinsIf ahead (B ++ x :: x :: A) C = sjoinsIf ahead (B ++ x :: A) C := by
  have h : ∀ c, sunitJoins ahead (sunits (B ++ x :: x :: A)) c = sunitJoins ahead (sunits (B ++ x :: A)) c := by
    intro c
    by_cases hi : x.ignorable = true
    · rw [sunits_double (sforms_only hx).1 hi]
    · obtain ⟨U, h1, h2⟩ := sunits_twice (x := x) (by simpa using hi) A B
      rw [h1, h2, sunitJoins_double ahead hx]
  cases C with
  | nil => cases B <;> rfl
  | cons c C =>
    cases B with
    | nil => simp only [List.nil_append] at h ⊢; simp only [sjoinsIf, h]
    | cons b B => simp only [List.cons_append] at h ⊢; simp only [sjoinsIf, h]

theorem uncounted_sentences : Uncounted sjoins sentenceClass SB.forms := by
  refine ⟨?_, ?_, ?_⟩
  · rintro x hx - B A C
    exact sjoinsIf_double _ hx B A C
  · intro x hx _ L B A
    have : lowerAhead (B ++ x :: x :: A) = lowerAhead (B ++ x :: A) := by
      unfold lowerAhead
      rw [head_double]
    unfold sjoins
    rw [this]
    cases L with
    | nil => cases B <;> rfl
    | cons => cases B <;> rfl
  · rintro x hx - A C
    obtain ⟨h2, h6, h7, _⟩ := sforms_only hx
    generalize hC : lowerAhead (x :: C) = ahead
    simp only [sjoins, sjoinsIf, hC]
    by_cases hi : x.ignorable = true
    · simp [hi, h2, h6]
    · have hi : x.ignorable = false := by simpa using hi
      rw [sunits_solid hi]
      simp only [hi, h2, h6]
      generalize sunits A = V
      revert hx
      cases x <;> simp [SB.forms, sunitJoins, SB.paraSep, SB.saTerm, endsClose, endsCloseSp]

end Uax29
