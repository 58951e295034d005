import Verif.Spec.SentenceGrammar
import Verif.Proofs.SentenceMachine
/-! # The texts that are one sentence, by a grammar -/
namespace Uax29.SGrammar
open Spec

variable {cl : Char → SB}

/-- The characters before a position, nearest first, in the sense of SB5. -/
def U (cl : Char → SB) (x : List Char) : List SB := sunits (x.map cl).reverse

/-- No line end or separator. -/
def NoPara (cl : Char → SB) (x : List Char) : Prop := ∀ c ∈ x, (cl c).paraSep = false

theorem NoPara.left {x y : List Char} (h : NoPara cl (x ++ y)) : NoPara cl x := fun c hc => h c (by simp [hc])
theorem NoPara.right {x y : List Char} (h : NoPara cl (x ++ y)) : NoPara cl y := fun c hc => h c (by simp [hc])
theorem NoPara.append {x y : List Char} (h : NoPara cl x) (h' : NoPara cl y) : NoPara cl (x ++ y) := by
  intro c hc
  rcases List.mem_append.mp hc with hc | hc
  · exact h c hc
  · exact h' c hc

theorem ign_iff {c : Char} : (cl c).ignorable = true ↔ cl c = .Extend ∨ cl c = .Format := by simp [SB.ignorable]
theorem sa_iff {k : SB} : k.saTerm = true ↔ k = .STerm ∨ k = .ATerm := by simp [SB.saTerm]

theorem U_solid (x : List Char) {c : Char} (h : (cl c).ignorable = false) : U cl (x ++ [c]) = cl c :: U cl x := by
  simp [U, sunits_solid h]

theorem U_one (c : Char) : U cl [c] = [cl c] := rfl

theorem U_ign {x : List Char} (hx : x ≠ []) (hp : NoPara cl x) {c : Char} (h : (cl c).ignorable = true) :
    U cl (x ++ [c]) = U cl x := by
  have hl := List.dropLast_concat_getLast hx
  have hp' : (cl (x.getLast hx)).paraSep = false := hp _ (List.getLast_mem hx)
  generalize x.getLast hx = a at *
  generalize x.dropLast = x' at *
  subst hl
  simp [U, sunits_ign h hp']

theorem noPara_marks {m : List Char} (hm : SMarks cl m) : NoPara cl m := by
  intro c hc
  rcases hm c hc with h | h <;> rw [h] <;> rfl

theorem U_marks {m : List Char} (hm : SMarks cl m) : ∀ {x : List Char}, x ≠ [] → NoPara cl x → U cl (x ++ m) = U cl x := by
  induction m with
  | nil => intro x _ _; simp
  | cons d m ih =>
    intro x hx hp
    have hd := hm d (by simp)
    have e := ih (fun e he => hm e (by simp [he])) (x := x ++ [d]) (by simp)
      (hp.append (noPara_marks fun e he => by rw [List.mem_singleton.mp he]; exact hd))
    rw [List.append_assoc] at e
    exact e.trans (U_ign hx hp (ign_iff.mpr hd))

theorem U_head {x : List Char} (hp : NoPara cl x) : (U cl x).head?.any (·.paraSep) = false := by
  cases h : U cl x with
  | nil => rfl
  | cons k L =>
    have := sunits_mem (x := k) (left := (x.map cl).reverse) (by rw [show sunits (x.map cl).reverse = _ from h]; simp)
    rw [List.mem_reverse] at this
    obtain ⟨c, hc, rfl⟩ := List.mem_map.mp this
    simp [hp c hc]

/-! ## The rules -/

theorem join_iff {ahead : Bool} {L : List SB} {b : SB} (hp : L.head?.any (·.paraSep) = false) : sunitJoins ahead L b = true ↔
    (L.head? = some .ATerm ∧ b = .Numeric)
    ∨ (((L.tail.head? = some .Upper ∨ L.tail.head? = some .Lower) ∧ L.head? = some .ATerm) ∧ b = .Upper)
    ∨ (endsCloseSp (· = .ATerm) L = true ∧ ahead = true)
    ∨ (endsCloseSp (·.saTerm) L = true ∧ (b = .SContinue ∨ b.saTerm = true))
    ∨ (endsClose (·.saTerm) L = true ∧ (b = .Close ∨ b = .Sp ∨ b.paraSep = true))
    ∨ (endsCloseSp (·.saTerm) L = true ∧ (b = .Sp ∨ b.paraSep = true))
    ∨ endsCloseSp (·.saTerm) L = false := by
  have e1 : ∀ (o : Option SB) (k : SB), o.any (fun x => decide (x = k)) = true ↔ o = some k := by
    intro o k; cases o <;> simp
  have e2 : ∀ (o : Option SB), o.any (fun x => decide (x = .Upper) || decide (x = .Lower)) = true ↔ o = some .Upper ∨ o = some .Lower := by
    intro o; cases o <;> simp
  unfold sunitJoins
  simp only [hp, Bool.false_and, Bool.or_false]
  simp only [Bool.if_true_left, Bool.if_false_left, Bool.or_eq_true, Bool.and_eq_true, decide_eq_true_eq, e1, e2, Bool.and_true,
    Bool.not_eq_true', or_assoc, and_assoc]
  simp only [decide_eq_false_iff_not, Bool.not_eq_true]

theorem join_mono {a a' : Bool} {L : List SB} {b : SB} (hp : L.head?.any (·.paraSep) = false) (h : sunitJoins a L b = true)
    (ha : a = true → a' = true) : sunitJoins a' L b = true := by
  rw [join_iff hp] at h ⊢
  rcases h with h | h | h | h
  · exact .inl h
  · exact .inr (.inl h)
  · exact .inr (.inr (.inl ⟨h.1, ha h.2⟩))
  · exact .inr (.inr (.inr h))

theorem ahead_mono {r : List SB} (l : List SB) (h : lowerAhead r = true) : lowerAhead (r ++ l) = true := by
  induction r with
  | nil => simp [lowerAhead] at h
  | cons k r ih =>
    by_cases hk : k.stops = true
    · simpa [lowerAhead, hk] using h
    · rw [Bool.not_eq_true] at hk
      rw [List.cons_append, lowerAhead_nonstop hk]
      rw [lowerAhead_nonstop hk] at h
      exact ih h

theorem ends_close {q : List SB} (hq : ∀ x ∈ q, x = .Close) (X : SB → Bool) {k : SB} (hk : k ≠ .Close) (l : List SB) :
    endsClose X (q ++ k :: l) = X k := by
  induction q with
  | nil => exact endsClose_other X hk l
  | cons x q ih =>
    rw [hq x (by simp), List.cons_append, endsClose_close]
    exact ih fun y hy => hq y (by simp [hy])

theorem ends_closeSp {p q : List SB} (hp : ∀ x ∈ p, x = .Sp) (hq : ∀ x ∈ q, x = .Close) (X : SB → Bool) {k : SB}
    (hk : k.saTerm = true) (l : List SB) : endsCloseSp X (p ++ (q ++ k :: l)) = X k := by
  have h1 : k ≠ .Close := by rintro rfl; cases hk
  have h2 : k ≠ .Sp := by rintro rfl; cases hk
  induction p with
  | nil =>
    rw [List.nil_append]
    have e : endsCloseSp X (q ++ k :: l) = endsClose X (q ++ k :: l) := by
      cases q with
      | nil => exact endsCloseSp_not X h2 l
      | cons x q =>
        have := hq x (by simp)
        subst this
        exact endsCloseSp_not X (by decide) _
    rw [e, ends_close hq X h1]
  | cons x p ih =>
    rw [hp x (by simp), List.cons_append, endsCloseSp_sp]
    exact ih fun y hy => hp y (by simp [hy])

/-! ## Texts without boundaries -/

/-- There is no boundary within `w`, nor before it, after `s`. -/
def From (cl : Char → SB) (s w : List Char) : Prop :=
  ∀ x b y, w = x ++ b :: y → s ++ x ≠ [] →
    (cl b).ignorable = true ∨ sunitJoins (lowerAhead ((b :: y).map cl)) (U cl (s ++ x)) (cl b) = true

theorem From.nil {s : List Char} : From cl s [] := by
  intro x b y h
  simp at h

theorem From.append {s v w : List Char} (hp : NoPara cl (s ++ v)) (h1 : From cl s v) (h2 : From cl (s ++ v) w) :
    From cl s (v ++ w) := by
  intro x b y h hne
  rcases List.append_eq_append_iff.mp h with ⟨z, h3, h4⟩ | ⟨z, h3, h4⟩
  · subst h3
    rcases h2 z b y h4 (by simpa using hne) with h | h
    · exact .inl h
    · rw [List.append_assoc] at h
      exact .inr h
  · cases z with
    | nil =>
      rw [List.append_nil] at h3
      subst h3
      rcases h2 [] b y (by simpa using h4.symm) (by simpa using hne) with h | h
      · exact .inl h
      · rw [List.append_nil] at h
        exact .inr h
    | cons c z =>
      simp only [List.cons_append, List.cons.injEq] at h4
      obtain ⟨rfl, rfl⟩ := h4
      rcases h1 x b z h3 hne with h | h
      · exact .inl h
      · right
        have hp' : NoPara cl (s ++ x) := by
          rw [h3, ← List.append_assoc] at hp
          exact hp.left
        refine join_mono (U_head hp') h fun ha => ?_
        have := ahead_mono (w.map cl) ha
        simpa using this

theorem From.one {s : List Char} {c : Char} (h : s ≠ [] → (cl c).ignorable = true
    ∨ sunitJoins (lowerAhead [cl c]) (U cl s) (cl c) = true) : From cl s [c] := by
  intro x b y hx hne
  rcases x with _ | ⟨d, x⟩
  · simp only [List.nil_append, List.cons.injEq] at hx
    obtain ⟨rfl, rfl⟩ := hx
    simpa using h (by simpa using hne)
  · simp at hx

theorem From.marks {s m : List Char} (hm : SMarks cl m) : From cl s m := by
  rintro x b y rfl -
  exact .inl (ign_iff.mpr (hm b (by simp)))

theorem From.cons {s : List Char} {c : Char} {m : List Char} (hp : NoPara cl (s ++ [c])) (hm : SMarks cl m)
    (h : s ≠ [] → (cl c).ignorable = true ∨ sunitJoins (lowerAhead [cl c]) (U cl s) (cl c) = true) : From cl s (c :: m) :=
  From.append (v := [c]) hp (.one h) (.marks hm)

/-- Closing characters after a terminator. -/
theorem close_run {k : SB} {L : List SB} (hk : k.saTerm = true) {y : List Char}
    (hy : ∀ d ∈ y, cl d = .Close ∨ cl d = .Extend ∨ cl d = .Format) : ∀ {x : List Char} {q : List SB}, x ≠ [] → NoPara cl x →
    U cl x = q ++ k :: L → (∀ e ∈ q, e = .Close) → From cl x y ∧ NoPara cl (x ++ y) ∧ ∃ q', U cl (x ++ y) = q' ++ k :: L
      ∧ (∀ e ∈ q', e = .Close) ∧ (q' = [] → q = [] ∧ SMarks cl y) := by
  induction y with
  | nil =>
    intro x q hx hp hU hq
    exact ⟨.nil, by simpa using hp, q, by simpa using hU, hq, fun h => ⟨h, by simp [SMarks]⟩⟩
  | cons d y ih =>
    intro x q hx hp hU hq
    have hk1 : k ≠ .Close := by rintro rfl; cases hk
    have hd := hy d (by simp)
    have hpd : NoPara cl (x ++ [d]) := hp.append (by
      intro c hc
      rw [List.mem_singleton.mp hc]
      rcases hd with h | h | h <;> rw [h] <;> rfl)
    have ih := @ih (fun e he => hy e (by simp [he])) (x ++ [d])
    rw [show x ++ d :: y = x ++ [d] ++ y by simp]
    by_cases hi : (cl d).ignorable = true
    · obtain ⟨h1, h2, q', h3, h4, h5⟩ := ih (q := q) (by simp) hpd (by rw [U_ign hx hp hi, hU]) hq
      refine ⟨From.append (v := [d]) hpd (.one fun _ => .inl hi) h1, h2, q', h3, h4, fun h => ⟨(h5 h).1, ?_⟩⟩
      intro e he
      rcases List.mem_cons.mp he with rfl | he
      · exact ign_iff.mp hi
      · exact (h5 h).2 e he
    · have hd : cl d = .Close := by
        rw [ign_iff] at hi
        rcases hd with h | h
        · exact h
        · exact absurd h hi
      rw [Bool.not_eq_true] at hi
      obtain ⟨h1, h2, q', h3, h4, h5⟩ := ih (q := .Close :: q) (by simp) hpd (by rw [U_solid x hi, hU, hd]; rfl) (by
        intro e he
        rcases List.mem_cons.mp he with rfl | he
        · rfl
        · exact hq e he)
      refine ⟨From.append (v := [d]) hpd (.one fun _ => .inr ?_) h1, h2, q', h3, h4, fun h => absurd (h5 h).1 (by simp)⟩
      rw [join_iff (U_head hp), hU, ends_close hq _ hk1]
      exact .inr (.inr (.inr (.inr (.inl ⟨hk, .inl hd⟩))))

/-- Blanks after a terminator and closing characters. -/
theorem blank_run {k : SB} {L q : List SB} (hk : k.saTerm = true) (hq : ∀ e ∈ q, e = .Close) {z : List Char}
    (hz : ∀ d ∈ z, cl d = .Sp ∨ cl d = .Extend ∨ cl d = .Format) : ∀ {x : List Char} {p : List SB}, x ≠ [] → NoPara cl x →
    U cl x = p ++ (q ++ k :: L) → (∀ e ∈ p, e = .Sp) → From cl x z ∧ NoPara cl (x ++ z)
      ∧ ∃ p', U cl (x ++ z) = p' ++ (q ++ k :: L) ∧ (∀ e ∈ p', e = .Sp) ∧ (p' = [] → p = [] ∧ SMarks cl z) := by
  induction z with
  | nil =>
    intro x p hx hp hU hps
    exact ⟨.nil, by simpa using hp, p, by simpa using hU, hps, fun h => ⟨h, by simp [SMarks]⟩⟩
  | cons d z ih =>
    intro x p hx hp hU hps
    have hd := hz d (by simp)
    have hpd : NoPara cl (x ++ [d]) := hp.append (by
      intro c hc
      rw [List.mem_singleton.mp hc]
      rcases hd with h | h | h <;> rw [h] <;> rfl)
    have ih := @ih (fun e he => hz e (by simp [he])) (x ++ [d])
    rw [show x ++ d :: z = x ++ [d] ++ z by simp]
    by_cases hi : (cl d).ignorable = true
    · obtain ⟨h1, h2, p', h3, h4, h5⟩ := ih (p := p) (by simp) hpd (by rw [U_ign hx hp hi, hU]) hps
      refine ⟨From.append (v := [d]) hpd (.one fun _ => .inl hi) h1, h2, p', h3, h4, fun h => ⟨(h5 h).1, ?_⟩⟩
      intro e he
      rcases List.mem_cons.mp he with rfl | he
      · exact ign_iff.mp hi
      · exact (h5 h).2 e he
    · have hd : cl d = .Sp := by
        rw [ign_iff] at hi
        rcases hd with h | h
        · exact h
        · exact absurd h hi
      rw [Bool.not_eq_true] at hi
      obtain ⟨h1, h2, p', h3, h4, h5⟩ := ih (p := .Sp :: p) (by simp) hpd (by rw [U_solid x hi, hU, hd]; rfl) (by
        intro e he
        rcases List.mem_cons.mp he with rfl | he
        · rfl
        · exact hps e he)
      refine ⟨From.append (v := [d]) hpd (.one fun _ => .inr ?_) h1, h2, p', h3, h4, fun h => absurd (h5 h).1 (by simp)⟩
      have e := ends_closeSp hps hq (·.saTerm) hk L
      rw [join_iff (U_head hp), hU, e]
      exact .inr (.inr (.inr (.inr (.inr (.inl ⟨hk, .inl hd⟩)))))

/-- A terminator with closing characters and blanks. -/
theorem closing_run {s : List Char} (hp : NoPara cl s) {t : Char} {y z : List Char} (ht : cl t = .STerm ∨ cl t = .ATerm)
    (hy : ∀ d ∈ y, cl d = .Close ∨ cl d = .Extend ∨ cl d = .Format) (hz : ∀ d ∈ z, cl d = .Sp ∨ cl d = .Extend ∨ cl d = .Format)
    (hj : s ≠ [] → sunitJoins (lowerAhead [cl t]) (U cl s) (cl t) = true) :
    From cl s (t :: (y ++ z)) ∧ NoPara cl (s ++ t :: (y ++ z)) ∧ ∃ p q, U cl (s ++ t :: (y ++ z)) = p ++ (q ++ cl t :: U cl s)
      ∧ (∀ e ∈ p, e = .Sp) ∧ (∀ e ∈ q, e = .Close) ∧ (p = [] → SMarks cl z) ∧ (q = [] → SMarks cl y) := by
  have hk := sa_iff.mpr ht
  have hpt : NoPara cl (s ++ [t]) := hp.append (by
    intro c hc
    rw [List.mem_singleton.mp hc]
    rcases ht with h | h <;> rw [h] <;> rfl)
  have hi : (cl t).ignorable = false := by rcases ht with h | h <;> rw [h] <;> rfl
  obtain ⟨h1, h2, q, h3, h4, h5⟩ := close_run (L := U cl s) hk hy (x := s ++ [t]) (q := []) (by simp) hpt (U_solid s hi) (by simp)
  obtain ⟨k1, k2, p, k3, k4, k5⟩ := blank_run (q := q) hk h4 hz (x := s ++ [t] ++ y) (p := []) (by simp) h2 (by rw [h3]; rfl) (by simp)
  have e : s ++ t :: (y ++ z) = s ++ [t] ++ y ++ z := by simp
  refine ⟨?_, by rw [e]; exact k2, p, q, by rw [e]; exact k3, k4, h4, fun h => (k5 h).2, fun h => (h5 h).2⟩
  have := From.append (v := [t]) (w := y) hpt (.one fun h => .inr (hj h)) h1
  have := From.append (s := s) (v := [t] ++ y) (w := z) (by rw [← List.append_assoc]; exact h2) this (by
    rw [← List.append_assoc]; exact k1)
  simpa using this

theorem closings_ok {t : Char} {g : List Char} (h : Closings cl t g) : (cl t).saTerm = true ∧ g ≠ [] := by
  cases h with
  | one _ _ _ ht => exact ⟨sa_iff.mpr ht, by simp⟩
  | more _ _ _ _ ht => exact ⟨sa_iff.mpr ht, by simp⟩

/-- There are no terminators before which are open. -/
def Plain (L : List SB) : Prop := endsCloseSp (·.saTerm) L = false

theorem Plain.join {L : List SB} (h : Plain L) (hp : L.head?.any (·.paraSep) = false) (a : Bool) (b : SB) : sunitJoins a L b = true :=
  (join_iff hp).mpr (.inr (.inr (.inr (.inr (.inr (.inr h))))))

theorem closings_from {s : List Char} (hp : NoPara cl s) (hs : Plain (U cl s)) {t : Char} {g : List Char} (h : Closings cl t g) :
    From cl s g ∧ NoPara cl (s ++ g) ∧ ∃ p q L, U cl (s ++ g) = p ++ (q ++ cl t :: L)
      ∧ (∀ e ∈ p, e = .Sp) ∧ (∀ e ∈ q, e = .Close) := by
  induction h with
  | one t y z ht hy hz =>
    obtain ⟨h1, h2, p, q, h3, h4, h5, -⟩ := closing_run hp ht hy hz fun _ => hs.join (U_head hp) _ _
    exact ⟨h1, h2, p, q, _, h3, h4, h5⟩
  | @more t g t' y z hg ht hy hz ih =>
    obtain ⟨i1, i2, p, q, L, i3, i4, i5⟩ := ih
    obtain ⟨h1, h2, p, q, h3, h4, h5, -⟩ := closing_run i2 ht hy hz fun _ => by
      have e := ends_closeSp i4 i5 (·.saTerm) (closings_ok hg).1 L
      rw [join_iff (U_head i2), i3, e]
      exact .inr (.inr (.inr (.inl ⟨(closings_ok hg).1, .inr (sa_iff.mpr ht)⟩)))
    rw [← List.append_assoc]
    exact ⟨From.append i2 i1 h1, h2, p, q, _, h3, h4, h5⟩

theorem closeSp_cons {k : SB} {L : List SB} (hk : k.saTerm = false) (h : endsCloseSp (·.saTerm) (k :: L) = true) :
    endsCloseSp (·.saTerm) L = true
      ∧ (endsCloseSp (· = .ATerm) L = true → endsCloseSp (· = .ATerm) (k :: L) = true) := by
  by_cases h1 : k = .Sp
  · subst h1
    rw [endsCloseSp_sp] at h
    exact ⟨h, by rw [endsCloseSp_sp]; exact id⟩
  · rw [endsCloseSp_not _ h1] at h
    by_cases h2 : k = .Close
    · subst h2
      rw [endsClose_close] at h
      rw [endsClose_sp rfl h, endsClose_sp rfl h, endsCloseSp_not _ h1, endsClose_close]
      exact ⟨h, id⟩
    · rw [endsClose_other _ h2, hk] at h
      cases h

theorem Plain.cons {k : SB} {L : List SB} (hk : k.saTerm = false) (h : Plain L) : Plain (k :: L) := by
  unfold Plain at *
  cases e : endsCloseSp (·.saTerm) (k :: L) with
  | false => rfl
  | true => rw [(closeSp_cons hk e).1] at h; cases h

theorem Plain.head {k : SB} (hk : k.saTerm = false) (h1 : k ≠ .Sp) (h2 : k ≠ .Close) (L : List SB) : Plain (k :: L) := by
  unfold Plain
  rw [endsCloseSp_not _ h1, endsClose_other _ h2, hk]

theorem From.step {x w : List Char} {d : Char}
    (h : x ≠ [] → (cl d).ignorable = true ∨ sunitJoins (lowerAhead ((d :: w).map cl)) (U cl x) (cl d) = true)
    (h' : From cl (x ++ [d]) w) : From cl x (d :: w) := by
  intro u b y he hne
  cases u with
  | nil =>
    simp only [List.nil_append, List.cons.injEq] at he
    obtain ⟨rfl, rfl⟩ := he
    simpa using h (by simpa using hne)
  | cons e u =>
    simp only [List.cons_append, List.cons.injEq] at he
    obtain ⟨rfl, rfl⟩ := he
    have := h' u b y rfl (by simp)
    simpa using this

theorem From.drop {x v w : List Char} (h : From cl x (v ++ w)) : From cl (x ++ v) w := by
  rintro u b y rfl hne
  have := h (v ++ u) b y (by simp) (by simpa using hne)
  simpa using this

theorem From.first {x w : List Char} {c : Char} (h : From cl x (c :: w)) (hx : x ≠ []) :
    (cl c).ignorable = true ∨ sunitJoins (lowerAhead ((c :: w).map cl)) (U cl x) (cl c) = true := by
  simpa using h [] c w rfl (by simpa using hx)

theorem U_snoc {x : List Char} (hp : NoPara cl x) (c : Char) :
    (U cl (x ++ [c]) = U cl x ∧ (cl c).ignorable = true) ∨ U cl (x ++ [c]) = cl c :: U cl x := by
  by_cases hi : (cl c).ignorable = true
  · by_cases hx : x = []
    · subst hx
      exact .inr rfl
    · exact .inl ⟨U_ign hx hp hi, hi⟩
  · rw [Bool.not_eq_true] at hi
    exact .inr (U_solid x hi)

theorem snoc_marks {x : List Char} {c : Char} {m : List Char} (hp : NoPara cl (x ++ [c])) (hm : SMarks cl m) :
    NoPara cl (x ++ c :: m) ∧ U cl (x ++ c :: m) = U cl (x ++ [c]) := by
  rw [show x ++ c :: m = x ++ [c] ++ m by simp]
  exact ⟨hp.append (noPara_marks hm), U_marks hm (by simp) hp⟩

theorem lower_run {c : Char} (hc : cl c = .Lower) : ∀ {n x : List Char}, x ≠ [] → NoPara cl x →
    (endsCloseSp (·.saTerm) (U cl x) = true → endsCloseSp (· = .ATerm) (U cl x) = true) →
    (∀ d ∈ n, (cl d).stops = false) → From cl x (n ++ [c]) ∧ NoPara cl (x ++ n)
  | [], x, hx, hp, hJ, hn => by
    refine ⟨.step (fun _ => .inr ?_) .nil, by simpa using hp⟩
    rw [join_iff (U_head hp)]
    cases e : endsCloseSp (·.saTerm) (U cl x) with
    | false => simp
    | true => exact .inr (.inr (.inl ⟨hJ e, by simp [hc]; decide⟩))
  | d :: n, x, hx, hp, hJ, hn => by
    have hd := hn d (by simp)
    have hpd : (cl d).paraSep = false := by
      unfold SB.stops at hd
      simp at hd
      exact hd.1.2
    have hsd : (cl d).saTerm = false := by
      unfold SB.stops at hd
      simp at hd
      exact hd.2
    have hp' : NoPara cl (x ++ [d]) := hp.append (by
      intro e he
      rw [List.mem_singleton.mp he]
      exact hpd)
    obtain ⟨i1, i2⟩ := lower_run hc (n := n) (x := x ++ [d]) (by simp) hp' (by
      rcases U_snoc hp d with ⟨h, -⟩ | h
      · rw [h]; exact hJ
      · rw [h]
        intro e
        have := closeSp_cons hsd e
        exact this.2 (hJ this.1)) fun e he => hn e (by simp [he])
    refine ⟨.step (fun _ => .inr ?_) i1, by simpa using i2⟩
    rw [join_iff (U_head hp)]
    cases e : endsCloseSp (·.saTerm) (U cl x) with
    | false => simp
    | true =>
      refine .inr (.inr (.inl ⟨hJ e, ?_⟩))
      rw [List.append_eq, show (d :: (n ++ [c])).map cl = (d :: n).map cl ++ [.Lower] by simp [hc]]
      clear e i1 i2 hp' hpd hsd hd hJ
      generalize d :: n = l at *
      induction l with
      | nil => rfl
      | cons e l ih =>
        rw [List.map_cons, List.cons_append, lowerAhead_nonstop (hn e (by simp))]
        exact ih fun f hf => hn f (by simp [hf])

/-- What holds after the inside of a sentence. -/
structure Good (cl : Char → SB) (o : Option Char) (s : List Char) : Prop where
  noPara : NoPara cl s
  und : From cl [] s
  plain : Plain (U cl s)
  last : ∀ u, o = some u → cl u = .Upper ∨ cl u = .Lower → (U cl s).head? = some (cl u)

theorem From.join {s v : List Char} (hn : NoPara cl (s ++ v)) (h1 : From cl [] s) (h2 : From cl s v) : From cl [] (s ++ v) :=
  From.append (s := []) (by simpa using hn.left) h1 (by simpa using h2)

/-- A sentence goes on with `c`, which is no terminator. -/
theorem Good.next {x : List Char} {c : Char} {m : List Char} (hn : NoPara cl x) (hu : From cl [] (x ++ [c]))
    (hp : (cl c).paraSep = false) (hi : (cl c).ignorable = false)
    (hpl : Plain (cl c :: U cl x)) (hm : SMarks cl m) : Good cl (some c) (x ++ c :: m) := by
  have hp' : NoPara cl (x ++ [c]) := hn.append (by
    intro e he
    rw [List.mem_singleton.mp he]
    exact hp)
  obtain ⟨h1, h2⟩ := snoc_marks hp' hm
  rw [U_solid _ hi] at h2
  refine ⟨h1, ?_, by rw [h2]; exact hpl, ?_⟩
  · have := From.append (s := []) (v := x ++ [c]) (w := m) (by simpa using hp') hu (.marks hm)
    simpa using this
  · intro u hu _
    rw [h2, ← Option.some.inj hu]
    rfl

theorem NoPara.one {x : List Char} {c : Char} (h : NoPara cl x) (hc : (cl c).paraSep = false) : NoPara cl (x ++ [c]) :=
  h.append (by
    intro e he
    rw [List.mem_singleton.mp he]
    exact hc)

theorem inner_good {o : Option Char} {s : List Char} (h : Inner cl o s) : Good cl o s := by
  induction h with
  | nil => exact ⟨by simp [NoPara], .nil, rfl, by simp⟩
  | @char o s c m hs hc hm ih =>
    have hpc : (cl c).paraSep = false := by simp [SB.paraSep, hc]
    have hsc : (cl c).saTerm = false := by simp [SB.saTerm, hc]
    have hp' : NoPara cl (s ++ [c]) := ih.noPara.append (by
      intro e he
      rw [List.mem_singleton.mp he]
      exact hpc)
    obtain ⟨h1, h2⟩ := snoc_marks hp' hm
    refine ⟨h1, ?_, ?_, ?_⟩
    · refine From.join h1 ih.und (From.cons hp' hm fun _ => .inr (ih.plain.join (U_head ih.noPara) _ _))
    · rw [h2]
      rcases U_snoc ih.noPara c with ⟨h, -⟩ | h <;> rw [h]
      · exact ih.plain
      · exact ih.plain.cons hsc
    · intro u hu hcu
      obtain rfl := Option.some.inj hu
      rw [h2, U_solid]
      · rfl
      · rcases hcu with h | h <;> rw [h] <;> rfl
  | @comma o s t g c m hs hg hc hm ih =>
    obtain ⟨h1, h2, p, q, L, h3, h4, h5⟩ := closings_from ih.noPara ih.plain hg
    have e := ends_closeSp h4 h5 (·.saTerm) (closings_ok hg).1 L
    refine Good.next h2 (From.join (h2.one (by rw [hc]; rfl)) (From.join h2 ih.und h1) (.one fun _ => .inr ?_)) (by rw [hc]; rfl) (by rw [hc]; rfl)
      (by rw [hc]; exact .head rfl (by decide) (by decide) _) hm
    rw [join_iff (U_head h2), h3, e]
    exact .inr (.inr (.inr (.inl ⟨(closings_ok hg).1, .inl hc⟩)))
  | @lower o s t g n c m hs hg ht hn hc hm ih =>
    obtain ⟨h1, h2, p, q, L, h3, h4, h5⟩ := closings_from ih.noPara ih.plain hg
    have e := ends_closeSp h4 h5 (· = .ATerm) (closings_ok hg).1 L
    obtain ⟨h6, h7⟩ := lower_run hc (n := n) (x := s ++ g) (by simp [(closings_ok hg).2]) h2 (by rw [h3, e, ht]; simp) (by
      intro d hd
      have := hn d hd
      simp [SB.stops, SB.paraSep, SB.saTerm, this])
    refine Good.next h7 ?_ (by rw [hc]; rfl) (by rw [hc]; rfl)
      (by rw [hc]; exact .head rfl (by decide) (by decide) _) hm
    have := From.join (v := n ++ [c]) (by
      rw [← List.append_assoc]
      exact h7.one (by rw [hc]; rfl)) (From.join h2 ih.und h1) h6
    rwa [← List.append_assoc] at this
  | @number o s t g m c m' hs hg ht hm hc hm' ih =>
    obtain ⟨h1, h2, -⟩ := closings_from ih.noPara ih.plain hg
    refine Good.next h2 (From.join (h2.one (by rw [hc]; rfl)) (From.join h2 ih.und h1) (.one fun _ => .inr ?_)) (by rw [hc]; rfl) (by rw [hc]; rfl)
      (by rw [hc]; exact .head rfl (by decide) (by decide) _) hm'
    have hp' : NoPara cl (s ++ g ++ [t]) := by
      rw [show s ++ (g ++ t :: m) = s ++ g ++ [t] ++ m by simp] at h2
      exact h2.left
    have := (snoc_marks hp' hm).2
    rw [U_solid _ (by rw [ht]; rfl), List.append_assoc] at this
    rw [join_iff (U_head h2), this]
    exact .inl ⟨by rw [ht]; rfl, hc⟩
  | @initial u s t m c m' hs hu ht hm hc hm' ih =>
    have hg : Closings cl t (t :: (m ++ [])) := .one t m [] (.inr ht) (fun d hd => .inr (hm d hd)) (by simp)
    rw [List.append_nil] at hg
    obtain ⟨h1, h2, -⟩ := closings_from ih.noPara ih.plain hg
    refine Good.next h2 (From.join (h2.one (by rw [hc]; rfl)) (From.join h2 ih.und h1) (.one fun _ => .inr ?_)) (by rw [hc]; rfl) (by rw [hc]; rfl)
      (by rw [hc]; exact .head rfl (by decide) (by decide) _) hm'
    have hp' : NoPara cl (s ++ [t]) := by
      rw [show s ++ t :: m = s ++ [t] ++ m by simp] at h2
      exact h2.left
    have := (snoc_marks hp' hm).2
    rw [U_solid _ (by rw [ht]; rfl)] at this
    rw [join_iff (U_head h2), this]
    refine .inr (.inl ⟨⟨?_, by rw [ht]; rfl⟩, hc⟩)
    rw [List.tail_cons, ih.last u rfl hu]
    rcases hu with h | h <;> simp [h]

/-! ## Every undivided text has the form -/

theorem inner_marks {o : Option Char} {s : List Char} (h : Inner cl o s) (h0 : s ≠ []) {b : Char} (hb : SMarks cl [b]) :
    Inner cl o (s ++ [b]) := by
  have hm : ∀ {m : List Char}, SMarks cl m → SMarks cl (m ++ [b]) := by
    intro m hm d hd
    rcases List.mem_append.mp hd with hd | hd
    · exact hm d hd
    · exact hb d hd
  cases h with
  | nil => exact absurd rfl h0
  | char c m hs hc h =>
    have := Inner.char c (m ++ [b]) hs hc (hm h)
    simpa using this
  | comma c m hs hg hc h =>
    have := Inner.comma c (m ++ [b]) hs hg hc (hm h)
    simpa using this
  | lower n c m hs hg ht hn hc h =>
    have := Inner.lower n c (m ++ [b]) hs hg ht hn hc (hm h)
    simpa using this
  | number m c m' hs hg ht h hc h' =>
    have := Inner.number m c (m' ++ [b]) hs hg ht h hc (hm h')
    simpa using this
  | initial t m c m' hs hu ht h hc h' =>
    have := Inner.initial t m c (m' ++ [b]) hs hu ht h hc (hm h')
    simpa using this

theorem lowerAhead_split : ∀ {w : List Char}, lowerAhead (w.map cl) = true →
    ∃ n d w', w = n ++ d :: w' ∧ cl d = .Lower ∧ ∀ e ∈ n, (cl e).stops = false
  | [], h => by simp [lowerAhead] at h
  | c :: w, h => by
    by_cases hc : (cl c).stops = true
    · refine ⟨[], c, w, rfl, ?_, by simp⟩
      simpa [lowerAhead, hc] using h
    · rw [Bool.not_eq_true] at hc
      rw [List.map_cons, lowerAhead_nonstop hc] at h
      obtain ⟨n, d, w', rfl, h2, h3⟩ := lowerAhead_split h
      refine ⟨c :: n, d, w', rfl, h2, ?_⟩
      intro e he
      rcases List.mem_cons.mp he with rfl | he
      · exact hc
      · exact h3 e he

/-- The last character counts. -/
def Last (cl : Char → SB) (o : Option Char) (s : List Char) : Prop :=
  ∀ k, k = .Upper ∨ k = .Lower → (U cl s).head? = some k → ∃ u, o = some u ∧ cl u = k

theorem last_some {x : List Char} {c : Char} (hc : (cl c).ignorable = false) : Last cl (some c) (x ++ [c]) := by
  intro k _ h
  rw [U_solid _ hc] at h
  exact ⟨c, rfl, Option.some.inj h⟩

/-- The inside and terminators. -/
def Body (cl : Char → SB) (w : List Char) : Prop :=
  ∃ o s g, Inner cl o s ∧ (g = [] ∨ ∃ t, Closings cl t g) ∧ w = s ++ g

theorem closings_snoc {g : List Char} (hg : g = [] ∨ ∃ t, Closings cl t g) {t : Char} {y z : List Char}
    (ht : cl t = .STerm ∨ cl t = .ATerm) (hy : ∀ d ∈ y, cl d = .Close ∨ cl d = .Extend ∨ cl d = .Format)
    (hz : ∀ d ∈ z, cl d = .Sp ∨ cl d = .Extend ∨ cl d = .Format) : Closings cl t (g ++ t :: (y ++ z)) := by
  rcases hg with rfl | ⟨t', hg⟩
  · exact .one t y z ht hy hz
  · exact .more t y z hg ht hy hz

theorem snoc_all {P : Char → Prop} {y : List Char} (hy : ∀ d ∈ y, P d) {c : Char} (hc : P c) : ∀ d ∈ y ++ [c], P d := by
  intro d hd
  rcases List.mem_append.mp hd with hd | hd
  · exact hy d hd
  · rw [List.mem_singleton.mp hd]; exact hc

theorem body_of (n : Nat) :
    (∀ {w : List Char}, w.length ≤ n → ∀ {o : Option Char} {s : List Char}, Inner cl o s → Last cl o s → From cl s w → NoPara cl w →
      Body cl (s ++ w))
    ∧ (∀ {w : List Char}, w.length ≤ n → ∀ {o : Option Char} {s g : List Char} {t : Char} {y z : List Char}, Inner cl o s → Last cl o s →
      (g = [] ∨ ∃ t, Closings cl t g) → cl t = .STerm ∨ cl t = .ATerm → (∀ d ∈ y, cl d = .Close ∨ cl d = .Extend ∨ cl d = .Format) →
      (∀ d ∈ z, cl d = .Sp ∨ cl d = .Extend ∨ cl d = .Format) → (z = [] ∨ ∃ d ∈ z, cl d = .Sp) →
      From cl (s ++ (g ++ t :: (y ++ z))) w → NoPara cl w → Body cl (s ++ (g ++ t :: (y ++ z)) ++ w)) := by
  induction n with
  | zero =>
    refine ⟨?_, ?_⟩
    · intro w hw o s hi _ _ _
      obtain rfl := List.length_eq_zero_iff.mp (Nat.le_zero.mp hw)
      exact ⟨o, s, [], hi, .inl rfl, rfl⟩
    · intro w hw o s g t y z hi _ hg ht hy hz _ _ _
      obtain rfl := List.length_eq_zero_iff.mp (Nat.le_zero.mp hw)
      exact ⟨o, s, _, hi, .inr ⟨t, closings_snoc hg ht hy hz⟩, by simp⟩
  | succ n ih =>
    obtain ⟨ih1, ih2⟩ := ih
    refine ⟨?_, ?_⟩
    · intro w hw o s hi hl hf hp
      rcases w with _ | ⟨c, w⟩
      · exact ⟨o, s, [], hi, .inl rfl, rfl⟩
      have hw' : w.length ≤ n := by simpa using hw
      have hpc : (cl c).paraSep = false := hp c (by simp)
      have hpw : NoPara cl w := fun d hd => hp d (by simp [hd])
      have hf' : From cl (s ++ [c]) w := From.drop (v := [c]) hf
      have ih1 : ∀ {o}, Inner cl o (s ++ [c]) → Last cl o (s ++ [c]) → Body cl (s ++ c :: w) := by
        intro o h1 h2
        have := ih1 hw' h1 h2 hf' hpw
        simpa using this
      by_cases hs : (cl c).saTerm = true
      · have := ih2 hw' (g := []) (t := c) (y := []) (z := []) hi hl (.inl rfl) (sa_iff.mp hs) (by simp) (by simp) (.inl rfl)
          (by simpa using hf') hpw
        simpa using this
      rw [Bool.not_eq_true] at hs
      have hc : cl c ≠ .STerm ∧ cl c ≠ .ATerm ∧ cl c ≠ .CR ∧ cl c ≠ .LF ∧ cl c ≠ .Sep := by
        simp [SB.paraSep] at hpc
        simp [SB.saTerm] at hs
        simp [hpc, hs]
      by_cases hig : (cl c).ignorable = true
      · by_cases hs0 : s = []
        · subst hs0
          refine ih1 (.char c [] hi hc (by simp [SMarks])) ?_
          intro k hk h
          rw [List.nil_append, U_one] at h
          rw [Option.some.inj h] at hig
          rcases hk with rfl | rfl <;> cases hig
        · refine ih1 (inner_marks hi hs0 (by simpa [SMarks] using ign_iff.mp hig)) ?_
          unfold Last
          rw [U_ign hs0 (inner_good hi).noPara hig]
          exact hl
      · rw [Bool.not_eq_true] at hig
        exact ih1 (.char c [] hi hc (by simp [SMarks])) (last_some hig)
    · intro w hw o s g t y z hi hl hg ht hy hz hz' hf hp
      rcases w with _ | ⟨c, w⟩
      · exact ⟨o, s, _, hi, .inr ⟨t, closings_snoc hg ht hy hz⟩, by simp⟩
      have hw' : w.length ≤ n := by simpa using hw
      have hpc : (cl c).paraSep = false := hp c (by simp)
      have hpw : NoPara cl w := fun d hd => hp d (by simp [hd])
      have hG := inner_good hi
      have hcl := closings_snoc hg ht hy hz
      have hf' := From.drop (v := [c]) (w := w) hf
      -- what is before
      have hsg : NoPara cl (s ++ g) ∧ (g ≠ [] → ∃ k l, U cl (s ++ g) = k :: l ∧ k ≠ .Upper ∧ k ≠ .Lower)
          ∧ ∀ a, sunitJoins a (U cl (s ++ g)) (cl t) = true := by
        rcases hg with rfl | ⟨t0, hg⟩
        · rw [List.append_nil]
          exact ⟨hG.noPara, by simp, fun a => hG.plain.join (U_head hG.noPara) _ _⟩
        · obtain ⟨h1, h2, p, q, L, h3, h4, h5⟩ := closings_from hG.noPara hG.plain hg
          refine ⟨h2, fun _ => ?_, fun a => ?_⟩
          · rw [h3]
            rcases p with _ | ⟨k, p⟩
            · rcases q with _ | ⟨k, q⟩
              · refine ⟨_, _, rfl, ?_⟩
                have := (closings_ok hg).1
                constructor <;> intro e <;> rw [e] at this <;> cases this
              · refine ⟨_, _, rfl, ?_⟩
                rw [h5 k (by simp)]
                decide
            · refine ⟨_, _, rfl, ?_⟩
              rw [h4 k (by simp)]
              decide
          · have e := ends_closeSp h4 h5 (·.saTerm) (closings_ok hg).1 L
            rw [join_iff (U_head h2), h3, e]
            exact .inr (.inr (.inr (.inl ⟨(closings_ok hg).1, .inr (sa_iff.mpr ht)⟩)))
      obtain ⟨-, hpx, p, q, hU, hps, hqs, hp0, hq0⟩ := closing_run hsg.1 ht hy hz fun _ => hsg.2.2 _
      rw [List.append_assoc] at hpx hU
      have hX : s ++ (g ++ t :: (y ++ z)) ≠ [] := by simp
      have hzp : z ≠ [] → p ≠ [] := by
        intro h h'
        rcases hz' with h1 | ⟨d, hd, hd'⟩
        · exact h h1
        · have := hp0 h' d hd
          rw [hd'] at this
          simp at this
      have ih1 : ∀ {o v w'}, w'.length ≤ n → c :: w = v ++ w' → Inner cl o (s ++ (g ++ t :: (y ++ z)) ++ v) →
          Last cl o (s ++ (g ++ t :: (y ++ z)) ++ v) → Body cl (s ++ (g ++ t :: (y ++ z)) ++ c :: w) := by
        intro o v w' hn he h1 h2
        rw [he, ← List.append_assoc]
        rw [he] at hf hp
        exact ih1 hn h1 h2 hf.drop hp.right
      by_cases hs : (cl c).saTerm = true
      · have := ih2 hw' (t := c) (y := []) (z := []) hi hl (.inr ⟨t, hcl⟩) (sa_iff.mp hs) (by simp) (by simp) (.inl rfl)
          (by simpa using hf') hpw
        simpa using this
      by_cases hyc : z = [] ∧ (cl c = .Close ∨ cl c = .Extend ∨ cl c = .Format)
      · obtain ⟨rfl, hc⟩ := hyc
        have := ih2 hw' (y := y ++ [c]) (z := []) hi hl hg ht (snoc_all hy hc) (by simp) (.inl rfl) (by simpa using hf') hpw
        simpa using this
      by_cases hzc : cl c = .Sp ∨ cl c = .Extend ∨ cl c = .Format
      · have := ih2 hw' (y := y) (z := z ++ [c]) hi hl hg ht hy (snoc_all hz hzc) (by
            right
            rcases hz' with rfl | ⟨d, hd, hd'⟩
            · refine ⟨c, by simp, ?_⟩
              rcases hzc with h | h
              · exact h
              · exact absurd ⟨rfl, .inr h⟩ hyc
            · exact ⟨d, by simp [hd], hd'⟩) (by simpa using hf') hpw
        simpa using this
      have hig : (cl c).ignorable = false := by
        rw [← Bool.not_eq_true, ign_iff]
        exact fun h => hzc (.inr h)
      have hk := sa_iff.mpr ht
      have hj := (hf.first hX).resolve_left (by simp [hig])
      have e1 := ends_closeSp hps hqs (·.saTerm) hk (U cl (s ++ g))
      have e2 := ends_closeSp hps hqs (· = .ATerm) hk (U cl (s ++ g))
      rw [join_iff (U_head hpx), hU, e1, e2] at hj
      have bare : ∀ {k : SB}, (p ++ (q ++ cl t :: U cl (s ++ g))).head? = some .ATerm → p = [] ∧ q = [] ∧ cl t = .ATerm := by
        intro _ h
        rcases p with _ | ⟨k, p⟩
        · rcases q with _ | ⟨k, q⟩
          · exact ⟨rfl, rfl, Option.some.inj h⟩
          · rw [hqs k (by simp)] at h
            cases h
        · rw [hps k (by simp)] at h
          cases h
      have marks : p = [] → q = [] → SMarks cl (y ++ z) := by
        intro h1 h2 d hd
        rcases List.mem_append.mp hd with hd | hd
        · exact hq0 h2 d hd
        · exact hp0 h1 d hd
      rcases hj with ⟨h1, h2⟩ | ⟨⟨h1, h2⟩, h3⟩ | ⟨h1, h2⟩ | ⟨h1, h2⟩ | ⟨h1, h2⟩ | ⟨h1, h2⟩ | h
      · obtain ⟨rfl, rfl, hA⟩ := bare (k := .ATerm) h1
        exact ih1 (v := [c]) hw' rfl
          (.number (y ++ z) c [] hi hcl hA (marks rfl rfl) h2 (by simp [SMarks])) (last_some hig)
      · obtain ⟨rfl, rfl, hA⟩ := bare (k := .ATerm) h2
        simp only [List.nil_append, List.tail_cons] at h1
        have hg0 : g = [] := by
          apply Classical.byContradiction
          intro h
          obtain ⟨k, l, h4, h5⟩ := hsg.2.1 h
          rw [h4] at h1
          simp [h5] at h1
        subst hg0
        rw [List.append_nil] at h1
        obtain ⟨u, hu, hu'⟩ : ∃ u, o = some u ∧ (cl u = .Upper ∨ cl u = .Lower) := by
          rcases h1 with h | h
          · obtain ⟨u, h1, h2⟩ := hl _ (.inl rfl) h
            exact ⟨u, h1, .inl h2⟩
          · obtain ⟨u, h1, h2⟩ := hl _ (.inr rfl) h
            exact ⟨u, h1, .inr h2⟩
        subst hu
        exact ih1 (v := [c]) hw' rfl
          (.initial t (y ++ z) c [] hi hu' hA (marks rfl rfl) h3 (by simp [SMarks])) (last_some hig)
      · obtain ⟨m, d, w', h3, h4, h5⟩ := lowerAhead_split h2
        refine ih1 (v := m ++ [d]) (w' := w') ?_ (by rw [h3]; simp)
          (by
            rw [← List.append_assoc]
            refine .lower m d [] hi hcl (by simpa using h1) ?_ h4 (by simp [SMarks])
            intro e he
            have := h5 e he
            simp [SB.stops, SB.paraSep, SB.saTerm] at this
            simp [this])
          (by rw [← List.append_assoc]; exact last_some (by rw [h4]; rfl))
        have := congrArg List.length h3
        simp at this hw
        omega
      · have h2 := h2.resolve_right hs
        exact ih1 (v := [c]) hw' rfl
          (.comma c [] hi hcl h2 (by simp [SMarks])) (last_some hig)
      · rcases h2 with h2 | h2 | h2
        · have hz0 : z ≠ [] := fun h => hyc ⟨h, .inl h2⟩
          rcases p with _ | ⟨k, p⟩
          · exact absurd rfl (hzp hz0)
          · rw [hps k (by simp), List.cons_append, endsClose_other _ (by decide)] at h1
            cases h1
        · exact absurd (.inl h2) hzc
        · rw [hpc] at h2; cases h2
      · rcases h2 with h2 | h2
        · exact absurd (.inl h2) hzc
        · rw [hpc] at h2; cases h2
      · rw [hk] at h; cases h

/-! ## The end of the line -/

theorem join_para (a : Bool) {L : List SB} (hp : L.head?.any (·.paraSep) = false) {b : SB} (hb : b.paraSep = true) :
    sunitJoins a L b = true := by
  rw [join_iff hp]
  cases h : endsCloseSp (·.saTerm) L with
  | false => simp
  | true => exact .inr (.inr (.inr (.inr (.inr (.inl ⟨rfl, .inr hb⟩)))))

theorem ahead_para {c : SB} (hc : c.paraSep = true) (r : List SB) : ∀ {l : List SB}, lowerAhead (l ++ c :: r) = true → lowerAhead l = true
  | [], h => by
    have hs : c.stops = true := by simp [SB.stops, hc]
    simp only [lowerAhead, List.nil_append, List.dropWhile_cons, hs] at h
    simp at h
    subst h
    cases hc
  | k :: l, h => by
    by_cases hk : k.stops = true
    · simpa [lowerAhead, hk] using h
    · rw [Bool.not_eq_true] at hk
      rw [List.cons_append, lowerAhead_nonstop hk] at h
      rw [lowerAhead_nonstop hk]
      exact ahead_para hc r h

theorem sjoins_iff {x : List Char} (hx : x ≠ []) (hp : NoPara cl x) (b : Char) (y : List Char) :
    sjoins (x.map cl).reverse ((b :: y).map cl) = true
      ↔ (cl b).ignorable = true ∨ sunitJoins (lowerAhead ((b :: y).map cl)) (U cl x) (cl b) = true := by
  have hl := List.dropLast_concat_getLast hx
  have hp' : (cl (x.getLast hx)).paraSep = false := hp _ (List.getLast_mem hx)
  unfold U
  generalize x.getLast hx = a at *
  generalize x.dropLast = x' at *
  subst hl
  have hcr : cl a ≠ .CR := by intro h; rw [h] at hp'; cases hp'
  simp [sjoins, sjoinsIf, hcr, hp']

theorem body_good {w : List Char} (h : Body cl w) : NoPara cl w ∧ From cl [] w := by
  obtain ⟨o, s, g, hi, hg, rfl⟩ := h
  have hG := inner_good hi
  rcases hg with rfl | ⟨t, hg⟩
  · rw [List.append_nil]
    exact ⟨hG.noPara, hG.und⟩
  · obtain ⟨h1, h2, -⟩ := closings_from hG.noPara hG.plain hg
    exact ⟨h2, From.join h2 hG.und h1⟩

theorem para_iff {c : Char} : (cl c).paraSep = true ↔ cl c = .CR ∨ cl c = .LF ∨ cl c = .Sep := by
  simp only [SB.paraSep, Bool.or_eq_true, decide_eq_true_eq, or_assoc]
  constructor <;> rintro (h | h | h) <;> simp [h]

/-- A text has no boundary inside if and only if it has the form. -/
theorem undivided_iff {t : List Char} (ht : t ≠ []) :
    (∀ x y, t = x ++ y → x ≠ [] → y ≠ [] → sjoins (x.map cl).reverse (y.map cl) = true) ↔ SentenceForm cl t := by
  constructor
  · intro h
    obtain ⟨B, r, rfl, hB, hr⟩ : ∃ B r, t = B ++ r ∧ NoPara cl B ∧ (r = [] ∨ ∃ c r', r = c :: r' ∧ (cl c).paraSep = true) := by
      clear h ht
      induction t with
      | nil => exact ⟨[], [], rfl, by simp [NoPara], .inl rfl⟩
      | cons c t ih =>
        by_cases hc : (cl c).paraSep = true
        · exact ⟨[], c :: t, rfl, by simp [NoPara], .inr ⟨c, t, rfl, hc⟩⟩
        · obtain ⟨B, r, rfl, hB, hr⟩ := ih
          refine ⟨c :: B, r, rfl, ?_, hr⟩
          intro d hd
          rcases List.mem_cons.mp hd with rfl | hd
          · simpa using hc
          · exact hB d hd
    have hF : From cl [] B := by
      rintro x b y rfl hx
      rw [List.nil_append] at hx ⊢
      have := (sjoins_iff hx hB.left b (y ++ r)).mp (h x (b :: (y ++ r)) (by simp) hx (by simp))
      rcases this with h | h
      · exact .inl h
      · refine .inr (join_mono (U_head hB.left) h fun ha => ?_)
        rcases hr with rfl | ⟨c, r, rfl, hc⟩
        · simpa using ha
        · refine ahead_para hc (r.map cl) (l := (b :: y).map cl) ?_
          simpa using ha
    have hbody := (body_of B.length).1 (Nat.le_refl _) Inner.nil (by intro k _ h; cases h) hF hB
    rw [List.nil_append] at hbody
    obtain ⟨o, s, g, hi, hg, rfl⟩ := hbody
    refine .mk g r hi hg ?_ ht
    rcases hr with rfl | ⟨c, r, rfl, hc⟩
    · exact .inl rfl
    · right
      rcases r with _ | ⟨d, r⟩
      · exact .inl ⟨c, rfl, para_iff.mp hc⟩
      · right
        have h1 := h (s ++ g ++ [c]) (d :: r) (by simp) (by simp) (by simp)
        have hcd : cl c = .CR ∧ cl d = .LF := by
          simp [sjoins, sjoinsIf, hc] at h1
          exact h1
        rcases r with _ | ⟨e, r⟩
        · exact ⟨c, d, rfl, hcd⟩
        · have h2 := h (s ++ g ++ [c, d]) (e :: r) (by simp) (by simp) (by simp)
          simp [sjoins, sjoinsIf, hcd, SB.paraSep] at h2
  · rintro ⟨g, e, hi, hg, he, hne⟩ x y hxy hx hy
    rename_i o s
    obtain ⟨hB, hF⟩ := body_good ⟨o, s, g, hi, hg, rfl⟩
    generalize s ++ g = B at *
    rcases y with _ | ⟨b, y⟩
    · exact absurd rfl hy
    have inB : ∀ y1, B = x ++ b :: y1 → y = y1 ++ e → sjoins (x.map cl).reverse ((b :: y).map cl) = true := by
      intro y1 h1 h2
      rw [h1] at hB hF
      rw [sjoins_iff hx hB.left]
      rcases hF x b y1 rfl (by simpa using hx) with h | h
      · exact .inl h
      · refine .inr (join_mono (U_head hB.left) h fun ha => ?_)
        rw [h2]
        have := ahead_mono (e.map cl) ha
        simpa using this
    rcases List.append_eq_append_iff.mp hxy with ⟨v, h1, h2⟩ | ⟨v, h1, h2⟩
    · subst h1
      rcases he with rfl | ⟨c, rfl, hc⟩ | ⟨c, d, rfl, hc, hd⟩
      · simp at h2
      · rcases v with _ | ⟨f, v⟩
        · simp at h2
          obtain ⟨rfl, rfl⟩ := h2
          rw [List.append_nil] at hx ⊢
          rw [sjoins_iff hx hB]
          exact .inr (join_para _ (U_head hB) (para_iff.mpr hc))
        · simp at h2
      · rcases v with _ | ⟨f, v⟩
        · simp at h2
          obtain ⟨rfl, rfl⟩ := h2
          rw [List.append_nil] at hx ⊢
          rw [sjoins_iff hx hB]
          exact .inr (join_para _ (U_head hB) (para_iff.mpr (.inl hc)))
        · rcases v with _ | ⟨f', v⟩
          · simp at h2
            obtain ⟨rfl, rfl, rfl⟩ := h2
            simp [sjoins, sjoinsIf, hc, hd]
          · simp at h2
    · rcases v with _ | ⟨f, v⟩
      · simp at h1 h2
        subst h1
        rw [sjoins_iff hx hB]
        refine .inr (join_para _ (U_head hB) (para_iff.mpr ?_))
        rcases he with rfl | ⟨c, rfl, hc⟩ | ⟨c, d, rfl, hc, hd⟩
        · simp at h2
        · simp at h2
          rw [h2.1]; exact hc
        · simp at h2
          rw [h2.1]; exact .inl hc
      · simp at h2
        exact inB v (by rw [h1, h2.1]) h2.2

end Uax29.SGrammar
