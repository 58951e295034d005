import Verif.Model.WordState
import Verif.Spec.WordRules
import Verif.Proofs.Conform
import Verif.Proofs.Lists
import Verif.Proofs.SeekGrow
/-! # A loop that follows the word rules

What the split functions of words and phrases have in common. `ws v` are the classes of a table entry
`v`, `I` is the mask of the ignored classes. -/
namespace Uax29
open Spec

/-- The last entry that is not ignored; `left` is given nearest first. -/
def exOf (I : Nat) : List Nat → Nat
  | [] => 0
  | a :: l => if is a I then exOf I l else a

/-- The one before that. -/
def exexOf (I : Nat) : List Nat → Nat
  | [] => 0
  | a :: l => if is a I then exexOf I l else exOf I l

/-- The state before the rules are applied, with the rune at `s.pos` joined. -/
def nextW (I : Nat) (s : WordState) (v w : Nat) : WordState :=
  { pos := s.pos + w, current := v,
    lastExIgnore := if !is s.current I then s.current else s.lastExIgnore,
    lastLastExIgnore := if !is s.current I then s.lastExIgnore else s.lastLastExIgnore,
    regionalIndicatorCount := s.regionalIndicatorCount }

/-- If the entry is ignored, it has no other class. -/
def Blank (x : WSet) : Prop :=
  x.ignorable = true → ∀ g, g ≠ .Extend → g ≠ .Format → g ≠ .ZWJ → x g = false

/-- Newlines are neither ignored nor letters, numbers or regional indicators or
spaces. -/
structure OkSet (x : WSet) : Prop where
  ign : x.ignorable = true → x.newline = false
  letter : (x.ahLetter true || x .Numeric) = true → x.newline = false
  ri : x .RegionalIndicator = true → x.newline = false
  space : x .WSegSpace = true → x.newline = false

/-- A regional indicator is in no other class, except perhaps MidNumLet. -/
def RiOnly (x : WSet) : Prop :=
  x .RegionalIndicator = true → ∀ g, g ≠ .RegionalIndicator → g ≠ .MidNumLet → x g = false

/-- The state `s` describes the entries `left` before it, back to the start of the token. -/
structure WCtx (ws : Nat → WSet) (I : Nat) (s : WordState) (left : List Nat) : Prop where
  cur : left.head? = some s.current
  ex : s.lastExIgnore = exOf I left.tail
  exex : s.lastLastExIgnore = exexOf I left.tail
  nl : (ws s.current).newline = true ∨ ∀ x ∈ left.tail, (ws x).newline = false
  sot : ∀ x, left.getLast? = some x → Blank (ws x)
  ok : ∀ x ∈ left, OkSet (ws x)
  ri : ws (exOf I left) .RegionalIndicator = true →
    ((units (left.map ws)).takeWhile (· .RegionalIndicator)).length = s.regionalIndicatorCount + 1


/-- A test that fails for ignored entries. -/
def Solid (P : WSet → Bool) : Prop :=
  P (fun _ => false) = false ∧ ∀ x, Blank x → x.ignorable = true → P x = false

section
variable {ws : Nat → WSet} {I : Nat} (hI : ∀ v, is v I = (ws v).ignorable) (h0 : ws 0 = fun _ => false)
include hI h0

theorem units_tests : ∀ {left : List Nat}, left ≠ [] → (∀ x ∈ left.tail, (ws x).newline = false) →
    (∀ x, left.getLast? = some x → Blank (ws x)) → ∀ {P : WSet → Bool}, Solid P →
    (units (left.map ws)).head?.any P = P (ws (exOf I left))
    ∧ (units (left.map ws)).tail.head?.any P = P (ws (exexOf I left))
  | [], h, _, _, _, _ => absurd rfl h
  | [a], _, _, hs, P, hP => by
    have hb := hs a rfl
    simp only [List.map_cons, List.map_nil, units, List.head?_cons, Option.any_some, List.tail_cons,
      List.head?_nil, Option.any_none, exOf, exexOf, hI]
    cases h : (ws a).ignorable
    · simp [h0, hP.1]
    · simp [h0, hP.1, hP.2 _ hb h]
  | a :: c :: l, _, hn, hs, P, hP => by
    have ih := units_tests (left := c :: l) (by simp)
      (fun x hx => hn x (List.mem_cons_of_mem _ hx))
      (fun x hx => hs x (by rw [List.getLast?_cons_cons]; exact hx)) hP
    have hc := hn c (by simp)
    rw [List.map_cons, List.map_cons, units, exOf, exexOf, hI]
    rw [List.map_cons] at ih
    simp only [hc, Bool.not_false, Bool.and_true]
    cases h : (ws a).ignorable
    · simp only [Bool.false_eq_true, if_false, List.head?_cons, Option.any_some, List.tail_cons, true_and]
      exact ih.1
    · simp only [if_true]
      exact ih

end

/-- The rules after WB4 as a function of the classes before (`p` and `q` in the sense of WB4), the
class `b` after, what follows `b`, and the parity of the regional indicators or
spaces. -/
def unitRule (ph : Bool) (p q b : WSet) (fA fH fN o : Bool) : Bool :=
  (p.alnum ph && b.alnum ph)
  || (p.ahLetter ph && b.midLetter && fA)
  || (q.ahLetter ph && p.midLetter && b.ahLetter ph)
  || (p .HebrewLetter && b .SingleQuote)
  || (p .HebrewLetter && b .DoubleQuote && fH)
  || (q .HebrewLetter && p .DoubleQuote && b .HebrewLetter)
  || (q .Numeric && p.midNum && b .Numeric)
  || (p .Numeric && b.midNum && fN)
  || (p .Katakana && b .Katakana)
  || ((p.ahLetter ph || p .Numeric || p .Katakana || p .ExtendNumLet) && b .ExtendNumLet)
  || (p .ExtendNumLet && (b.ahLetter ph || b .Numeric || b .Katakana))
  || (p .RegionalIndicator && o && b .RegionalIndicator)

/-- The rules; `a` is directly before. -/
def wordRule (ph : Bool) (a p q b : WSet) (fA fH fN o : Bool) : Bool :=
  if a .CR && b .LF then true
  else if a.newline || b.newline then false
  else if a .ZWJ && b .ExtendedPictographic then true
  else if a .WSegSpace && b .WSegSpace then true
  else if b.ignorable then true
  else unitRule ph p q b fA fH fN o

theorem wordRule_of {ph : Bool} {a p q b : WSet} {fA fH fN o : Bool} (ha : a.newline = false)
    (hb : b.newline = false)
    (h : (a .ZWJ && b .ExtendedPictographic || a .WSegSpace && b .WSegSpace || b.ignorable
      || unitRule ph p q b fA fH fN o) = true) : wordRule ph a p q b fA fH fN o = true := by
  unfold wordRule
  split
  · rfl
  rw [if_neg (by simp [ha, hb])]
  split
  · rfl
  split
  · rfl
  split
  · rfl
  · simp_all

theorem wordRule_not {ph : Bool} {a p q b : WSet} {fA fH fN o : Bool}
    (h1 : (a .CR && b .LF) = false) (h2 : (a .ZWJ && b .ExtendedPictographic) = false)
    (h3 : (a .WSegSpace && b .WSegSpace) = false) (h4 : b.ignorable = false) (hn : (a.newline || b.newline) = false) :
    wordRule ph a p q b fA fH fN o = unitRule ph p q b fA fH fN o := by
  unfold wordRule
  simp [h1, h2, h3, h4, hn]

/-- What follows in the sense of WB4 has the class. -/
def afterIs (ws : Nat → WSet) (P : WSet → Bool) (r : List Nat) : Bool :=
  ((r.map ws).dropWhile (·.ignorable)).head?.any P

theorem solid_of {P : WSet → Bool} (h : ∀ x : WSet, (∀ g, g ≠ .Extend → g ≠ .Format → g ≠ .ZWJ → x g = false) →
    P x = false) : Solid P :=
  ⟨h _ fun _ _ _ _ => rfl, fun x hb hi => h x (hb hi)⟩

theorem solid_class {g : WB} (h1 : g ≠ .Extend) (h2 : g ≠ .Format) (h3 : g ≠ .ZWJ) : Solid (· g) :=
  solid_of fun _ h => h g h1 h2 h3

theorem solid_or {P Q : WSet → Bool} (hP : Solid P) (hQ : Solid Q) : Solid fun x => P x || Q x :=
  ⟨by simp [hP.1, hQ.1], fun x h1 h2 => by simp [hP.2 x h1 h2, hQ.2 x h1 h2]⟩

theorem solid_and {c : Bool} {Q : WSet → Bool} (hQ : Solid Q) : Solid fun x => c && Q x :=
  ⟨by simp [hQ.1], fun x h1 h2 => by simp [hQ.2 x h1 h2]⟩

theorem solid_ah (ph : Bool) : Solid (·.ahLetter ph) :=
  solid_or (solid_or (solid_class (by decide) (by decide) (by decide)) (solid_class (by decide) (by decide) (by decide)))
    (solid_and (solid_class (by decide) (by decide) (by decide)))

theorem solid_midNumLetQ : Solid (·.midNumLetQ) :=
  solid_or (solid_class (by decide) (by decide) (by decide)) (solid_class (by decide) (by decide) (by decide))

theorem solid_midLetter : Solid (·.midLetter) :=
  solid_or (solid_class (by decide) (by decide) (by decide)) solid_midNumLetQ

theorem solid_midNum : Solid (·.midNum) :=
  solid_or (solid_class (by decide) (by decide) (by decide)) solid_midNumLetQ

theorem solid_alnum (ph : Bool) : Solid (·.alnum ph) :=
  solid_or (solid_or (solid_ah ph) (solid_class (by decide) (by decide) (by decide)))
    (solid_and (solid_class (by decide) (by decide) (by decide)))

theorem solid_13a (ph : Bool) : Solid (fun x => x.ahLetter ph || x .Numeric || x .Katakana || x .ExtendNumLet) :=
  solid_or (solid_or (solid_or (solid_ah ph) (solid_class (by decide) (by decide) (by decide)))
    (solid_class (by decide) (by decide) (by decide))) (solid_class (by decide) (by decide) (by decide))

section
variable {ws : Nat → WSet} {I : Nat} (hI : ∀ v, is v I = (ws v).ignorable) (h0 : ws 0 = fun _ => false)
include hI h0

theorem WCtx.joins_eq {s : WordState} {left : List Nat} (h : WCtx ws I s left) (ph : Bool) (v : Nat)
    (r : List Nat) :
    joins ph (left.map ws) ((v :: r).map ws) =
      wordRule ph (ws s.current) (ws (exOf I left)) (ws (exexOf I left)) (ws v)
        (afterIs ws (·.ahLetter ph) r) (afterIs ws (· .HebrewLetter) r) (afterIs ws (· .Numeric) r)
        (decide ((s.regionalIndicatorCount + 1) % 2 = 1)) := by
  obtain ⟨cur, ex, exex, nl, sot, ok, ri⟩ := h
  obtain ⟨a, l, rfl⟩ : ∃ a l, left = a :: l := by
    cases left with
    | nil => simp at cur
    | cons a l => exact ⟨a, l, rfl⟩
  simp at cur
  subst cur
  rw [List.map_cons, List.map_cons, joins, wordRule]
  split
  · rfl
  split
  · rfl
  rename_i hnl
  have hn : ∀ x ∈ l, (ws x).newline = false := by
    rcases nl with h | h
    · simp [h] at hnl
    · exact h
  split
  · rfl
  split
  · rfl
  split
  · rfl
  have T := fun {P} (hP : Solid P) => units_tests hI h0 (left := s.current :: l) (by simp) hn sot hP
  have hodd : decide (((units ((s.current :: l).map ws)).takeWhile (· .RegionalIndicator)).length % 2 = 1)
      = (ws (exOf I (s.current :: l)) .RegionalIndicator && decide ((s.regionalIndicatorCount + 1) % 2 = 1)) := by
    cases hr : ws (exOf I (s.current :: l)) .RegionalIndicator
    · have h1 := (T (P := (· .RegionalIndicator)) (solid_class (by decide) (by decide) (by decide))).1
      rw [hr] at h1
      cases hu : units ((s.current :: l).map ws) with
      | nil => simp
      | cons x u =>
        rw [hu] at h1
        simp at h1
        simp [h1]
    · rw [ri hr]; simp
  rw [← List.map_cons]
  unfold unitJoins
  simp only []
  rw [hodd]
  simp only [(T (solid_alnum ph)).1, (T (solid_ah ph)).1, (T (solid_ah ph)).2, (T solid_midLetter).1,
    (T (P := (· .HebrewLetter)) (solid_class (by decide) (by decide) (by decide))).1,
    (T (P := (· .HebrewLetter)) (solid_class (by decide) (by decide) (by decide))).2,
    (T (P := (· .DoubleQuote)) (solid_class (by decide) (by decide) (by decide))).1,
    (T (P := (· .Numeric)) (solid_class (by decide) (by decide) (by decide))).1,
    (T (P := (· .Numeric)) (solid_class (by decide) (by decide) (by decide))).2,
    (T (P := (· .Katakana)) (solid_class (by decide) (by decide) (by decide))).1,
    (T (P := (· .ExtendNumLet)) (solid_class (by decide) (by decide) (by decide))).1,
    (T solid_midNum).1, (T (solid_13a ph)).1]
  rfl

omit hI h0 in
theorem WCtx.nextW_ex {s : WordState} {left : List Nat} (h : WCtx ws I s left) (v w : Nat) :
    (nextW I s v w).lastExIgnore = exOf I left ∧ (nextW I s v w).lastLastExIgnore = exexOf I left := by
  obtain ⟨cur, ex, exex, _⟩ := h
  cases left with
  | nil => simp at cur
  | cons a l =>
    simp at cur
    subst cur
    simp only [nextW, exOf, exexOf, ex, exex, List.tail_cons]
    cases is s.current I <;> simp

end

/-- `WB6`, `WB7b` or `WB12` apply: `p` is before `b`, and `after` says what follows `b`. -/
def LooksAhead (ph : Bool) (p b : WSet) (after : (WSet → Bool) → Bool) : Prop :=
  (p.ahLetter ph = true ∧ b.midLetter = true ∧ after (·.ahLetter ph) = true)
  ∨ (p .HebrewLetter = true ∧ b .DoubleQuote = true ∧ after (· .HebrewLetter) = true)
  ∨ (p .Numeric = true ∧ b.midNum = true ∧ after (· .Numeric) = true)

/-- What a pass may do at the entry `next.current`: break where the rules break, go on where they
join, or jump over `k` bytes of ignored characters to the character that a look-ahead rule found. -/
def Allowed (ws : Nat → WSet) (ph : Bool) (s next : WordState) (r : List Nat) (k : Nat)
    (R : Step WordState) : Prop :=
  let J := wordRule ph (ws s.current) (ws next.lastExIgnore) (ws next.lastLastExIgnore) (ws next.current)
    (afterIs ws (·.ahLetter ph) r) (afterIs ws (· .HebrewLetter) r) (afterIs ws (· .Numeric) r)
    (decide ((s.regionalIndicatorCount + 1) % 2 = 1))
  (J = false ∧ R = .brk s.pos)
  ∨ (J = true ∧ R = .cont next
      ∧ (((ws next.current).ignorable = true ∧ (ws s.current).newline = false)
        ∨ ws next.current .RegionalIndicator = false))
  ∨ (J = true ∧ R = .cont { next with regionalIndicatorCount := s.regionalIndicatorCount + 1 }
      ∧ (ws next.current).ignorable = false ∧ ws next.lastExIgnore .RegionalIndicator = true)
  ∨ (R = .cont { next with pos := next.pos + k } ∧ (ws next.current).ignorable = false
      ∧ (ws s.current).newline = false ∧ (ws next.current).newline = false
      ∧ LooksAhead ph (ws next.lastExIgnore) (ws next.current) (afterIs ws · r))

theorem units_ignorable (ig : List WSet) : (∀ x ∈ ig, x.ignorable = true ∧ x.newline = false) →
    ∀ (b : WSet) (left : List WSet), b.newline = false →
    units (ig ++ b :: left) = units (b :: left) := by
  induction ig with
  | nil => intro _ b left _; rfl
  | cons a ig ih =>
    intro h b left hb
    have ih := ih (fun x hx => h x (List.mem_cons_of_mem _ hx)) b left hb
    have ha := (h a List.mem_cons_self).1
    cases ig with
    | nil => simp [units, ha, hb]
    | cons c ig =>
      have hc := (h c (by simp)).2
      simp only [List.cons_append] at ih ⊢
      rw [units]
      simp only [ha, hc, Bool.not_false, Bool.and_self, if_true]
      exact ih

theorem units_cons_solid {b : WSet} (h : b.ignorable = false) (left : List WSet) :
    units (b :: left) = b :: units left := by
  cases left with
  | nil => rfl
  | cons c l => simp [units, h]

theorem exOf_append {I : Nat} (ig : List Nat) (h : ∀ x ∈ ig, is x I = true) (l : List Nat) :
    exOf I (ig ++ l) = exOf I l ∧ exexOf I (ig ++ l) = exexOf I l := by
  induction ig with
  | nil => exact ⟨rfl, rfl⟩
  | cons a ig ih =>
    have := ih fun x hx => h x (List.mem_cons_of_mem _ hx)
    simp [exOf, exexOf, h a List.mem_cons_self, this]

/-- Joining by WB4. -/
theorem joins_ignorable (ph : Bool) {a b : WSet} (left right : List WSet) (h1 : a.newline = false)
    (h2 : b.newline = false) (h3 : b.ignorable = true) : joins ph (a :: left) (b :: right) = true := by
  rw [joins]
  split
  · rfl
  · rw [if_neg (by simp [h1, h2])]
    split
    · rfl
    · split
      · rfl
      · simp

/-- Joining by the rules after WB4. -/
theorem joins_units (ph : Bool) {a b : WSet} (left right : List WSet) (h1 : a.newline = false)
    (h2 : b.newline = false) (h3 : unitJoins ph (units (a :: left)) b (right.dropWhile (·.ignorable)).head? = true) :
    joins ph (a :: left) (b :: right) = true := by
  rw [joins]
  split
  · rfl
  · rw [if_neg (by simp [h1, h2])]
    split
    · rfl
    · split
      · rfl
      · split
        · rfl
        · exact h3

theorem LooksAhead.rule {ph : Bool} {a p q b : WSet} {after : (WSet → Bool) → Bool} {o : Bool}
    (h : LooksAhead ph p b after) (ha : a.newline = false) (hb : b.newline = false) :
    wordRule ph a p q b (after (·.ahLetter ph)) (after (· .HebrewLetter)) (after (· .Numeric)) o = true := by
  apply wordRule_of ha hb
  rcases h with ⟨h1, h2, h3⟩ | ⟨h1, h2, h3⟩ | ⟨h1, h2, h3⟩ <;> simp [unitRule, h1, h2, h3]

/-- Joining the character that a look-ahead rule found, by WB7, WB7c or WB11. -/
theorem unitJoins_second {ph : Bool} {p m y : WSet} {u : List WSet} (n : Option WSet)
    (hp : ∀ {P : WSet → Bool}, Solid P → u.head?.any P = P p)
    (h : LooksAhead ph p m (fun P => P y)) : unitJoins ph (m :: u) y n = true := by
  unfold unitJoins
  simp only [List.head?_cons, Option.any_some, List.tail_cons]
  rw [hp (solid_ah ph), hp (P := (· .HebrewLetter)) (solid_class (by decide) (by decide) (by decide)),
    hp (P := (· .Numeric)) (solid_class (by decide) (by decide) (by decide))]
  rcases h with ⟨h1, h2, h3⟩ | ⟨h1, h2, h3⟩ | ⟨h1, h2, h3⟩ <;> simp [h1, h2, h3]

theorem LooksAhead.not_newline {ph : Bool} {p m y : WSet} (h : LooksAhead ph p m (fun P => P y)) (hy : OkSet y) :
    y.newline = false := by
  apply hy.letter
  rcases h with ⟨_, _, h3⟩ | ⟨_, _, h3⟩ | ⟨_, _, h3⟩
  · simp only [WSet.ahLetter, Bool.or_eq_true, Bool.and_eq_true] at h3 ⊢
    rcases h3 with h | ⟨_, h⟩
    · exact .inl (.inl h)
    · exact .inl (.inr ⟨trivial, h⟩)
  · simp [WSet.ahLetter, h3]
  · simp [h3]

section
variable {ws : Nat → WSet} {I : Nat} (hI : ∀ v, is v I = (ws v).ignorable) (h0 : ws 0 = fun _ => false)
include hI h0

omit hI h0 in
/-- The context after one more character. -/
theorem WCtx.next {s : WordState} {left : List Nat} (h : WCtx ws I s left) {v w : Nat} {c : Nat}
    (hok : OkSet (ws v)) (hnl : (ws v).newline = true ∨ ∀ x ∈ left, (ws x).newline = false)
    (hri : ws (exOf I (v :: left)) .RegionalIndicator = true →
      ((units ((v :: left).map ws)).takeWhile (· .RegionalIndicator)).length = c + 1) :
    WCtx ws I { nextW I s v w with regionalIndicatorCount := c } (v :: left) where
  cur := rfl
  ex := (h.nextW_ex v w).1
  exex := (h.nextW_ex v w).2
  nl := hnl
  sot := by
    intro x hx
    have : left ≠ [] := by rintro rfl; have := h.cur; simp at this
    obtain ⟨y, l, rfl⟩ := List.exists_cons_of_ne_nil this
    rw [List.getLast?_cons_cons] at hx
    exact h.sot x hx
  ok := by
    intro x hx
    rcases List.mem_cons.mp hx with rfl | hx
    · exact hok
    · exact h.ok x hx
  ri := hri

theorem word_pass {T : Trie} {ph : Bool} {data t : Bytes} {body : WordState → Step WordState}
    {R : WordState → WordState → Step WordState} {cell : Nat × Bytes → Nat}
    (hbody : ∀ s v bs d', s.pos < data.length → data.drop s.pos = bs ++ d' → bs ≠ [] →
      T.lookupAt data s.pos = .ok (v, bs.length) → body s = R s (nextW I s (cell (v, bs)) bs.length))
    (hok : ∀ x, T.IsValue x.1 → OkSet (ws (cell x))) {Extra : WSet → Prop}
    (hextra : ∀ x, T.IsValue x.1 → Extra (ws (cell x)))
    (hri : ∀ x, T.IsValue x.1 → RiOnly (ws (cell x)))
    (hign : ∀ x, is (cell x) I = is x.1 I)
    (hallow : ∀ s left v bs d' l, WCtx ws I s left → T.IsValue v → data.drop s.pos = bs ++ d' → bs ≠ [] →
      s.pos + bs.length ≤ data.length → Decodes T (data.drop (s.pos + bs.length)) l t →
      Allowed ws ph s (nextW I s (cell (v, bs)) bs.length) (l.map cell)
        (bytesOf (l.takeWhile fun x => is x.1 I)).length (R s (nextW I s (cell (v, bs)) bs.length)))
    (hsecond : ∀ s v w, OkSet (ws v) → Extra (ws v) → (ws s.current).ignorable = false → (ws s.current).newline = false →
      (ws v).ignorable = false → LooksAhead ph (ws s.lastExIgnore) (ws s.current) (fun P => P (ws v)) →
      R s (nextW I s v w) = .cont (nextW I s v w)) :
    ∀ s left v bs d' l, WCtx ws I s left → data.drop s.pos = bs ++ d' → bs ≠ [] → s.pos < data.length →
      T.lookupAt data s.pos = .ok (v, bs.length) → T.IsValue v → Decodes T d' l t →
      PassOk body WordState.pos (WCtx ws I) cell (fun l r => joins ph (l.map ws) (r.map ws)) data s left
        ((v, bs) :: l) := by
  intro s left v bs d' l hctx hdd hne hp hl hval hdec
  have hlen : data.length - s.pos = bs.length + d'.length := by
    have := congrArg List.length hdd
    simpa using this
  have hle : s.pos + bs.length ≤ data.length := by omega
  have hdrop : data.drop (s.pos + bs.length) = d' := by
    rw [← List.drop_drop, hdd, List.drop_left]
  have hA := hallow s left v bs d' l hctx hval hdd hne hle (by rw [hdrop]; exact hdec)
  have hb := hbody s v bs d' hp hdd hne hl
  have hJ := hctx.joins_eq hI h0 ph (cell (v, bs)) (l.map cell)
  obtain ⟨hex, hexex⟩ := hctx.nextW_ex (cell (v, bs)) bs.length
  have hcur : (nextW I s (cell (v, bs)) bs.length).current = cell (v, bs) := rfl
  have hokv := hok (v, bs) hval
  unfold Allowed at hA
  generalize hN : nextW I s (cell (v, bs)) bs.length = N at hA hex hexex hcur hb
  dsimp only at hA
  rw [hex, hexex, hcur, ← hJ] at hA
  subst hN
  have hleft : ∃ l', left = s.current :: l' := by
    have := hctx.cur
    cases left with
    | nil => simp at this
    | cons a l' => simp at this; exact ⟨l', by rw [this]⟩
  -- newlines
  have hclean : (ws s.current).newline = false → ∀ x ∈ left, (ws x).newline = false := by
    intro h x hx
    obtain ⟨l', rfl⟩ := hleft
    rcases hctx.nl with h' | h'
    · rw [h] at h'; cases h'
    · rcases List.mem_cons.mp hx with rfl | hx
      · exact h
      · exact h' x hx
  have hnl : joins ph (left.map ws) ((cell (v, bs) :: l.map cell).map ws) = true →
      (ws (cell (v, bs))).newline = true ∨ ∀ x ∈ left, (ws x).newline = false := by
    intro hj
    cases hv : (ws (cell (v, bs))).newline
    · right
      apply hclean
      obtain ⟨l', rfl⟩ := hleft
      rw [List.map_cons, List.map_cons, joins] at hj
      split at hj
      · rename_i h
        simp only [Bool.and_eq_true] at h
        simp [WSet.newline, h.2] at hv
      · cases ha : (ws s.current).newline
        · rfl
        · rw [if_pos (by simp [ha])] at hj; cases hj
    · exact .inl rfl
  -- one chunk
  have one : ∀ {c : Nat}, joins ph (left.map ws) ((cell (v, bs) :: l.map cell).map ws) = true →
      R s (nextW I s (cell (v, bs)) bs.length)
        = .cont { nextW I s (cell (v, bs)) bs.length with regionalIndicatorCount := c } →
      (ws (exOf I (cell (v, bs) :: left)) .RegionalIndicator = true →
        ((units ((cell (v, bs) :: left).map ws)).takeWhile (· .RegionalIndicator)).length = c + 1) →
      PassOk body WordState.pos (WCtx ws I) cell (fun l r => joins ph (l.map ws) (r.map ws)) data s left
        ((v, bs) :: l) := by
    intro c hj hR hc
    right; left
    refine ⟨1, 1, { nextW I s (cell (v, bs)) bs.length with regionalIndicatorCount := c },
      by omega, by simp, by omega, ?_, ?_, ?_, ?_⟩
    rotate_left 2
    · simpa using hctx.next hokv (hnl hj) hc (w := bs.length)
    · intro i hi
      have : i = 0 := by omega
      subst this
      simpa using hj
    · intro fuel
      rw [Nat.add_comm 1]
      simp only [runLoop, hb, hR]
    · simp [nextW, bytesOf]
  rcases hA with ⟨hj, hR⟩ | ⟨hj, hR, hc⟩ | ⟨hj, hR, hi, hr⟩ | ⟨hR, hi, ha, hvn, hla⟩
  · left
    refine ⟨?_, by rw [hb, hR]⟩
    simpa using hj
  · refine one (c := s.regionalIndicatorCount) hj hR ?_
    intro hr
    cases hg : (ws (cell (v, bs))).ignorable
    · exfalso
      simp only [exOf, hI, hg, Bool.false_eq_true, if_false] at hr
      rcases hc with ⟨hg', _⟩ | hr'
      · rw [hg] at hg'; cases hg'
      · rw [hr] at hr'; cases hr'
    · have hvn := hokv.ign hg
      have ha : (ws s.current).newline = false := by
        rcases hnl hj with h | h
        · rw [hvn] at h; cases h
        · obtain ⟨l', rfl⟩ := hleft
          exact h _ List.mem_cons_self
      have h1 : exOf I (cell (v, bs) :: left) = exOf I left := by simp [exOf, hI, hg]
      rw [h1] at hr
      have := hctx.ri hr
      obtain ⟨l', rfl⟩ := hleft
      rw [List.map_cons, List.map_cons, units, ← List.map_cons]
      simp only [hg, ha, Bool.not_false, Bool.and_self, if_true]
      exact this
  · refine one (c := s.regionalIndicatorCount + 1) hj (by rw [hR, ← hex, ← hexex]; rfl) ?_
    intro hr'
    simp only [exOf, hI, hi, Bool.false_eq_true, if_false] at hr'
    rw [List.map_cons, units_cons_solid hi, List.takeWhile_cons]
    simp only [hr', if_true, List.length_cons, hctx.ri hr]
  · -- the look-ahead rules
    right; left
    have hJ0 : joins ph (left.map ws) ((cell (v, bs) :: l.map cell).map ws) = true := by
      rw [hJ]; exact hla.rule ha hvn
    have hcl := hclean ha
    replace hR : R s (nextW I s (cell (v, bs)) bs.length) = .cont { nextW I s (cell (v, bs)) bs.length with
        pos := (nextW I s (cell (v, bs)) bs.length).pos + (bytesOf (l.takeWhile fun x => is x.1 I)).length } := by
      rw [hR, ← hex, ← hexex]; rfl
    generalize hig : l.takeWhile (fun x => is x.1 I) = ig at hR
    have hsp : ig ++ l.dropWhile (fun x => is x.1 I) = l := by
      rw [← hig]; exact List.takeWhile_append_dropWhile
    have higI : ∀ x ∈ ig, is (cell x) I = true := by
      intro x hx
      rw [hign]
      rw [← hig] at hx
      exact List.all_eq_true.mp List.all_takeWhile x hx
    have higv : ∀ x ∈ ig, T.IsValue x.1 := by
      intro x hx
      exact (hdec.values x (by rw [← hsp]; exact List.mem_append_left _ hx)).1
    have higN : ∀ x ∈ ig, (ws (cell x)).ignorable = true ∧ (ws (cell x)).newline = false := by
      intro x hx
      have h1 := higI x hx
      rw [hI] at h1
      exact ⟨h1, (hok x (higv x hx)).ign h1⟩
    have hafter : ∀ P, afterIs ws P (l.map cell)
        = (l.dropWhile (fun x => is x.1 I)).head?.any (fun x => P (ws (cell x))) := by
      intro P
      unfold afterIs
      rw [List.map_map, List.dropWhile_map]
      have : ((fun x : WSet => x.ignorable) ∘ (ws ∘ cell)) = fun x => is x.1 I := by
        funext x
        simp only [Function.comp_apply, ← hI, hign]
      rw [this]
      cases l.dropWhile (fun x => is x.1 I) <;> simp
    have hdw : ∀ y l2, l.dropWhile (fun x => is x.1 I) = y :: l2 → is (cell y) I = false := by
      intro y l2 h
      have := List.head_dropWhile_not (fun x : Nat × Bytes => is x.1 I) (l := l) (by rw [h]; simp)
      simp only [h, List.head_cons] at this
      rw [hign]; exact this
    cases hr : l.dropWhile (fun x => is x.1 I) with
    | nil =>
      exfalso
      simp only [hafter, hr, List.head?_nil, Option.any_none] at hla
      rcases hla with ⟨_, _, h⟩ | ⟨_, _, h⟩ | ⟨_, _, h⟩ <;> cases h
    | cons y l2 =>
      have hyI := hdw y l2 hr
      simp only [hafter, hr, List.head?_cons, Option.any_some] at hla
      rw [hr] at hsp
      obtain ⟨yv, ybs⟩ := y
      have hyval : T.IsValue yv := (hdec.values (yv, ybs) (by rw [← hsp]; simp)).1
      have hyok := hok (yv, ybs) hyval
      have hyig : (ws (cell (yv, ybs))).ignorable = false := by rw [← hI]; exact hyI
      have hyn := LooksAhead.not_newline hla hyok
      have hyri : ws (cell (yv, ybs)) .RegionalIndicator = false := by
        rw [Bool.eq_false_iff]
        intro hr
        have hr := hri _ hyval hr
        rcases hla with ⟨_, _, h3⟩ | ⟨_, _, h3⟩ | ⟨_, _, h3⟩
        · simp [WSet.ahLetter, hr .ALetter (by decide) (by decide), hr .HebrewLetter (by decide) (by decide),
            hr .ExtendedPictographic (by decide) (by decide)] at h3
        · simp [hr .HebrewLetter (by decide) (by decide)] at h3
        · simp [hr .Numeric (by decide) (by decide)] at h3
      -- the state after the jump
      generalize hs1 : ({ nextW I s (cell (v, bs)) bs.length with
        pos := (nextW I s (cell (v, bs)) bs.length).pos + (bytesOf ig).length } : WordState) = s1 at hR
      have hp1 : s1.pos = s.pos + bs.length + (bytesOf ig).length := by rw [← hs1]; rfl
      have hc1 : s1.current = cell (v, bs) := by rw [← hs1]; rfl
      have he1 : s1.lastExIgnore = exOf I left := by rw [← hs1]; exact hex
      have hd1 : Decodes T (data.drop s1.pos) ((yv, ybs) :: l2) t := by
        have := hdec.drop ig.length (by rw [← hsp]; simp)
        rw [← hsp, List.drop_left, List.take_left, ← hdrop, List.drop_drop] at this
        rw [hp1]; exact this
      have hp1le : s1.pos ≤ data.length := by
        have := hdec.flatten
        have := congrArg List.length this
        rw [← hsp] at this
        simp only [List.flatMap_append, List.length_append] at this
        have h5 : (List.flatMap (fun x => x.2) ig).length = (bytesOf ig).length := rfl
        omega
      have hb1 : body s1 = R s1 (nextW I s1 (cell (yv, ybs)) ybs.length) ∧ s1.pos < data.length := by
        generalize hdd1 : data.drop s1.pos = dd1 at hd1
        cases hd1 with
        | @cons _ d1 _ _ _ ne look val rest =>
          have hlt : s1.pos < data.length := by
            rcases Nat.lt_or_ge s1.pos data.length with h | h
            · exact h
            · rw [List.drop_of_length_le h] at hdd1; simp at hdd1; exact absurd hdd1.1 ne
          rw [← hdd1, ← lookupAt_eq hp1le] at look
          exact ⟨hbody s1 yv ybs d1 hlt hdd1 ne look, hlt⟩
      have hR1 := hsecond s1 (cell (yv, ybs)) ybs.length hyok (hextra _ hyval) (by rw [hc1]; exact hi) (by rw [hc1]; exact hvn)
        hyig (by rw [hc1, he1]; exact hla)
      have hexig := exOf_append (I := I) (ig.map cell).reverse (by
        intro x hx
        simp only [List.mem_reverse, List.mem_map] at hx
        obtain ⟨z, hz, rfl⟩ := hx
        exact higI z hz) (cell (v, bs) :: left)
      have hvI : is (cell (v, bs)) I = false := by rw [hI]; exact hi
      have htake : ((v, bs) :: l).take (ig.length + 2) = (v, bs) :: (ig ++ [(yv, ybs)]) := by
        rw [← hsp, show ig.length + 2 = (ig.length + 1) + 1 from rfl, List.take_succ_cons,
          List.take_append, List.take_of_length_le (by omega), Nat.add_sub_cancel_left]
        rfl
      have hmem : ∀ x ∈ (ig.map cell).reverse ++ cell (v, bs) :: left, (ws x).newline = false := by
        intro x hx
        rcases List.mem_append.mp hx with h | h
        · simp only [List.mem_reverse, List.mem_map] at h
          obtain ⟨z, hz, rfl⟩ := h
          exact (higN z hz).2
        · rcases List.mem_cons.mp h with rfl | h
          · exact hvn
          · exact hcl x h
      refine ⟨ig.length + 2, 2, nextW I s1 (cell (yv, ybs)) ybs.length, by omega, ?_, by omega, ?_, ?_, ?_, ?_⟩
      · rw [← hsp]; simp
      · intro fuel
        rw [Nat.add_comm 2]
        simp only [runLoop, hb, hR, hb1.1, hR1]
      · rw [htake]
        simp only [nextW, hp1, bytesOf, List.flatMap_cons, List.flatMap_append, List.flatMap_nil, List.length_append,
          List.append_nil]
        omega
      · rw [htake]
        simp only [List.map_cons, List.map_append, List.map_nil, List.reverse_cons, List.reverse_append,
          List.reverse_nil, List.nil_append, List.append_assoc, List.cons_append]
        refine ⟨rfl, ?_, ?_, .inr ?_, ?_, ?_, ?_⟩
        · simp only [nextW, List.tail_cons, hexig.1, hc1, hvI, Bool.not_false, if_true, exOf]
          simp
        · simp only [nextW, List.tail_cons, hexig.2, hc1, hvI, Bool.not_false, if_true, exexOf, he1]
          simp
        · exact hmem
        · intro x hx
          apply hctx.sot x
          have : left ≠ [] := by rintro rfl; have := hctx.cur; simp at this
          obtain ⟨z, l', rfl⟩ := List.exists_cons_of_ne_nil this
          rw [show cell (yv, ybs) :: ((ig.map cell).reverse ++ cell (v, bs) :: z :: l')
            = (cell (yv, ybs) :: ((ig.map cell).reverse ++ [cell (v, bs)])) ++ z :: l' by simp,
            List.getLast?_append] at hx
          obtain ⟨q, hq⟩ : ∃ q, (z :: l').getLast? = some q := by
            cases h : (z :: l').getLast? with
            | none => simp at h
            | some q => exact ⟨q, rfl⟩
          rw [hq] at hx ⊢
          simpa using hx
        · intro x hx
          rcases List.mem_cons.mp hx with rfl | hx
          · exact hyok
          rcases List.mem_append.mp hx with h | h
          · simp only [List.mem_reverse, List.mem_map] at h
            obtain ⟨z, hz, rfl⟩ := h
            exact hok z (higv z hz)
          · rcases List.mem_cons.mp h with rfl | h
            · exact hokv
            · exact hctx.ok x h
        · intro h
          simp only [exOf, hyI, Bool.false_eq_true, if_false] at h
          rw [hyri] at h; cases h
      · intro i hin
        rcases Nat.eq_zero_or_pos i with rfl | hpos
        · simpa using hJ0
        obtain ⟨j, rfl⟩ : ∃ j, i = j + 1 := ⟨i - 1, by omega⟩
        simp only [List.take_succ_cons, List.drop_succ_cons, List.map_cons, List.reverse_cons, List.append_assoc,
          List.singleton_append]
        rw [← hsp]
        rcases Nat.lt_or_ge j ig.length with hj | hj
        · rw [List.take_append_of_le_length (by omega), List.drop_append_of_le_length (by omega)]
          have hz : ∃ z r, ig.drop j = z :: r := List.exists_cons_of_ne_nil (by simp; omega)
          obtain ⟨z, r, hz⟩ := hz
          have hzm : z ∈ ig := List.mem_of_mem_drop (by rw [hz]; exact List.mem_cons_self)
          rw [hz]
          have hne' : ((ig.take j).map cell).reverse ++ cell (v, bs) :: left ≠ [] := by simp
          obtain ⟨a, l', ha'⟩ := List.exists_cons_of_ne_nil hne'
          have han : (ws a).newline = false := by
            apply hmem
            have : a ∈ ((ig.take j).map cell).reverse ++ cell (v, bs) :: left := by rw [ha']; exact List.mem_cons_self
            rcases List.mem_append.mp this with h | h
            · apply List.mem_append_left
              simp only [List.mem_reverse, List.mem_map] at h ⊢
              obtain ⟨z, hz, rfl⟩ := h
              exact ⟨z, List.mem_of_mem_take hz, rfl⟩
            · exact List.mem_append_right _ h
          rw [ha']
          simp only [List.cons_append, List.map_cons]
          exact joins_ignorable ph _ _ han (higN z hzm).2 (higN z hzm).1
        · have : j = ig.length := by omega
          subst this
          rw [List.take_left, List.drop_left]
          have hne' : (ig.map cell).reverse ++ cell (v, bs) :: left ≠ [] := by simp
          obtain ⟨a, l', ha'⟩ := List.exists_cons_of_ne_nil hne'
          have han : (ws a).newline = false := hmem a (by rw [ha']; exact List.mem_cons_self)
          rw [ha']
          simp only [List.map_cons]
          apply joins_units ph _ _ han hyn
          rw [← List.map_cons, ← ha', List.map_append, List.map_cons, units_ignorable _ ?_ _ _ hvn,
            units_cons_solid hi]
          · apply unitJoins_second (p := ws (exOf I left)) _ _ hla
            intro P hP
            obtain ⟨l0, rfl⟩ := hleft
            exact (units_tests hI h0 (left := s.current :: l0) (by simp) (fun x hx => hcl x (List.mem_cons_of_mem _ hx)) hctx.sot hP).1
          · intro x hx
            simp only [List.mem_map, List.mem_reverse] at hx
            obtain ⟨_, ⟨z, hz, rfl⟩, rfl⟩ := hx
            exact higN z hz

end

end Uax29
