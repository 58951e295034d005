import Verif.Spec.WordGrammar
import Verif.Proofs.Transparent
import Verif.Proofs.WordMachine
/-! # The texts that are one word, by a grammar -/
namespace Uax29
open Spec

/-- Punctuation within words. -/
@[grind] def WB.mid : WB → Bool
  | .MidLetter | .MidNum | .MidNumLet | .SingleQuote | .DoubleQuote => true
  | _ => false

/-- A character has one value of the property Word_Break, or it is punctuation only; a pictograph is a letter at most. -/
structure Exclusive (w : WSet) : Prop where
  excl : ∀ a b, w a = true → w b = true → a = b ∨ a = .ExtendedPictographic ∨ b = .ExtendedPictographic ∨ (WB.mid a = true ∧ WB.mid b = true)
  pict : w .ExtendedPictographic = true → ∀ b, w b = true → b = .ExtendedPictographic ∨ b = .ALetter

section
variable {ph : Bool} {cl : Char → WSet}

/-! ## The rules in the terms of the grammar -/

theorem wordLetter_iff {c : Char} : (cl c).ahLetter ph = true ↔ IsLetter ph cl c := by
  simp [WSet.ahLetter, IsLetter, or_assoc]

theorem wordAlnum_iff {c : Char} : (cl c).alnum ph = true ↔ IsAlnum ph cl c := by
  simp only [WSet.alnum, Bool.or_eq_true, wordLetter_iff, IsAlnum, Bool.and_eq_true, or_assoc]

theorem midLetter_iff {w : WSet} : w.midLetter = true ↔ w .MidLetter = true ∨ w .MidNumLet = true ∨ w .SingleQuote = true := by
  simp [WSet.midLetter, WSet.midNumLetQ]

theorem midNum_iff {w : WSet} : w.midNum = true ↔ w .MidNum = true ∨ w .MidNumLet = true ∨ w .SingleQuote = true := by
  simp [WSet.midNum, WSet.midNumLetQ]

theorem unitJoins_iff {c d : Char} {left : List Char} {next : Option Char} :
    unitJoins ph ((c :: left).map cl) (cl d) (next.map cl) = true ↔
      IsPair ph cl c d ∨ (∃ e, next = some e ∧ IsMid ph cl c d e) ∨ (∃ e, left.head? = some e ∧ IsMid ph cl e c d)
      ∨ (cl c .HebrewLetter = true ∧ cl d .SingleQuote = true)
      ∨ ((((c :: left).map cl).takeWhile (· .RegionalIndicator)).length % 2 = 1 ∧ cl d .RegionalIndicator = true) := by
  unfold unitJoins
  simp only [Bool.or_eq_true, Bool.and_eq_true, List.map_cons, List.head?_cons, Option.any_some, List.tail_cons, wordAlnum_iff,
    wordLetter_iff, midLetter_iff, midNum_iff, decide_eq_true_eq, List.head?_map, Option.any_map, Option.any_eq_true,
    IsPair, IsMid, IsSolid]
  constructor
  · rintro (((((((((((h | ⟨⟨h1, h2⟩, e, h3, h4⟩) | ⟨⟨⟨e, h1, h2⟩, h3⟩, h4⟩) | h) | ⟨⟨h1, h2⟩, e, h3, h4⟩) | ⟨⟨⟨e, h1, h2⟩, h3⟩, h4⟩)
      | ⟨⟨⟨e, h1, h2⟩, h3⟩, h4⟩) | ⟨⟨h1, h2⟩, e, h3, h4⟩) | h) | ⟨h1, h2⟩) | ⟨h1, h2⟩) | h)
    · exact .inl (.inl h)
    · exact .inr (.inl ⟨e, h3, .inl ⟨h1, h2, h4⟩⟩)
    · exact .inr (.inr (.inl ⟨e, h1, .inl ⟨h2, h3, h4⟩⟩))
    · exact .inr (.inr (.inr (.inl h)))
    · exact .inr (.inl ⟨e, h3, .inr (.inr ⟨h1, h2, h4⟩)⟩)
    · exact .inr (.inr (.inl ⟨e, h1, .inr (.inr ⟨h2, h3, h4⟩)⟩))
    · exact .inr (.inr (.inl ⟨e, h1, .inr (.inl ⟨h2, h3, h4⟩)⟩))
    · exact .inr (.inl ⟨e, h3, .inr (.inl ⟨h1, h2, h4⟩)⟩)
    · exact .inl (.inr (.inl h))
    · exact .inl (.inr (.inr (.inr ⟨by grind, h2⟩)))
    · exact .inl (.inr (.inr (.inl ⟨h1, by grind⟩)))
    · exact .inr (.inr (.inr (.inr h)))
  · rintro ((h | h | ⟨h1, h2⟩ | ⟨h1, h2⟩) | ⟨e, h, h1 | h1 | h1⟩ | ⟨e, h, h1 | h1 | h1⟩ | h | h)
    · simp [h]
    · simp [h]
    · grind
    · grind
    · simp [h, h1]
    · simp [h, h1]
    · simp [h, h1]
    · simp [h, h1]
    · simp [h, h1]
    · simp [h, h1]
    · simp [h]
    · exact .inr h

/-! ## Units -/

/-- A character and the marks after it. -/
abbrev WUnit := Char × List Char

/-- The text of units. -/
def flat (us : List WUnit) : List Char := us.flatMap fun u => u.1 :: u.2

@[simp] theorem flat_nil : flat [] = [] := rfl
@[simp] theorem flat_cons (u : WUnit) (us : List WUnit) : flat (u :: us) = u.1 :: (u.2 ++ flat us) := by simp [flat]
@[simp] theorem flat_append (us vs : List WUnit) : flat (us ++ vs) = flat us ++ flat vs := by simp [flat]

/-- The last character of a unit. -/
def WUnit.last (u : WUnit) : Char := u.2.getLast?.getD u.1

theorem WUnit.getLast?_eq (u : WUnit) (x : List Char) : (x ++ u.1 :: u.2).getLast? = some (WUnit.last u) := by
  rw [List.getLast?_append, List.getLast?_cons]; rfl

/-- The unit `u` belongs to the unit before, the nearest of `left`. -/
def Link (ph : Bool) (cl : Char → WSet) : List WUnit → WUnit → List WUnit → Prop
  | [], _, _ => False
  | v :: l, u, r =>
    (cl (WUnit.last v) .ZWJ = true ∧ cl u.1 .ExtendedPictographic = true)
    ∨ (v.2 = [] ∧ cl v.1 .WSegSpace = true ∧ cl u.1 .WSegSpace = true)
    ∨ unitJoins ph ((v.1 :: l.map Prod.fst).map cl) (cl u.1) ((r.head?.map Prod.fst).map cl) = true

/-- All of `right` belong to what is before them. -/
def Rest (ph : Bool) (cl : Char → WSet) (left right : List WUnit) : Prop :=
  ∀ a u r, right = a ++ u :: r → Link ph cl (a.reverse ++ left) u r

/-- Units as they come out of a text without newlines; `r` are not at its start. -/
structure Fit (cl : Char → WSet) (r : List WUnit) : Prop where
  marks : ∀ u ∈ r, Marks cl u.2
  newline : ∀ c ∈ flat r, (cl c).newline = false

theorem Fit.tail {u : WUnit} {r : List WUnit} (h : Fit cl (u :: r)) : Fit cl r :=
  ⟨fun v hv => h.marks v (by simp [hv]), fun c hc => h.newline c (by simp [hc])⟩

theorem Fit.head {u : WUnit} {r : List WUnit} (h : Fit cl (u :: r)) : Marks cl u.2 ∧ (cl u.1).newline = false :=
  ⟨h.marks u (by simp), h.newline u.1 (by simp)⟩

theorem Rest.head {left : List WUnit} {u : WUnit} {r : List WUnit} (h : Rest ph cl left (u :: r)) : Link ph cl left u r :=
  h [] u r rfl

theorem Rest.tail {left : List WUnit} {u : WUnit} {r : List WUnit} (h : Rest ph cl left (u :: r)) : Rest ph cl (u :: left) r := by
  intro a w r' hr
  have := h (u :: a) w r' (by rw [hr]; rfl)
  simpa using this

theorem Rest.nil {left : List WUnit} : Rest ph cl left [] := by
  intro a u r h
  simp at h

theorem Rest.cons {left : List WUnit} {u : WUnit} {r : List WUnit} (h1 : Link ph cl left u r) (h2 : Rest ph cl (u :: left) r) :
    Rest ph cl left (u :: r) := by
  rintro (_ | ⟨b, a⟩) w r' h
  · simp only [List.nil_append, List.cons.injEq] at h
    obtain ⟨rfl, rfl⟩ := h
    exact h1
  · simp only [List.cons_append, List.cons.injEq] at h
    obtain ⟨rfl, rfl⟩ := h
    have := h2 a w r' rfl
    simpa using this

/-! ## A text that is one word has the form -/

/-- Letters, digits and what else is in runs. -/
def IsRunChar (ph : Bool) (cl : Char → WSet) (c : Char) : Prop :=
  IsAlnum ph cl c ∨ cl c .Katakana = true ∨ cl c .ExtendNumLet = true

/-- Punctuation within words. -/
def IsMidChar (cl : Char → WSet) (c : Char) : Prop :=
  cl c .MidLetter = true ∨ cl c .MidNum = true ∨ cl c .MidNumLet = true ∨ cl c .SingleQuote = true ∨ cl c .DoubleQuote = true

theorem Spec.IsPair.chars {c d : Char} (h : IsPair ph cl c d) : IsRunChar ph cl c ∧ IsRunChar ph cl d := by
  unfold IsPair IsSolid at h
  unfold IsRunChar IsAlnum at *
  grind

theorem Spec.IsMid.chars {c q d : Char} (h : IsMid ph cl c q d) : IsRunChar ph cl c ∧ IsMidChar cl q ∧ IsRunChar ph cl d := by
  unfold IsMid at h
  unfold IsRunChar IsMidChar IsAlnum
  unfold IsLetter at *
  grind

variable (hx : ∀ c, Exclusive (cl c))
include hx

theorem run_not_mid {c : Char} (h : IsRunChar ph cl c) : ¬ IsMidChar cl c := by
  have := hx c
  intro hm
  have h1 := this.excl
  have h2 := this.pict
  unfold IsRunChar IsAlnum IsLetter at h
  unfold IsMidChar at hm
  grind

theorem run_not_ri {c : Char} (h : IsRunChar ph cl c) : ¬ cl c .RegionalIndicator = true := by
  have := hx c
  intro hm
  have h1 := this.excl
  have h2 := this.pict
  unfold IsRunChar IsAlnum IsLetter at h
  grind

omit hx in
/-- How pieces begin: at the start of the text, or with a pictograph after a ZWJ. -/
def Pre (ph : Bool) (cl : Char → WSet) (g s : List Char) : Prop :=
  g = [] ∨ ∃ z p t, g.getLast? = some z ∧ cl z .ZWJ = true ∧ WordPieces ph cl g ∧ s = p :: t ∧ cl p .ExtendedPictographic = true

omit hx in
theorem Pre.piece {g s : List Char} (h : Pre ph cl g s) (hs : WordPiece ph cl s) : WordPieces ph cl (g ++ s) := by
  rcases h with rfl | ⟨z, p, t, h1, h2, h3, rfl, h5⟩
  · exact .one hs
  · exact .more z p t h3 h1 h2 h5 hs

omit hx in
theorem Pre.append {g s : List Char} (h : Pre ph cl g s) (t : List Char) : Pre ph cl g (s ++ t) := by
  rcases h with h | ⟨z, p, t', h1, h2, h3, rfl, h5⟩
  · exact .inl h
  · exact .inr ⟨z, p, t' ++ t, h1, h2, h3, rfl, h5⟩

omit hx in
theorem odd_ri {v : WUnit} {l : List WUnit} (h : ¬ cl v.1 .RegionalIndicator = true) :
    ¬ (((v.1 :: l.map Prod.fst).map cl).takeWhile (· .RegionalIndicator)).length % 2 = 1 := by
  simp [h]

omit hx in
/-- After punctuation at the start of a text or a character of another kind nothing is joined but a pictograph. -/
theorem link_other {v u : WUnit} {l r : List WUnit} (h : Link ph cl (v :: l) u r) (h1 : ¬ IsRunChar ph cl v.1)
    (h2 : ¬ (v.2 = [] ∧ cl v.1 .WSegSpace = true ∧ cl u.1 .WSegSpace = true))
    (h4 : ∀ e, l.head? = some e → ¬ IsMid ph cl e.1 v.1 u.1)
    (h5 : ¬ ((((v.1 :: l.map Prod.fst).map cl).takeWhile (· .RegionalIndicator)).length % 2 = 1
      ∧ cl u.1 .RegionalIndicator = true)) :
    cl (WUnit.last v) .ZWJ = true ∧ cl u.1 .ExtendedPictographic = true := by
  rcases h with h | h | h
  · exact h
  · exact absurd h h2
  · rw [unitJoins_iff] at h
    rcases h with h | ⟨e, -, h⟩ | ⟨e, he, h⟩ | h | h
    · exact absurd h.chars.1 h1
    · exact absurd h.chars.1 h1
    · rw [List.head?_map, Option.map_eq_some_iff] at he
      obtain ⟨e, he, rfl⟩ := he
      exact absurd h (h4 e he)
    · exact absurd (.inl (.inl (.inr (.inl h.1)))) h1
    · exact absurd h h5

/-- The claim, for a rest of `n` units, after a run, after another piece, and after blanks, and at the start of a piece. -/
structure Goals (ph : Bool) (cl : Char → WSet) (n : Nat) : Prop where
  run : ∀ right, right.length = n → Fit cl right → ∀ (v : WUnit) l g s, flat (v :: l).reverse = g ++ s → Pre ph cl g s →
    WordRun ph cl v.1 s → IsRunChar ph cl v.1 → Rest ph cl (v :: l) right → WordPieces ph cl (g ++ s ++ flat right)
  other : ∀ right, right.length = n → Fit cl right → ∀ (v : WUnit) l g s, flat (v :: l).reverse = g ++ s → Pre ph cl g s →
    WordPiece ph cl s → (∀ u r, right = u :: r → cl (WUnit.last v) .ZWJ = true ∧ cl u.1 .ExtendedPictographic = true) →
    Rest ph cl (v :: l) right → WordPieces ph cl (g ++ s ++ flat right)
  blanks : ∀ right, right.length = n → Fit cl right → ∀ (v : WUnit) l g b, flat (v :: l).reverse = g ++ (b ++ v.1 :: v.2) →
    Pre ph cl g (b ++ v.1 :: v.2) → (∀ c ∈ b, cl c .WSegSpace = true) → cl v.1 .WSegSpace = true → Marks cl v.2 →
    ¬ IsRunChar ph cl v.1 → Rest ph cl (v :: l) right → WordPieces ph cl (g ++ (b ++ v.1 :: v.2) ++ flat right)
  start : ∀ right, right.length = n → Fit cl right → ∀ (v : WUnit) l g, flat l.reverse = g → Pre ph cl g (v.1 :: v.2) →
    (l = [] ∨ cl v.1 .ExtendedPictographic = true) → Marks cl v.2 → (cl v.1).newline = false →
    Rest ph cl (v :: l) right → WordPieces ph cl (g ++ v.1 :: v.2 ++ flat right)

theorem goals (n : Nat) : Goals ph cl n := by
  induction n using Nat.strongRecOn with
  | _ n ih =>
  have glue : ∀ u right, (u :: right).length = n → Fit cl (u :: right) → ∀ (v : WUnit) l g s, flat (v :: l).reverse = g ++ s →
      Pre ph cl g s → WordPiece ph cl s → cl (WUnit.last v) .ZWJ = true → cl u.1 .ExtendedPictographic = true →
      Rest ph cl (v :: l) (u :: right) → WordPieces ph cl (g ++ s ++ flat (u :: right)) := by
    intro u right hn hf v l g s hfl hpre hs hz hp hr
    have := (ih right.length (by simp at hn; omega)).start right rfl hf.tail u (v :: l) (g ++ s) hfl
      (.inr ⟨_, u.1, u.2, by
        rw [← hfl]; simp only [List.reverse_cons, flat_append, flat_cons, flat_nil, List.append_nil]
        exact WUnit.getLast?_eq v _, hz, hpre.piece hs, rfl, hp⟩) (.inr hp) hf.head.1 hf.head.2 hr.tail
    simpa using this
  have other : ∀ right, right.length = n → Fit cl right → ∀ (v : WUnit) l g s, flat (v :: l).reverse = g ++ s → Pre ph cl g s →
      WordPiece ph cl s → (∀ u r, right = u :: r → cl (WUnit.last v) .ZWJ = true ∧ cl u.1 .ExtendedPictographic = true) →
      Rest ph cl (v :: l) right → WordPieces ph cl (g ++ s ++ flat right) := by
    intro right hn hf v l g s hfl hpre hs ho hr
    cases right with
    | nil => simpa using hpre.piece hs
    | cons u right => exact glue u right hn hf v l g s hfl hpre hs (ho u right rfl).1 (ho u right rfl).2 hr
  have blanks : ∀ right, right.length = n → Fit cl right → ∀ (v : WUnit) l g b, flat (v :: l).reverse = g ++ (b ++ v.1 :: v.2) →
      Pre ph cl g (b ++ v.1 :: v.2) → (∀ c ∈ b, cl c .WSegSpace = true) → cl v.1 .WSegSpace = true → Marks cl v.2 →
      ¬ IsRunChar ph cl v.1 → Rest ph cl (v :: l) right → WordPieces ph cl (g ++ (b ++ v.1 :: v.2) ++ flat right) := by
    intro right hn hf v l g b hfl hpre hb hv hm hnr hr
    have hpiece : WordPiece ph cl (b ++ v.1 :: v.2) := by
      have := WordPiece.blanks (ph := ph) (cl := cl) (b ++ [v.1]) v.2 (by simp) (by
        intro c hc
        rcases List.mem_append.mp hc with hc | hc
        · exact hb c hc
        · rw [List.mem_singleton.mp hc]; exact hv) hm
      simpa using this
    by_cases hsp : ∃ u r, right = u :: r ∧ v.2 = [] ∧ cl u.1 .WSegSpace = true
    · obtain ⟨u, r, rfl, hv2, hu⟩ := hsp
      have := (ih r.length (by simp at hn; omega)).blanks r rfl hf.tail u (v :: l) g (b ++ [v.1])
        (by rw [List.reverse_cons, flat_append, hfl]; simp [hv2]) (by
          have := hpre.append (u.1 :: u.2)
          simpa [hv2] using this) (by
        intro c hc
        rcases List.mem_append.mp hc with hc | hc
        · exact hb c hc
        · rw [List.mem_singleton.mp hc]; exact hv) hu hf.head.1 (by
          intro h
          apply hnr
          have h1 := (hx u.1).excl
          have h2 := (hx u.1).pict
          unfold IsRunChar IsAlnum IsLetter at *
          grind) hr.tail
      simpa [hv2] using this
    · refine other right hn hf v l g _ hfl hpre hpiece ?_ hr
      rintro u r rfl
      refine link_other hr.head hnr (fun h => hsp ⟨u, r, rfl, h.1, h.2.2⟩) ?_ ?_
      · intro e _ h
        have h3 := h.chars.2.1
        have h1 := (hx v.1).excl
        unfold IsMidChar at h3
        grind
      · intro h
        refine absurd h.1 (odd_ri ?_)
        intro h3
        have h1 := (hx v.1).excl
        grind
  have run : ∀ right, right.length = n → Fit cl right → ∀ (v : WUnit) l g s, flat (v :: l).reverse = g ++ s → Pre ph cl g s →
      WordRun ph cl v.1 s → IsRunChar ph cl v.1 → Rest ph cl (v :: l) right → WordPieces ph cl (g ++ s ++ flat right) := by
    intro right hn hf v l g s hfl hpre hs hv hr
    cases right with
    | nil => simpa using hpre.piece (.run hs)
    | cons u right =>
      have pair : IsPair ph cl v.1 u.1 → WordPieces ph cl (g ++ s ++ flat (u :: right)) := by
        intro h
        have := (ih right.length (by simp at hn; omega)).run right rfl hf.tail u (v :: l) g (s ++ u.1 :: u.2)
          (by rw [List.reverse_cons, flat_append, hfl]; simp) (hpre.append _) (.next u.1 u.2 hs h hf.head.1) h.chars.2 hr.tail
        simpa using this
      have mid : ∀ e r, right = e :: r → IsMid ph cl v.1 u.1 e.1 → WordPieces ph cl (g ++ s ++ flat (u :: right)) := by
        rintro e r rfl h
        have := (ih r.length (by simp at hn; omega)).run r rfl hf.tail.tail e (u :: v :: l) g (s ++ u.1 :: u.2 ++ e.1 :: e.2)
          (by rw [List.reverse_cons, List.reverse_cons, flat_append, flat_append, hfl]; simp)
          (by rw [List.append_assoc]; exact hpre.append _)
          (.mid u.1 u.2 e.1 e.2 hs h hf.head.1 hf.tail.head.1) h.chars.2.2 hr.tail.tail
        simpa using this
      rcases hr.head with h | h | h
      · exact glue u right hn hf v l g s hfl hpre (.run hs) h.1 h.2 hr
      · refine pair (.inl ?_)
        have hp : ph = true := by
          have h1 := (hx v.1).excl
          have h2 := (hx v.1).pict
          unfold IsRunChar IsAlnum IsLetter at hv
          grind
        exact ⟨.inr (.inr ⟨hp, h.2.1⟩), .inr (.inr ⟨hp, h.2.2⟩)⟩
      · rw [unitJoins_iff] at h
        rcases h with h | ⟨e, he, h⟩ | ⟨e, -, h⟩ | h | h
        · exact pair h
        · cases right with
          | nil => simp at he
          | cons e' r =>
            simp only [List.head?_cons, Option.map_some, Option.some.injEq] at he
            exact mid e' r rfl (by rw [he]; exact h)
        · exact absurd h.chars.2.1 (run_not_mid hx hv)
        · by_cases hl : ∃ e r, right = e :: r ∧ IsLetter ph cl e.1
          · obtain ⟨e, r, rfl, hl⟩ := hl
            exact mid e r rfl (.inl ⟨.inr (.inl h.1), .inr (.inr h.2), hl⟩)
          · have := (ih right.length (by simp at hn; omega)).other right rfl hf.tail u (v :: l) g (s ++ u.1 :: u.2)
              (by rw [List.reverse_cons, flat_append, hfl]; simp) (hpre.append _) (.quote u.1 u.2 hs h.1 h.2 hf.head.1) ?_ hr.tail
            · simpa using this
            · rintro e r rfl
              have hu : IsMidChar cl u.1 := by simp [IsMidChar, h.2]
              have h1 := (hx u.1).excl
              have h2 := (hx v.1).excl
              refine link_other hr.tail.head (fun h' => run_not_mid hx h' hu) ?_ ?_ ?_
              · grind
              · simp only [List.head?_cons, Option.some.injEq]
                rintro _ rfl h3
                rcases h3 with h3 | h3 | h3
                · exact hl ⟨_, r, rfl, h3.2.2⟩
                · rcases h2 _ _ h.1 h3.1 with h | h | h | ⟨h, -⟩ <;> cases h
                · exact hl ⟨_, r, rfl, .inr (.inl h3.2.2)⟩
              · intro h3
                refine absurd h3.1 (odd_ri ?_)
                grind
        · exact absurd h.1 (odd_ri (run_not_ri hx hv))
  refine ⟨run, other, blanks, ?_⟩
  intro right hn hf v l g hfl hpre hl hm hnl hr
  have hfl' : flat (v :: l).reverse = g ++ v.1 :: v.2 := by rw [List.reverse_cons, flat_append, hfl]; simp
  by_cases hrun : IsRunChar ph cl v.1
  · exact run right hn hf v l g _ hfl' hpre (.one v.1 v.2 hrun hm) hrun hr
  by_cases hsp : cl v.1 .WSegSpace = true
  · exact blanks right hn hf v l g [] hfl' hpre (by simp) hsp hm hrun hr
  have hoth : WordPiece ph cl (v.1 :: v.2) := by
    refine .other v.1 v.2 ?_ hm
    simp only [WSet.newline, Bool.or_eq_false_iff] at hnl
    exact ⟨hnl.1.2, hnl.2, hnl.1.1⟩
  have h1 := (hx v.1).excl
  have h2 := (hx v.1).pict
  have hmid : ∀ (u e : WUnit), l.head? = some e → ¬ IsMid ph cl e.1 v.1 u.1 := by
    intro u e he h
    have h3 := h.chars.2.1
    rcases hl with rfl | hl
    · simp at he
    · unfold IsMidChar at h3
      grind
  by_cases hri : ∃ u r, right = u :: r ∧ cl v.1 .RegionalIndicator = true ∧ cl u.1 .RegionalIndicator = true
  · obtain ⟨u, r, rfl, ha, hb⟩ := hri
    have : l = [] := by
      rcases hl with hl | hl
      · exact hl
      · rcases h2 hl _ ha with h | h <;> cases h
    subst this
    have := (ih r.length (by simp at hn; omega)).other r rfl hf.tail u [v] g (v.1 :: v.2 ++ u.1 :: u.2)
      (by rw [List.reverse_cons, flat_append, hfl']; simp) (hpre.append _) (.flag v.1 u.1 v.2 u.2 ha hb hm hf.head.1) ?_ hr.tail
    · simpa using this
    · rintro e r rfl
      have k1 := (hx u.1).excl
      have k2 := (hx u.1).pict
      refine link_other hr.tail.head (fun h => run_not_ri hx h hb) ?_ ?_ ?_
      · grind
      · intro e' _ h
        have h3 := h.chars.2.1
        unfold IsMidChar at h3
        grind
      · simp [ha, hb]
  · refine other right hn hf v l g _ hfl' hpre hoth ?_ hr
    rintro u r rfl
    refine link_other hr.head hrun (fun h => hsp h.2.1) (hmid u) ?_
    intro h
    by_cases hv : cl v.1 .RegionalIndicator = true
    · exact hri ⟨u, r, rfl, hv, h.2⟩
    · exact odd_ri hv h.1

/-! ## A text of the form is one word -/

omit hx in
theorem Link.right {left : List WUnit} {u : WUnit} {r : List WUnit} (h : Link ph cl left u r) (w : List WUnit) :
    Link ph cl left u (r ++ w) := by
  cases left with
  | nil => exact h
  | cons v l =>
    rcases h with h | h | h
    · exact .inl h
    · exact .inr (.inl h)
    · refine .inr (.inr ?_)
      rw [unitJoins_iff] at h ⊢
      rcases h with h | ⟨e, h, h'⟩ | h
      · exact .inl h
      · refine .inr (.inl ⟨e, ?_, h'⟩)
        cases r with
        | nil => simp at h
        | cons => exact h
      · exact .inr (.inr h)

omit hx in
theorem takeWhile_stop {α : Type} {P : α → Bool} {x : α} (hx : P x = false) : ∀ (a l : List α),
    (a ++ x :: l).takeWhile P = (a ++ [x]).takeWhile P
  | [], l => by simp [hx]
  | b :: a, l => by
    simp only [List.cons_append, List.takeWhile_cons]
    rw [takeWhile_stop hx a l]

omit hx in
/-- What is before a character that is no regional indicator does not disturb. -/
theorem Link.left {a : List WUnit} {p u : WUnit} {r : List WUnit} (h : Link ph cl (a ++ [p]) u r)
    (hp : cl p.1 .RegionalIndicator = false) (l : List WUnit) : Link ph cl (a ++ p :: l) u r := by
  have key : ∀ (v : WUnit) (b k : List WUnit), (∀ e, b.head? = some e → k.head? = some e) →
      (((v.1 :: k.map Prod.fst).map cl).takeWhile (· .RegionalIndicator)).length
        = (((v.1 :: b.map Prod.fst).map cl).takeWhile (· .RegionalIndicator)).length →
      Link ph cl (v :: b) u r → Link ph cl (v :: k) u r := by
    intro v b k hb ht h
    rcases h with h | h | h
    · exact .inl h
    · exact .inr (.inl h)
    · refine .inr (.inr ?_)
      rw [unitJoins_iff] at h ⊢
      rcases h with h | h | ⟨e, h, h'⟩ | h | h
      · exact .inl h
      · exact .inr (.inl h)
      · refine .inr (.inr (.inl ⟨e, ?_, h'⟩))
        rw [List.head?_map, Option.map_eq_some_iff] at h ⊢
        obtain ⟨e', h, rfl⟩ := h
        exact ⟨e', hb e' h, rfl⟩
      · exact .inr (.inr (.inr (.inl h)))
      · rw [← ht] at h
        exact .inr (.inr (.inr (.inr h)))
  cases a with
  | nil =>
    refine key p [] l (by simp) ?_ h
    simp [hp]
  | cons v a =>
    refine key v (a ++ [p]) (a ++ p :: l) ?_ ?_ h
    · cases a with
      | nil => simp
      | cons => simp
    · have := takeWhile_stop (P := fun w : WSet => w .RegionalIndicator) (x := cl p.1) hp ((v.1 :: a.map Prod.fst).map cl)
        ((l.map Prod.fst).map cl)
      simp only [List.map_append, List.map_cons, List.map_nil, List.cons_append] at this ⊢
      rw [this]

omit hx in
theorem Rest.append {left v w : List WUnit} (h1 : Rest ph cl left v) (h2 : Rest ph cl (v.reverse ++ left) w) :
    Rest ph cl left (v ++ w) := by
  induction v generalizing left with
  | nil => exact h2
  | cons u v ih => exact .cons (h1.head.right w) (ih h1.tail (by simpa using h2))

omit hx in
theorem Rest.left {p : WUnit} {r : List WUnit} (h : Rest ph cl [p] r) (hp : cl p.1 .RegionalIndicator = false) (l : List WUnit) :
    Rest ph cl (p :: l) r := fun a u r' hr => (h a u r' hr).left hp l

/-- Units that make up a text. -/
structure Made (ph : Bool) (cl : Char → WSet) (s : List Char) (u : WUnit) (r : List WUnit) : Prop where
  text : flat (u :: r) = s
  fit : Fit cl (u :: r)
  solid : ∀ v ∈ r, (cl v.1).ignorable = false
  rest : Rest ph cl [u] r

omit hx in
theorem Fit.append {a b : List WUnit} (h1 : Fit cl a) (h2 : Fit cl b) : Fit cl (a ++ b) := by
  refine ⟨fun u hu => ?_, fun c hc => ?_⟩
  · rcases List.mem_append.mp hu with hu | hu
    · exact h1.marks u hu
    · exact h2.marks u hu
  · rw [flat_append] at hc
    rcases List.mem_append.mp hc with hc | hc
    · exact h1.newline c hc
    · exact h2.newline c hc

theorem fit_one {c : Char} {m : List Char} (hc : (cl c).newline = false) (hm : Marks cl m) : Fit cl [(c, m)] := by
  refine ⟨fun u hu => ?_, fun d hd => ?_⟩
  · rw [List.mem_singleton.mp hu]; exact hm
  · simp only [flat_cons, flat_nil, List.append_nil, List.mem_cons] at hd
    rcases hd with rfl | hd
    · exact hc
    · have h1 := (hx d).excl
      have h2 := hm d hd
      simp only [WSet.newline, Bool.or_eq_false_iff]
      grind

theorem made_one {c : Char} {m : List Char} (hc : (cl c).newline = false) (hm : Marks cl m) :
    Made ph cl (c :: m) (c, m) [] :=
  ⟨by simp, fit_one hx hc hm, by simp, .nil⟩

omit hx in
/-- Units at the end. -/
theorem Made.extend {s : List Char} {u : WUnit} {r w : List WUnit} (h : Made ph cl s u r) (hw : Fit cl w)
    (hs : ∀ v ∈ w, (cl v.1).ignorable = false) (hr : Rest ph cl (r.reverse ++ [u]) w) :
    Made ph cl (s ++ flat w) u (r ++ w) :=
  ⟨by rw [← h.text]; simp, h.fit.append hw, fun v hv => by
    rcases List.mem_append.mp hv with hv | hv
    · exact h.solid v hv
    · exact hs v hv, h.rest.append hr⟩

theorem run_facts {c : Char} (h : IsRunChar ph cl c ∨ IsMidChar cl c ∨ cl c .RegionalIndicator = true
    ∨ cl c .ExtendedPictographic = true ∨ cl c .WSegSpace = true) :
    (cl c).newline = false ∧ (cl c).ignorable = false := by
  have h1 := (hx c).excl
  have h2 := (hx c).pict
  simp only [WSet.newline, WSet.ignorable, Bool.or_eq_false_iff]
  unfold IsRunChar IsAlnum IsLetter IsMidChar at h
  grind

theorem Spec.WordRun.made {c : Char} {s : List Char} (h : WordRun ph cl c s) :
    IsRunChar ph cl c ∧ ∃ u r v l, Made ph cl s u r ∧ r.reverse ++ [u] = v :: l ∧ v.1 = c := by
  induction h with
  | one c m hc hm => exact ⟨hc, (c, m), [], (c, m), [], made_one hx (run_facts hx (.inl hc)).1 hm, rfl, rfl⟩
  | next d m hs hd hm ih =>
    obtain ⟨-, u, r, v, l, h1, h2, rfl⟩ := ih
    have hf := run_facts hx (.inl hd.chars.2)
    refine ⟨hd.chars.2, u, r ++ [(d, m)], (d, m), r.reverse ++ [u], ?_, by simp, rfl⟩
    have := h1.extend (fit_one hx hf.1 hm) (by simp [hf.2]) (by
      rw [h2]
      exact .cons (.inr (.inr (unitJoins_iff.mpr (.inl hd)))) .nil)
    simpa using this
  | mid q m d m' hs hq hm hm' ih =>
    obtain ⟨-, u, r, v, l, h1, h2, rfl⟩ := ih
    have hf := run_facts hx (.inl hq.chars.2.2)
    have hf' := run_facts (ph := ph) hx (.inr (.inl hq.chars.2.1))
    refine ⟨hq.chars.2.2, u, r ++ [(q, m), (d, m')], (d, m'), (q, m) :: (r.reverse ++ [u]), ?_, by simp, rfl⟩
    have := h1.extend ((fit_one hx hf'.1 hm).append (fit_one hx hf.1 hm')) (by simp [hf.2, hf'.2]) (by
      rw [h2]
      refine .cons (.inr (.inr (unitJoins_iff.mpr (.inr (.inl ⟨d, rfl, hq⟩))))) (.cons (.inr (.inr (unitJoins_iff.mpr
        (.inr (.inr (.inl ⟨v.1, rfl, hq⟩)))))) .nil))
    simpa using this

theorem made_blanks (c : Char) (m : List Char) (hc : cl c .WSegSpace = true) (hm : Marks cl m) :
    ∀ b : List Char, (∀ d ∈ b, cl d .WSegSpace = true) →
    ∃ u r, Made ph cl (b ++ c :: m) u r ∧ cl u.1 .WSegSpace = true
  | [], _ => ⟨(c, m), [], made_one hx (run_facts (ph := ph) hx (by simp [hc])).1 hm, hc⟩
  | d :: b, hb => by
    obtain ⟨u, r, h1, h2⟩ := made_blanks c m hc hm b fun e he => hb e (by simp [he])
    have hd := hb d (by simp)
    have hu := (run_facts (ph := ph) (c := u.1) hx (by simp [h2])).2
    refine ⟨(d, []), u :: r, ⟨?_, ?_, ?_, ?_⟩, hd⟩
    · rw [flat_cons, h1.text]; rfl
    · exact (fit_one (c := d) (m := []) hx (run_facts (ph := ph) hx (by simp [hd])).1 (by simp [Marks])).append h1.fit
    · intro v hv
      rcases List.mem_cons.mp hv with rfl | hv
      · exact hu
      · exact h1.solid v hv
    · refine .cons (.inr (.inl ⟨rfl, hd, h2⟩)) (h1.rest.left ?_ _)
      have := (hx u.1).excl
      grind

omit hx in
theorem Made.head {s : List Char} {c : Char} {t : List Char} {u : WUnit} {r : List WUnit} (h : Made ph cl s u r) (hs : s = c :: t) :
    u.1 = c := by
  have := h.text
  rw [hs, flat_cons] at this
  exact (List.cons.inj this).1

omit hx in
theorem Made.last {s : List Char} {u : WUnit} {r : List WUnit} (h : Made ph cl s u r) :
    ∃ v l, r.reverse ++ [u] = v :: l ∧ s.getLast? = some (WUnit.last v) := by
  obtain ⟨v, l, hv⟩ : ∃ v l, r.reverse ++ [u] = v :: l := by
    cases h : r.reverse ++ [u] with
    | nil => simp at h
    | cons v l => exact ⟨v, l, rfl⟩
  refine ⟨v, l, hv, ?_⟩
  have : u :: r = l.reverse ++ [v] := by
    have := congrArg List.reverse hv
    simpa using this
  rw [← h.text, this, flat_append]
  simpa using WUnit.getLast?_eq v []

theorem Spec.WordPiece.made {s : List Char} (h : WordPiece ph cl s) : ∃ u r, Made ph cl s u r := by
  cases h with
  | run hs =>
    obtain ⟨-, u, r, v, l, h, -⟩ := hs.made hx
    exact ⟨u, r, h⟩
  | quote q m hs hc hq hm =>
    obtain ⟨-, u, r, v, l, h1, h2, rfl⟩ := hs.made hx
    have hf := run_facts (ph := ph) (c := q) hx (.inr (.inl (by simp [IsMidChar, hq])))
    refine ⟨u, r ++ [(q, m)], ?_⟩
    have := h1.extend (fit_one hx hf.1 hm) (by simp [hf.2]) (by
      rw [h2]
      exact .cons (.inr (.inr (unitJoins_iff.mpr (.inr (.inr (.inr (.inl ⟨hc, hq⟩))))))) .nil)
    simpa using this
  | blanks b m hne hb hm =>
    have hl := List.dropLast_concat_getLast hne
    obtain ⟨u, r, h, -⟩ := made_blanks (ph := ph) hx (b.getLast hne) m (hb _ (List.getLast_mem hne)) hm b.dropLast
      fun d hd => hb d ((List.dropLast_sublist b).subset hd)
    refine ⟨u, r, ?_⟩
    rw [← hl]
    simpa using h
  | flag a b m m' ha hb hm hm' =>
    have hf := run_facts (ph := ph) (c := b) hx (by simp [hb])
    refine ⟨(a, m), [(b, m')], ?_⟩
    have := (made_one (ph := ph) (c := a) (m := m) hx (run_facts (ph := ph) hx (by simp [ha])).1 hm).extend
      (fit_one hx hf.1 hm') (by simp [hf.2]) (by
        refine .cons (.inr (.inr (unitJoins_iff.mpr (.inr (.inr (.inr (.inr ⟨?_, hb⟩))))))) .nil
        simp [ha])
    simpa using this
  | other c m hc hm => exact ⟨(c, m), [], made_one hx (by simp [WSet.newline, hc]) hm⟩

theorem Spec.WordPieces.made {s : List Char} (h : WordPieces ph cl s) : ∃ u r, Made ph cl s u r := by
  induction h with
  | one hs => exact hs.made hx
  | more z p t hs hl hz hp ht ih =>
    obtain ⟨u, r, h⟩ := ih
    obtain ⟨v, w, h'⟩ := ht.made hx
    have hv := h'.head rfl
    obtain ⟨x, l, h1, h2⟩ := h.last
    have hf := run_facts (ph := ph) (c := p) hx (by simp [hp])
    refine ⟨u, r ++ v :: w, ?_⟩
    have := h.extend h'.fit (by
      intro y hy
      rcases List.mem_cons.mp hy with rfl | hy
      · rw [hv]; exact hf.2
      · exact h'.solid y hy) (by
      rw [h1]
      refine .cons (.inl ⟨?_, by rw [hv]; exact hp⟩) (h'.rest.left ?_ _)
      · rw [h2] at hl
        rw [Option.some.inj hl]; exact hz
      · have := (hx p).pict hp
        rw [hv]
        grind)
    rw [h'.text] at this
    exact this

/-! ## Between the units -/

omit hx in
theorem joins_iff {a b : WSet} {left right : List WSet} (ha : a.newline = false) (hb : b.newline = false) :
    joins ph (a :: left) (b :: right) = true ↔ (a .ZWJ = true ∧ b .ExtendedPictographic = true)
      ∨ (a .WSegSpace = true ∧ b .WSegSpace = true) ∨ b.ignorable = true
      ∨ unitJoins ph (units (a :: left)) b (right.dropWhile (·.ignorable)).head? = true := by
  have h1 : ¬ (a .CR && b .LF) = true := by
    simp only [WSet.newline, Bool.or_eq_false_iff] at ha
    simp [ha.1.2]
  rw [joins, if_neg h1, if_neg (by simp [ha, hb])]
  split
  · rename_i h; simp only [Bool.and_eq_true] at h; simp [h]
  rename_i h2
  split
  · rename_i h; simp only [Bool.and_eq_true] at h; simp [h]
  rename_i h3
  split
  · rename_i h; simp [h]
  rename_i h4
  simp only [Bool.and_eq_true] at h2 h3
  simp [h2, h3, h4]

omit hx in
theorem marks_ignorable {m : List Char} (h : Marks cl m) : ∀ d ∈ m, (cl d).ignorable = true := by
  intro d hd
  have := h d hd
  simp only [WSet.ignorable, Bool.or_eq_true, or_assoc]
  exact this

omit hx in
theorem units_flat : ∀ l : List WUnit, Fit cl l.reverse → (∀ v ∈ l.dropLast, (cl v.1).ignorable = false) →
    units (((flat l.reverse).map cl).reverse) = (l.map Prod.fst).map cl
  | [], _, _ => rfl
  | v :: l, h1, h2 => by
    have hm : ∀ x ∈ (v.2.map cl).reverse, x.ignorable = true ∧ x.newline = false := by
      intro x hx
      rw [List.mem_reverse] at hx
      obtain ⟨d, hd, rfl⟩ := List.mem_map.mp hx
      exact ⟨marks_ignorable (h1.marks v (by simp)) d hd, h1.newline d (by simp [hd])⟩
    have e : ((flat (v :: l).reverse).map cl).reverse = (v.2.map cl).reverse ++ cl v.1 :: ((flat l.reverse).map cl).reverse := by
      simp
    have hc := h1.newline v.1 (by simp)
    have := units_insert (left := ((flat l.reverse).map cl).reverse) hm hc []
    rw [List.nil_append, List.nil_append] at this
    rw [e, this]
    cases l with
    | nil => rfl
    | cons w l =>
      rw [units_cons_solid (h2 v (by simp)), units_flat (w :: l) ?_ ?_]
      · rfl
      · refine ⟨fun u hu => h1.marks u ?_, fun c hc => h1.newline c ?_⟩
        · simp at hu ⊢
          rcases hu with h | h
          · exact .inl h
          · exact .inr (.inl h)
        · rw [List.reverse_cons, flat_append]
          exact List.mem_append_left _ hc
      · intro u hu
        exact h2 u (by simp [hu])

omit hx in
theorem head_flat (m : List Char) (r : List WUnit) (hm : ∀ d ∈ m, (cl d).ignorable = true)
    (hr : ∀ v ∈ r, (cl v.1).ignorable = false) :
    (((m ++ flat r).map cl).dropWhile (·.ignorable)).head? = (r.head?.map Prod.fst).map cl := by
  induction m with
  | nil =>
    cases r with
    | nil => rfl
    | cons v r => simp [hr v (by simp)]
  | cons d m ih =>
    rw [List.cons_append, List.map_cons, List.dropWhile_cons, if_pos (hm d (by simp))]
    exact ih fun e he => hm e (by simp [he])

/-- The places between units. -/
theorem joins_link {l : List WUnit} {u : WUnit} {r : List WUnit} (hne : l ≠ []) (hf : Fit cl (l.reverse ++ u :: r))
    (hs : ∀ v ∈ l.dropLast, (cl v.1).ignorable = false) (hs' : ∀ v ∈ u :: r, (cl v.1).ignorable = false) :
    joins ph ((flat l.reverse).map cl).reverse ((flat (u :: r)).map cl) = true ↔ Link ph cl l u r := by
  obtain ⟨v, l, rfl⟩ := List.exists_cons_of_ne_nil hne
  have hl : ∃ x, flat (v :: l).reverse = x ++ [WUnit.last v] := by
    have h1 := WUnit.getLast?_eq v (flat l.reverse)
    have e : flat (v :: l).reverse = flat l.reverse ++ v.1 :: v.2 := by simp
    rw [e]
    obtain ⟨x, h⟩ := List.getLast?_eq_some_iff.mp h1
    exact ⟨x, h⟩
  obtain ⟨x, hxl⟩ := hl
  have hfl : Fit cl (v :: l).reverse := ⟨fun w hw => hf.marks w (by simp at hw ⊢; grind), fun c hc => hf.newline c (by
    rw [flat_append]; exact List.mem_append_left _ hc)⟩
  have hu := units_flat (v :: l) hfl hs
  have e : ((flat (v :: l).reverse).map cl).reverse = cl (WUnit.last v) :: (x.map cl).reverse := by rw [hxl]; simp
  rw [e] at hu
  have hn1 : (cl (WUnit.last v)).newline = false := hfl.newline _ (by rw [hxl]; simp)
  have hn2 : (cl u.1).newline = false := hf.newline u.1 (by simp)
  have hi : (cl u.1).ignorable = false := hs' u (by simp)
  have hmk := hf.marks u (by simp)
  rw [e, flat_cons, List.map_cons, joins_iff hn1 hn2, hu,
    head_flat u.2 r (marks_ignorable hmk) fun w hw => hs' w (by simp [hw])]
  simp only [hi, Bool.false_eq_true, false_or, Link, List.map_cons]
  constructor
  · rintro (h | h | h)
    · exact .inl h
    · refine .inr (.inl ?_)
      have hv : v.2 = [] := by
        rcases List.eq_nil_or_concat v.2 with hv | ⟨m, d, hv⟩
        · exact hv
        · rw [List.concat_eq_append] at hv
          have hd : WUnit.last v = d := by simp [WUnit.last, hv]
          have h1 := hf.marks v (by simp) d (by simp [hv])
          have h2 := (hx d).excl
          rw [hd] at h
          grind
      have : WUnit.last v = v.1 := by simp [WUnit.last, hv]
      rw [this] at h
      exact ⟨hv, h⟩
    · exact .inr (.inr h)
  · rintro (h | ⟨h1, h2⟩ | h)
    · exact .inl h
    · have : WUnit.last v = v.1 := by simp [WUnit.last, h1]
      rw [this]
      exact .inr (.inl h2)
    · exact .inr (.inr h)

omit hx in
/-- There is no boundary within the text. -/
def Undivided (ph : Bool) (cl : Char → WSet) (t : List Char) : Prop :=
  ∀ x y, t = x ++ y → x ≠ [] → y ≠ [] → joins ph (x.map cl).reverse (y.map cl) = true

omit hx in
theorem exists_units : ∀ t : List Char, ∃ m r, t = m ++ flat r ∧ Marks cl m
    ∧ ∀ v ∈ r, Marks cl v.2 ∧ (cl v.1).ignorable = false
  | [] => ⟨[], [], rfl, by simp [Marks], by simp⟩
  | c :: t => by
    obtain ⟨m, r, h1, h2, h3⟩ := exists_units t
    by_cases hc : (cl c).ignorable = true
    · refine ⟨c :: m, r, by rw [h1]; rfl, ?_, h3⟩
      intro d hd
      rcases List.mem_cons.mp hd with rfl | hd
      · simpa [WSet.ignorable, or_assoc] using hc
      · exact h2 d hd
    · refine ⟨[], (c, m) :: r, by rw [h1]; simp, by simp [Marks], ?_⟩
      intro v hv
      rcases List.mem_cons.mp hv with rfl | hv
      · exact ⟨h2, by simpa using hc⟩
      · exact h3 v hv

omit hx in
theorem flat_places : ∀ (us : List WUnit) (x y : List Char), flat us = x ++ y → y ≠ [] →
    (∃ l w r, us = l ++ w :: r ∧ x = flat l ∧ y = flat (w :: r)) ∨ ∃ d y', y = d :: y' ∧ ∃ u ∈ us, d ∈ u.2
  | [], x, y, h, hy => by
    have := List.append_eq_nil_iff.mp h.symm
    exact absurd this.2 hy
  | u :: us, x, y, h, hy => by
    cases x with
    | nil => exact .inl ⟨[], u, us, rfl, rfl, h.symm⟩
    | cons c x =>
      rw [flat_cons, List.cons_append] at h
      obtain ⟨rfl, h'⟩ := List.cons.inj h
      rcases List.append_eq_append_iff.mp h' with ⟨z, h1, h2⟩ | ⟨z, h1, h2⟩
      · rcases flat_places us z y h2 hy with ⟨l, w, r, rfl, rfl, k⟩ | ⟨d, y', k1, v, k2, k3⟩
        · exact .inl ⟨u :: l, w, r, rfl, by rw [h1]; simp, k⟩
        · exact .inr ⟨d, y', k1, v, by simp [k2], k3⟩
      · cases z with
        | nil =>
          rcases flat_places us [] y (by simpa using h2.symm) hy with ⟨l, w, r, rfl, hl, k⟩ | ⟨d, y', k1, v, k2, k3⟩
          · refine .inl ⟨u :: l, w, r, rfl, ?_, k⟩
            rw [flat_cons, ← hl, h1]; simp
          · exact .inr ⟨d, y', k1, v, by simp [k2], k3⟩
        | cons d z => exact .inr ⟨d, z ++ flat us, by rw [h2]; rfl, u, by simp, by rw [h1]; simp⟩

theorem undivided_made {t : List Char} (hne : t ≠ []) (hn : ∀ c ∈ t, (cl c).newline = false) :
    Undivided ph cl t ↔ ∃ u r, Made ph cl t u r := by
  constructor
  · intro h
    obtain ⟨c, t, rfl⟩ := List.exists_cons_of_ne_nil hne
    obtain ⟨m, r, rfl, h2, h3⟩ := exists_units (cl := cl) t
    have ht : flat ((c, m) :: r) = c :: (m ++ flat r) := flat_cons _ _
    have hf : Fit cl ((c, m) :: r) := by
      refine ⟨fun u hu => ?_, fun d hd => hn d (by rw [← ht]; exact hd)⟩
      rcases List.mem_cons.mp hu with rfl | hu
      · exact h2
      · exact (h3 u hu).1
    refine ⟨(c, m), r, ht, hf, fun v hv => (h3 v hv).2, ?_⟩
    rintro a w r' rfl
    refine (joins_link (l := a.reverse ++ [(c, m)]) hx (by simp) ?_ ?_ ?_).mp (h _ _ ?_ ?_ (by simp))
    · simpa using hf
    · intro v hv
      rw [List.dropLast_concat, List.mem_reverse] at hv
      exact (h3 v (by simp [hv])).2
    · intro v hv
      exact (h3 v (by
        rcases List.mem_cons.mp hv with rfl | hv
        · simp
        · simp [hv])).2
    · rw [← ht]; simp
    · simp
  · rintro ⟨u, r, h⟩ x y hxy hx0 hy0
    rcases flat_places (u :: r) x y (by rw [h.text, hxy]) hy0 with ⟨l, w, r', h1, rfl, rfl⟩ | ⟨d, y', rfl, v, hv, hd⟩
    · cases l with
      | nil => exact absurd rfl hx0
      | cons u' l =>
        simp only [List.cons_append, List.cons.injEq] at h1
        obtain ⟨rfl, rfl⟩ := h1
        have := (joins_link (ph := ph) (l := l.reverse ++ [u]) (u := w) (r := r') hx (by simp) (by simpa using h.fit) (by
          intro v hv
          rw [List.dropLast_concat, List.mem_reverse] at hv
          exact h.solid v (by simp [hv])) (by
          intro v hv
          exact h.solid v (by
            rcases List.mem_cons.mp hv with rfl | hv
            · simp
            · simp [hv]))).mpr (h.rest l w r' rfl)
        simpa using this
    · have hl := List.dropLast_concat_getLast hx0
      rw [← hl, List.map_append, List.reverse_append]
      simp only [List.map_cons, List.map_nil, List.reverse_cons, List.reverse_nil, List.nil_append, List.cons_append]
      rw [joins_iff (hn _ (by rw [hxy]; exact List.mem_append_left _ (List.getLast_mem hx0))) (hn d (by rw [hxy]; simp))]
      exact .inr (.inr (.inl (marks_ignorable (h.fit.marks v hv) d hd)))

/-- A text without boundaries within it has the form of a word, and no other text. -/
theorem undivided_iff {t : List Char} (hne : t ≠ []) : Undivided ph cl t ↔ WordForm ph cl t := by
  by_cases hn : ∀ c ∈ t, (cl c).newline = false
  · rw [undivided_made hx hne hn]
    constructor
    · rintro ⟨u, r, h⟩
      have := (goals (ph := ph) hx r.length).start r rfl h.fit.tail u [] [] rfl (.inl rfl) (.inl rfl) h.fit.head.1 h.fit.head.2
        h.rest
      rw [← h.text]
      refine .pieces ?_
      simpa using this
    · intro h
      cases h with
      | crlf c d hc hd =>
        have := hn c (by simp)
        simp [WSet.newline, hc] at this
      | newline c h =>
        have := hn c (by simp)
        rcases h with h | h | h <;> simp [WSet.newline, h] at this
      | pieces h => exact h.made hx
  · constructor
    · intro h
      obtain ⟨c, hc, hc'⟩ : ∃ c ∈ t, (cl c).newline = true := by
        apply Classical.byContradiction
        intro hh
        exact hn fun c hc => by
          cases hcc : (cl c).newline with
          | false => rfl
          | true => exact absurd ⟨c, hc, hcc⟩ hh
      -- two characters, one of them a newline, are CR and LF
      have two : ∀ x a b y, t = x ++ a :: b :: y → ((cl a).newline = true ∨ (cl b).newline = true) →
          cl a .CR = true ∧ cl b .LF = true := by
        intro x a b y ht hab
        have := h (x ++ [a]) (b :: y) (by rw [ht]; simp) (by simp) (by simp)
        simp only [List.map_append, List.map_cons, List.map_nil, List.reverse_append, List.reverse_cons, List.reverse_nil,
          List.nil_append, List.cons_append, joins] at this
        split at this
        · rename_i hh; simpa using hh
        · rw [if_pos (by simpa using hab)] at this
          cases this
      have excl : ∀ a, cl a .CR = true → cl a .LF = true → False := by
        intro a h1 h2
        rcases (hx a).excl _ _ h1 h2 with h | h | h | ⟨h, -⟩ <;> cases h
      have three : ∀ x a b y, t = x ++ a :: b :: y → ((cl a).newline = true ∨ (cl b).newline = true) → x = [] ∧ y = [] := by
        intro x a b y ht hab
        obtain ⟨h1, h2⟩ := two x a b y ht hab
        constructor
        · rcases List.eq_nil_or_concat x with hx' | ⟨x', e, hx'⟩
          · exact hx'
          · rw [List.concat_eq_append] at hx'
            subst hx'
            have := two x' e a (b :: y) (by rw [ht]; simp) (.inr (by simp [WSet.newline, h1]))
            exact (excl a h1 this.2).elim
        · cases y with
          | nil => rfl
          | cons e y =>
            have := two (x ++ [a]) b e y (by rw [ht]; simp) (.inl (by simp [WSet.newline, h2]))
            exact (excl b this.1 h2).elim
      obtain ⟨x, y, rfl⟩ := List.append_of_mem hc
      rcases List.eq_nil_or_concat x with rfl | ⟨x', e, rfl⟩
      · cases y with
        | nil =>
          refine .newline c ?_
          simp only [WSet.newline, Bool.or_eq_true] at hc'
          grind
        | cons d y =>
          obtain ⟨-, rfl⟩ := three [] c d y rfl (.inl hc')
          obtain ⟨h1, h2⟩ := two [] c d [] rfl (.inl hc')
          exact .crlf c d h1 h2
      · rw [List.concat_eq_append] at *
        obtain ⟨rfl, rfl⟩ := three x' e c y (by simp) (.inr hc')
        obtain ⟨h1, h2⟩ := two [] e c [] (by simp) (.inr hc')
        exact .crlf e c h1 h2
    · intro h
      cases h with
      | crlf c d hc hd =>
        intro x y hxy hx0 hy0
        rcases x with _ | ⟨a, _ | ⟨b, x⟩⟩
        · exact absurd rfl hx0
        · simp only [List.cons_append, List.nil_append, List.cons.injEq] at hxy
          obtain ⟨rfl, rfl⟩ := hxy
          simp [joins, hc, hd]
        · simp only [List.cons_append, List.cons.injEq, List.nil_eq, List.append_eq_nil_iff] at hxy
          exact absurd hxy.2.2.2 hy0
      | newline c h =>
        intro x y hxy hx0 hy0
        rcases x with _ | ⟨a, x⟩
        · exact absurd rfl hx0
        · simp only [List.cons_append, List.cons.injEq, List.nil_eq, List.append_eq_nil_iff] at hxy
          exact absurd hxy.2.2 hy0
      | pieces h =>
        obtain ⟨u, r, h⟩ := h.made hx
        exact absurd (fun c hc => h.fit.newline c (by rw [h.text]; exact hc)) hn

end

end Uax29
