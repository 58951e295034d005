import Verif.Proofs.JointClasses
import Verif.Spec.JoinersExact
/-! # The word rules with more properties join more -/
namespace Uax29
open Spec

/-- The properties `a'` are those of `a` and maybe ALetter, HebrewLetter and MidNumLet. -/
def Up (a a' : WSet) : Prop :=
  (∀ g, a g = true → a' g = true) ∧ ∀ g, g ≠ .ALetter → g ≠ .HebrewLetter → g ≠ .MidNumLet → a' g = a g

theorem Up.refl (a : WSet) : Up a a := ⟨fun _ h => h, fun _ _ _ _ => rfl⟩

theorem Up.newline {a a' : WSet} (h : Up a a') : a'.newline = a.newline := by
  simp only [WSet.newline]
  rw [h.2 .Newline (by decide) (by decide) (by decide), h.2 .CR (by decide) (by decide) (by decide),
    h.2 .LF (by decide) (by decide) (by decide)]

theorem Up.ignorable {a a' : WSet} (h : Up a a') : a'.ignorable = a.ignorable := by
  simp only [WSet.ignorable]
  rw [h.2 .Extend (by decide) (by decide) (by decide), h.2 .Format (by decide) (by decide) (by decide),
    h.2 .ZWJ (by decide) (by decide) (by decide)]

theorem Up.ahLetter {a a' : WSet} (h : Up a a') (ha : a.ahLetter false = true) : a'.ahLetter false = true := by
  simp only [WSet.ahLetter, Bool.false_and, Bool.or_false, Bool.or_eq_true] at ha ⊢
  exact ha.imp (h.1 _) (h.1 _)

theorem Up.alnum {a a' : WSet} (h : Up a a') (ha : a.alnum false = true) : a'.alnum false = true := by
  simp only [WSet.alnum, Bool.false_and, Bool.or_false, Bool.or_eq_true] at ha ⊢
  exact ha.imp h.ahLetter (h.1 _)

theorem Up.midNumLetQ {a a' : WSet} (h : Up a a') (ha : a.midNumLetQ = true) : a'.midNumLetQ = true := by
  simp only [WSet.midNumLetQ, Bool.or_eq_true] at ha ⊢
  exact ha.imp (h.1 _) (h.1 _)

theorem Up.midLetter {a a' : WSet} (h : Up a a') (ha : a.midLetter = true) : a'.midLetter = true := by
  simp only [WSet.midLetter, Bool.or_eq_true] at ha ⊢
  exact ha.imp (h.1 _) h.midNumLetQ

theorem Up.midNum {a a' : WSet} (h : Up a a') (ha : a.midNum = true) : a'.midNum = true := by
  simp only [WSet.midNum, Bool.or_eq_true] at ha ⊢
  exact ha.imp (h.1 _) h.midNumLetQ

/-- Properties that no rule looks for two characters back. -/
def dead (a : WSet) : Bool := !(a .ALetter || a .HebrewLetter || a .Numeric || a .RegionalIndicator)

/-- Texts before a position, nearest first. The farthest one may be anything if nothing looks at it. -/
inductive Ups : List WSet → List WSet → Prop
  | nil : Ups [] []
  | cons {a a' : WSet} {l l' : List WSet} (h : Up a a') (hl : Ups l l') : Ups (a :: l) (a' :: l')
  | last {b b' a a' : WSet} (h : Up b b') (hi : b.ignorable = false) (hr : b .RegionalIndicator = false)
      (ha : dead a = true) (ha' : a' .RegionalIndicator = false) : Ups [b, a] [b', a']

theorem Ups.units {l l' : List WSet} (h : Ups l l') : Ups (units l) (units l') := by
  induction h with
  | nil => exact .nil
  | last h hi hr ha ha' =>
    simp only [Spec.units, hi, h.ignorable, Bool.false_and, Bool.false_eq_true, if_false]
    exact .last h hi hr ha ha'
  | cons h hl ih =>
    cases hl with
    | nil => exact .cons h .nil
    | cons h2 hl =>
      rw [Spec.units, Spec.units, h.ignorable, h2.newline]
      split
      · exact ih
      · exact .cons h ih
    | last h2 hi hr ha ha' =>
      have e : ∀ (a b c : WSet), Spec.units [a, b, c] = if a.ignorable && !b.newline then Spec.units [b, c]
        else a :: Spec.units [b, c] := fun _ _ _ => rfl
      rw [e, e, h.ignorable, h2.newline]
      split
      · exact ih
      · exact .cons h ih

theorem Ups.before {l l' : List WSet} (h : Ups l l') {f : WSet → Bool} (hf : ∀ {a a'}, Up a a' → f a = true → f a' = true)
    (hl : l.head?.any f = true) : l'.head?.any f = true := by
  cases h with
  | nil => exact hl
  | cons h _ => exact hf h hl
  | last h _ _ _ _ => exact hf h hl

theorem Ups.before2 {l l' : List WSet} (h : Ups l l') {f : WSet → Bool} (hf : ∀ {a a'}, Up a a' → f a = true → f a' = true)
    (hd : ∀ {a}, dead a = true → f a = false) (hl : l.tail.head?.any f = true) : l'.tail.head?.any f = true := by
  cases h with
  | nil => exact hl
  | cons _ h => exact h.before hf hl
  | last _ _ _ ha _ =>
    simp only [List.tail_cons, List.head?_cons, Option.any_some, hd ha] at hl
    cases hl

theorem Ups.indicators {l l' : List WSet} (h : Ups l l') :
    (l'.takeWhile (· .RegionalIndicator)).length = (l.takeWhile (· .RegionalIndicator)).length := by
  induction h with
  | nil => rfl
  | cons h _ ih =>
    rw [List.takeWhile_cons, List.takeWhile_cons, h.2 .RegionalIndicator (by decide) (by decide) (by decide)]
    split
    · simp [ih]
    · rfl
  | last h _ hr _ _ =>
    have hr' := h.2 .RegionalIndicator (by decide) (by decide) (by decide)
    rw [hr] at hr'
    simp [hr, hr']

/-- The properties of the texts after a position. -/
inductive UpsAfter : List WSet → List WSet → Prop
  | nil : UpsAfter [] []
  | cons {a a' : WSet} {l l' : List WSet} (h : Up a a') (hl : UpsAfter l l') : UpsAfter (a :: l) (a' :: l')

theorem UpsAfter.next {l l' : List WSet} (h : UpsAfter l l') {f : WSet → Bool}
    (hf : ∀ {a a'}, Up a a' → f a = true → f a' = true) (hl : (l.dropWhile (·.ignorable)).head?.any f = true) :
    (l'.dropWhile (·.ignorable)).head?.any f = true := by
  induction h with
  | nil => exact hl
  | cons h _ ih =>
    rw [List.dropWhile_cons] at hl ⊢
    rw [h.ignorable]
    split at hl
    · rename_i hi
      rw [if_pos hi]
      exact ih hl
    · rename_i hi
      rw [if_neg hi]
      exact hf h hl

theorem unitJoins_up {l l' : List WSet} {b b' : WSet} {r r' : List WSet} (hl : Ups l l') (hb : Up b b') (hr : UpsAfter r r')
    (h : unitJoins false l b (r.dropWhile (·.ignorable)).head? = true) :
    unitJoins false l' b' (r'.dropWhile (·.ignorable)).head? = true := by
  have d1 : ∀ {a : WSet}, dead a = true → a.ahLetter false = false := by
    intro a ha
    simp only [dead, Bool.not_eq_true', Bool.or_eq_false_iff] at ha
    simp [WSet.ahLetter, ha]
  have d2 : ∀ {a : WSet}, dead a = true → a .HebrewLetter = false := by
    intro a ha
    simp only [dead, Bool.not_eq_true', Bool.or_eq_false_iff] at ha
    exact ha.1.1.2
  have d3 : ∀ {a : WSet}, dead a = true → a .Numeric = false := by
    intro a ha
    simp only [dead, Bool.not_eq_true', Bool.or_eq_false_iff] at ha
    exact ha.1.2
  unfold unitJoins at h ⊢
  simp only [Bool.or_eq_true, Bool.and_eq_true] at h ⊢
  rcases h with ((((((((((h | h) | h) | h) | h) | h) | h) | h) | h) | h) | h) | h
  · exact .inl (.inl (.inl (.inl (.inl (.inl (.inl (.inl (.inl (.inl (.inl ⟨hl.before Up.alnum h.1, hb.alnum h.2⟩))))))))))
  · exact .inl (.inl (.inl (.inl (.inl (.inl (.inl (.inl (.inl (.inl (.inr
      ⟨⟨hl.before Up.ahLetter h.1.1, hb.midLetter h.1.2⟩, hr.next Up.ahLetter h.2⟩))))))))))
  · exact .inl (.inl (.inl (.inl (.inl (.inl (.inl (.inl (.inl (.inr
      ⟨⟨hl.before2 Up.ahLetter d1 h.1.1, hl.before Up.midLetter h.1.2⟩, hb.ahLetter h.2⟩)))))))))
  · exact .inl (.inl (.inl (.inl (.inl (.inl (.inl (.inl (.inr ⟨hl.before (fun k => k.1 _) h.1, hb.1 _ h.2⟩))))))))
  · exact .inl (.inl (.inl (.inl (.inl (.inl (.inl (.inr
      ⟨⟨hl.before (fun k => k.1 _) h.1.1, hb.1 _ h.1.2⟩, hr.next (fun k => k.1 _) h.2⟩)))))))
  · exact .inl (.inl (.inl (.inl (.inl (.inl (.inr
      ⟨⟨hl.before2 (fun k => k.1 _) d2 h.1.1, hl.before (fun k => k.1 _) h.1.2⟩, hb.1 _ h.2⟩))))))
  · exact .inl (.inl (.inl (.inl (.inl (.inr
      ⟨⟨hl.before2 (fun k => k.1 _) d3 h.1.1, hl.before Up.midNum h.1.2⟩, hb.1 _ h.2⟩)))))
  · exact .inl (.inl (.inl (.inl (.inr
      ⟨⟨hl.before (fun k => k.1 _) h.1.1, hb.midNum h.1.2⟩, hr.next (fun k => k.1 _) h.2⟩))))
  · exact .inl (.inl (.inl (.inr ⟨hl.before (fun k => k.1 _) h.1, hb.1 _ h.2⟩)))
  · refine .inl (.inl (.inr ⟨hl.before ?_ h.1, hb.1 _ h.2⟩))
    intro a a' k ha
    simp only [Bool.or_eq_true] at ha ⊢
    exact ha.imp (Or.imp (Or.imp k.ahLetter (k.1 _)) (k.1 _)) (k.1 _)
  · exact .inl (.inr ⟨hl.before (fun k => k.1 _) h.1, h.2.imp (Or.imp hb.ahLetter (hb.1 _)) (hb.1 _)⟩)
  · refine .inr ⟨?_, hb.1 _ h.2⟩
    rw [hl.indicators]
    exact h.1

/-- Where the word rules join, they do with more properties. -/
theorem joins_up {l l' r r' : List WSet} (hl : Ups l l') (hr : UpsAfter r r') (h : joins false l r = true) :
    joins false l' r' = true := by
  have hh : ∀ {a : WSet} {k l' : List WSet}, Ups (a :: k) l' → ∃ a' k', l' = a' :: k' ∧ Up a a' := by
    intro a k l' hu
    cases hu with
    | cons h _ => exact ⟨_, _, rfl, h⟩
    | last h _ _ _ _ => exact ⟨_, _, rfl, h⟩
  cases l with
  | nil => simp [joins] at h
  | cons a l =>
    cases hr with
    | nil => simp [joins] at h
    | cons hb hr =>
      rename_i b b' r r'
      obtain ⟨a', k', rfl, ha⟩ := hh hl
      have e : ∀ {a a' : WSet} (_ : Up a a') (g : WB), g ≠ .ALetter → g ≠ .HebrewLetter → g ≠ .MidNumLet → a' g = a g :=
        fun h => h.2
      unfold joins at h ⊢
      dsimp only at h ⊢
      rw [e ha .CR (by decide) (by decide) (by decide), e hb .LF (by decide) (by decide) (by decide), ha.newline, hb.newline,
        e ha .ZWJ (by decide) (by decide) (by decide), e hb .ExtendedPictographic (by decide) (by decide) (by decide),
        e ha .WSegSpace (by decide) (by decide) (by decide), e hb .WSegSpace (by decide) (by decide) (by decide), hb.ignorable]
      split
      · rfl
      rename_i h1
      rw [if_neg h1] at h
      split
      · rename_i h2
        rw [if_pos h2] at h
        cases h
      rename_i h2
      rw [if_neg h2] at h
      split
      · rfl
      rename_i h3
      rw [if_neg h3] at h
      split
      · rfl
      rename_i h4
      rw [if_neg h4] at h
      split
      · rfl
      rename_i h5
      rw [if_neg h5] at h
      exact unitJoins_up hl.units hb hr h

/-! ## joiners -/

theorem w_alnum {c : Char} (h : (wordClasses c).alnum false = true) : (wordClasses c).ignorable = false
    ∧ wordClasses c .RegionalIndicator = false ∧ wordClasses c .LF = false := by
  have := classes_none (fun _ w _ => w.alnum false && (w.ignorable || w .RegionalIndicator || w .LF)) (by decide +kernel) c
  rw [h] at this
  simpa [and_assoc] using this

theorem w_newline {c : Char} (h : (wordClasses c).newline = true) : dead (wordClasses c) = true := by
  have := classes_none (fun _ w _ => w.newline && !dead w) (by decide +kernel) c
  rw [h] at this
  simpa using this

theorem middle_up (M : List Int) (p : Piece) : Up p.wordClasses (middleClasses M p) := by
  refine ⟨fun g h => by simp [middleClasses, h], fun g _ _ h => ?_⟩
  simp only [middleClasses]
  cases g <;> first | exact absurd rfl h | simp

theorem middles_up (M : List Int) : ∀ {ps : List Piece} {l l' : List WSet}, Ups l l' →
    Ups (ps.map Piece.wordClasses ++ l) (ps.map (middleClasses M) ++ l')
  | [], _, _, h => h
  | p :: _, _, _, h => .cons (middle_up M p) (middles_up M h)

theorem middles_after (M : List Int) : ∀ ps : List Piece, UpsAfter (ps.map Piece.wordClasses) (ps.map (middleClasses M))
  | [] => .nil
  | p :: ps => .cons (middle_up M p) (middles_after M ps)

/-- Where there is a boundary with joiners, there is one without them. -/
theorem wordBreak_of_joined (M L : List Int) {g rest : List Piece} (hg : g ≠ [])
    (h : wordBreak ((joinedClasses M L (g ++ rest)).take g.length) ((joinedClasses M L (g ++ rest)).drop g.length) = true) :
    wordBreak (g.map Piece.wordClasses) (rest.map Piece.wordClasses) = true := by
  cases hr : rest with
  | nil => simp [wordBreak]
  | cons q rest' =>
  cases g with
  | nil => exact absurd rfl hg
  | cons p g =>
    rw [List.cons_append, joinedClasses, List.length_cons, List.take_succ_cons, List.drop_succ_cons, List.map_append,
      show g.length = (g.map (middleClasses M)).length by simp, List.take_left, List.drop_left] at h
    rw [wordBreak, Bool.or_eq_true, Bool.not_eq_true'] at h ⊢
    refine .inr (Bool.eq_false_iff.mpr fun hj => ?_)
    have hj' : joins false ((leadClasses L p (g ++ rest).head? :: g.map (middleClasses M)).reverse)
        (rest.map (middleClasses M)) = true := by
      rw [List.reverse_cons, ← List.map_reverse]
      rw [List.map_cons, List.reverse_cons, ← List.map_reverse, ← hr] at hj
      have plain : Up p.wordClasses (leadClasses L p (g ++ rest).head?) →
          joins false (g.reverse.map (middleClasses M) ++ [leadClasses L p (g ++ rest).head?])
            (rest.map (middleClasses M)) = true := fun hu =>
        joins_up (middles_up M (.cons hu .nil)) (middles_after M rest) hj
      by_cases h1 : p.rune ∉ L
      · refine plain ?_
        rw [leadClasses, if_pos h1]
        exact Up.refl _
      by_cases h2 : p.wordClasses.ignorable = true
      · refine plain ?_
        rw [leadClasses, if_neg h1, if_pos h2]
        exact Up.refl _
      by_cases h3 : p.wordClasses.newline = true
      · by_cases h4 : ((g ++ rest).head?.any fun q => q.wordClasses.alnum false) = true
        · -- a newline before a letter or numeral
          have hlead : leadClasses L p (g ++ rest).head? = fun g => g == .ALetter || g == .HebrewLetter := by
            rw [leadClasses, if_neg h1, if_neg h2, if_pos h3, if_pos h4]
          have hfacts : ∀ q : Piece, q.wordClasses.alnum false = true → q.wordClasses.ignorable = false
              ∧ q.wordClasses .RegionalIndicator = false ∧ q.wordClasses .LF = false := by
            intro q hq
            cases q with
            | char c => exact w_alnum hq
            | bad b => cases hq
          have hdead : dead p.wordClasses = true := by
            cases p with
            | char c => exact w_newline h3
            | bad b => cases h3
          cases g with
          | nil =>
            rw [List.nil_append, hr] at h4
            have h5 := hfacts q h4
            rw [hr] at hj
            simp only [List.reverse_nil, List.map_nil, List.nil_append, List.map_cons, joins, h5.2.2, Bool.and_false,
              Bool.false_eq_true, if_false, h3, Bool.true_or, if_true] at hj
          | cons q' g =>
            have h5 := hfacts q' h4
            rw [hlead, List.reverse_cons, List.map_append, List.append_assoc]
            rw [List.reverse_cons, List.map_append, List.append_assoc] at hj
            exact joins_up (middles_up M (.last (middle_up M q') h5.1 h5.2.1 hdead rfl)) (middles_after M rest) hj
        · refine plain ?_
          rw [leadClasses, if_neg h1, if_neg h2, if_pos h3, if_neg h4]
          exact Up.refl _
      · refine plain ?_
        rw [leadClasses, if_neg h1, if_neg h2, if_neg h3]
        refine ⟨fun g hg => by simp [hg], fun g ha hb _ => ?_⟩
        simp [beq_eq_false_iff_ne.mpr ha, beq_eq_false_iff_ne.mpr hb]
    rw [hj'] at h
    simp [hr] at h

end Uax29
