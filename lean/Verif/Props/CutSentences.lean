import Verif.Spec.Shapes
import Verif.Props.Repair
import Verif.Props.GenTestText
/-! # Sentences of a text with an incomplete encoding at the end, exactly: C42, C64 -/
namespace Uax29
open Spec

theorem lowerAhead_none {r : List SB} (h : lowerAhead r = false) (h' : lowerAhead (r ++ [.Lower]) = true) :
    ∀ x ∈ r, x.stops = false := by
  unfold lowerAhead at h h'
  induction r with
  | nil => simp
  | cons b r ih =>
    rw [List.cons_append] at h'
    by_cases hb : b.stops = true
    · rw [List.dropWhile_cons_of_neg (by simp [hb])] at h h'
      exact absurd (of_decide_eq_true h') (of_decide_eq_false h)
    · rw [List.dropWhile_cons_of_pos (by simpa using hb)] at h h'
      intro x hx
      rcases List.mem_cons.mp hx with rfl | hx
      · simpa using hb
      · exact ih h h' x hx

theorem lowerAhead_all {r : List SB} (h : ∀ x ∈ r, x.stops = false) :
    lowerAhead r = false ∧ lowerAhead (r ++ [.Lower]) = true := by
  unfold lowerAhead
  induction r with
  | nil => exact ⟨by simp, by decide⟩
  | cons b r ih =>
    have hb := h b (by simp)
    rw [List.cons_append, List.dropWhile_cons_of_pos (by simp [hb]), List.dropWhile_cons_of_pos (by simp [hb])]
    exact ih fun x hx => h x (by simp [hx])

theorem sunitJoins_lower {left : List SB} {b : SB} (h : sunitJoins false left b = false) :
    sunitJoins true left b = endsCloseSp (· = .ATerm) left := by
  unfold sunitJoins at h ⊢
  cases h8 : endsCloseSp (· = .ATerm) left with
  | true =>
    simp only [h8, Bool.and_true, Bool.and_false, if_true, Bool.false_eq_true, if_false] at h ⊢
    split <;> rename_i h1
    · rfl
    · rw [if_neg h1] at h
      split <;> rfl
  | false =>
    simp only [h8, Bool.false_and, Bool.false_eq_true, if_false] at h ⊢
    exact h

/-- A small letter after the text takes away exactly those boundaries. -/
theorem undetermined_iff {a b : List SB} (ha : a ≠ []) (hb : b ≠ []) :
    (sentenceBreak a b = true ∧ sentenceBreak a (b ++ [.Lower]) = false) ↔ Undetermined a b := by
  obtain ⟨x, b, rfl⟩ := List.exists_cons_of_ne_nil hb
  have hr : a.reverse ≠ [] := by simpa using ha
  have hae : a.isEmpty = false := by simpa using ha
  unfold Undetermined sentenceBreak sjoins
  obtain ⟨y, l, hl⟩ := List.exists_cons_of_ne_nil hr
  rw [hl, hae]
  simp only [List.cons_append, List.isEmpty_cons, Bool.false_or, Bool.not_eq_true', Bool.not_eq_false', ne_eq,
    List.cons_ne_nil, not_false_eq_true, true_and]
  have hb' : lowerAhead (x :: (b ++ [SB.Lower])) = lowerAhead (x :: b ++ [.Lower]) := rfl
  rw [hb']
  constructor
  · rintro ⟨h1, h2⟩
    have h3 : lowerAhead (x :: b) = false ∧ lowerAhead (x :: b ++ [.Lower]) = true := by
      cases h4 : lowerAhead (x :: b) with
      | true =>
        have h5 := lowerAhead_mono [.Lower] h4
        rw [h4] at h1
        rw [h5] at h2
        rw [show sjoinsIf true (y :: l) (x :: (b ++ [.Lower])) = sjoinsIf true (y :: l) (x :: b) from rfl, h1] at h2
        cases h2
      | false =>
        refine ⟨rfl, ?_⟩
        cases h5 : lowerAhead (x :: b ++ [.Lower]) with
        | true => rfl
        | false =>
          rw [h4] at h1
          rw [h5] at h2
          rw [show sjoinsIf false (y :: l) (x :: (b ++ [.Lower])) = sjoinsIf false (y :: l) (x :: b) from rfl, h1] at h2
          cases h2
    refine ⟨h1, ?_, lowerAhead_none h3.1 h3.2⟩
    rw [h3.1] at h1
    rw [h3.2] at h2
    unfold sjoinsIf at h1 h2
    simp only at h1 h2
    split at h1
    · cases h1
    split at h1
    · rename_i k1 k2
      rw [if_neg k1, if_pos k2] at h2
      cases h2
    split at h1
    · cases h1
    rename_i k1 k2 k3
    rw [if_neg k1, if_neg k2, if_neg k3, sunitJoins_lower h1] at h2
    exact h2
  · rintro ⟨h1, h2, h3⟩
    refine ⟨h1, ?_⟩
    obtain ⟨h4, h5⟩ := lowerAhead_all h3
    rw [h4] at h1
    rw [h5]
    unfold sjoinsIf at h1 ⊢
    simp only at h1 ⊢
    split at h1
    · cases h1
    rename_i k1
    rw [if_neg k1]
    split at h1
    · rename_i k2
      -- after a line end there is no full stop
      exfalso
      have : ∃ s, sunits (y :: l) = y :: s := by
        have hi : y.ignorable = false := by
          revert k2; cases y <;> simp [SB.paraSep, SB.ignorable]
        cases l with
        | nil => exact ⟨[], rfl⟩
        | cons c l => exact ⟨_, by rw [sunits]; simp [hi]; rfl⟩
      obtain ⟨s, hs⟩ := this
      rw [hs] at h2
      revert h2 k2
      cases y <;> simp [SB.paraSep, endsCloseSp, endsClose]
    rename_i k2
    rw [if_neg k2]
    split at h1
    · cases h1
    rename_i k3
    rw [if_neg k3, sunitJoins_lower h1]
    exact h2

/-- The pieces of a byte sequence are not empty. -/
theorem Spec.Pieces.bytes_ne {data t : Bytes} {ps : List Piece} (h : Pieces data ps t) : ∀ q ∈ ps, q.bytes ≠ [] := by
  induction h with
  | nil => simp
  | cut => simp
  | char c _ ih =>
    intro q hq
    rcases List.mem_cons.mp hq with rfl | hq
    · exact fun h => by simp [Piece.bytes] at h
    · exact ih q hq
  | bad _ _ _ _ ih =>
    intro q hq
    rcases List.mem_cons.mp hq with rfl | hq
    · exact List.cons_ne_nil _ _
    · exact ih q hq

theorem tokenBytes_length {t : Bytes} : ∀ {gs : List (List Piece)}, gs ≠ [] → (tokenBytes t gs).length = gs.length
  | [_], _ => rfl
  | _ :: g :: gs, _ => by
    rw [tokenBytes_cons, List.length_cons, tokenBytes_length (gs := g :: gs) (by simp)]
    rfl

/-- The tokens determine which pieces they are made of. -/
theorem tokenBytes_inj {t : Bytes} : ∀ {gs gs' : List (List Piece)}, (∀ q ∈ gs.flatten, q.bytes ≠ []) →
    gs.flatten = gs'.flatten → (∀ g ∈ gs, g ≠ []) → (∀ g ∈ gs', g ≠ []) → tokenBytes t gs = tokenBytes t gs' → gs = gs'
  | [], [], _, _, _, _, _ => rfl
  | [], g' :: gs', _, h, _, h2, _ => by
    simp only [List.flatten_nil, List.flatten_cons] at h
    exact absurd (List.append_eq_nil_iff.mp h.symm).1 (h2 g' (by simp))
  | g :: gs, [], _, h, h1, _, _ => by
    simp only [List.flatten_nil, List.flatten_cons] at h
    exact absurd (List.append_eq_nil_iff.mp h).1 (h1 g (by simp))
  | [g], [g'], _, h, _, _, _ => by simpa using h
  | [g], g' :: k' :: gs', _, _, _, _, he => by
    have := congrArg List.length he
    rw [tokenBytes_length (by simp), tokenBytes_length (by simp)] at this
    simp at this
  | g :: k :: gs, [g'], _, _, _, _, he => by
    have := congrArg List.length he
    rw [tokenBytes_length (by simp), tokenBytes_length (by simp)] at this
    simp at this
  | g :: k :: gs, g' :: k' :: gs', hq, h, h1, h2, he => by
    rw [tokenBytes_cons, tokenBytes_cons, List.cons.injEq] at he
    simp only [List.flatten_cons (l := g), List.flatten_cons (l := g')] at h
    have pre : ∀ {g z : List Piece}, (∀ q ∈ z, q.bytes ≠ []) → (g ++ z).flatMap Piece.bytes = g.flatMap Piece.bytes → z = [] := by
      intro g z hz h
      rw [List.flatMap_append] at h
      have := List.append_right_eq_self.mp h
      cases z with
      | nil => rfl
      | cons q z =>
        rw [List.flatMap_cons] at this
        exact absurd (List.append_eq_nil_iff.mp this).1 (hz q (by simp))
    have hg : g = g' := by
      rcases List.append_eq_append_iff.mp h with ⟨z, h3, h4⟩ | ⟨z, h3, h4⟩
      · have : z = [] := pre (g := g) (z := z) (fun q hz => hq q (by
          rw [List.flatten_cons, h4]; simp [hz])) (by rw [← h3, he.1])
        rw [h3, this, List.append_nil]
      · have : z = [] := pre (g := g') (z := z) (fun q hz => hq q (by
          rw [List.flatten_cons, h3]; simp [hz])) (by rw [← h3, he.1])
        rw [h3, this, List.append_nil]
    subst hg
    rw [tokenBytes_inj (fun q hz => hq q (by rw [List.flatten_cons]; exact List.mem_append_right _ hz))
      (List.append_cancel_left h) (fun x hx => h1 x (List.mem_cons_of_mem _ hx)) (fun x hx => h2 x (List.mem_cons_of_mem _ hx)) he.2]

/-- C42 for sentences: if an incomplete encoding is at the end, then the full statement of C42 holds exactly for the texts without
a boundary that is undetermined at the end. -/
theorem C42_sentences_iff (data t : Bytes) (ps : List Piece) (hp : Pieces data ps t) (ht : t ≠ []) :
    (∃ gs, defaultTokens .sentences data = .ok (tokenBytes t gs) ∧ gs.flatten = ps ∧ (∀ g ∈ gs, g ≠ [])
      ∧ ∀ a b, ps = a ++ b → (Boundary gs a ↔
        sentenceBreak (a.map (Piece.classes sentenceClass .Other)) (b.map (Piece.classes sentenceClass .Other)) = true))
    ↔ ¬ ∃ a b, ps = a ++ b ∧ a ≠ [] ∧
      Undetermined (a.map (Piece.classes sentenceClass .Other)) (b.map (Piece.classes sentenceClass .Other)) := by
  obtain ⟨ps', t', gs, h0, h1, h2, h3, h4⟩ := C42_sentences_cut data
  obtain ⟨rfl, rfl⟩ := h0.unique hp
  rw [if_neg ht] at h4
  constructor
  · rintro ⟨gs', k1, k2, k3, k4⟩ ⟨a, b, hab, ha, hu⟩
    have hgs : gs = gs' := tokenBytes_inj (t := t') (fun q hq => hp.bytes_ne q (by rwa [h2] at hq)) (h2.trans k2.symm) h3 k3
      (Except.ok.inj (h1.symm.trans k1))
    subst hgs
    obtain ⟨u1, u2⟩ := (undetermined_iff (by simpa using ha) hu.1).mpr hu
    rcases (h4 a b hab).mp ((k4 a b hab).mpr u1) with h | h
    · exact hu.1 (by rw [h]; rfl)
    · rw [u2] at h
      cases h
  · intro hn
    refine ⟨gs, h1, h2, h3, fun a b hab => ?_⟩
    rw [h4 a b hab]
    by_cases hb : b = []
    · simp [hb, sentenceBreak]
    by_cases ha : a = []
    · simp [ha, sentenceBreak]
    constructor
    · rintro (h | h)
      · exact absurd h hb
      · exact sentenceBreak_append _ (by simpa using hb) h
    · intro h
      right
      apply Classical.byContradiction
      intro h'
      rw [Bool.not_eq_true] at h'
      exact hn ⟨a, b, hab, ha, (undetermined_iff (by simpa using ha) (by simpa using hb)).mp ⟨h, h'⟩⟩

/-- C64 for sentences: the same condition decides whether ill-formed bytes can be replaced before or after. -/
theorem C64_sentences_iff (data t : Bytes) (ps : List Piece) (hp : Pieces data ps t) (ht : t ≠ []) :
    (∃ gs, defaultTokens .sentences data = .ok (tokenBytes t gs) ∧ gs.flatten = ps ∧ (∀ g ∈ gs, g ≠ [])
      ∧ defaultTokens .sentences (utf8 (ps.map Piece.repaired)) = .ok (gs.map fun g => utf8 (g.map Piece.repaired)))
    ↔ ¬ ∃ a b, ps = a ++ b ∧ a ≠ [] ∧
      Undetermined (a.map (Piece.classes sentenceClass .Other)) (b.map (Piece.classes sentenceClass .Other)) := by
  rw [← C42_sentences_iff data t ps hp ht]
  obtain ⟨ws, k1, k2, k3, k4⟩ := C10_conform (ps.map Piece.repaired)
  have k5 : ∀ a b, ps = a ++ b → (Boundary ws (a.map Piece.repaired) ↔
      sentenceBreak (a.map (Piece.classes sentenceClass .Other)) (b.map (Piece.classes sentenceClass .Other)) = true) := by
    intro a b hab
    rw [k4 _ (b.map Piece.repaired) (by rw [hab, List.map_append]), sentences_repaired, sentences_repaired]
  constructor
  · rintro ⟨gs, h1, h2, h3, h4⟩
    refine ⟨gs, h1, h2, h3, fun a b hab => ?_⟩
    have hw : ws = gs.map (List.map Piece.repaired) := by
      have := Except.ok.inj (k1.symm.trans h4)
      have e : (gs.map fun g => utf8 (g.map Piece.repaired)) = (gs.map (List.map Piece.repaired)).map utf8 := by
        rw [List.map_map]; rfl
      rw [e] at this
      exact (List.map_inj_right fun _ _ h => utf8_inj h).mp this
    rw [← k5 a b hab, hw, boundary_map Piece.repaired (h2.trans hab)]
  · rintro ⟨gs, h1, h2, h3, h4⟩
    refine ⟨gs, h1, h2, h3, ?_⟩
    rw [k1, repaired_tokens _ h2 h3 h4 k2 k3 k5, List.map_map]
    rfl

-- "a. 1" is undetermined after the blank, "a. 1b" and "a! 1" are not
example : Undetermined ("a. ".toList.map sentenceClass) ("1".toList.map sentenceClass)
    ∧ ¬ Undetermined ("a. ".toList.map sentenceClass) ("1b".toList.map sentenceClass)
    ∧ ¬ Undetermined ("a! ".toList.map sentenceClass) ("1".toList.map sentenceClass) := by
  refine ⟨⟨by decide, by decide +kernel, by decide +kernel, by decide +kernel⟩, fun h => absurd h.2.2.2 (by decide +kernel),
    fun h => absurd h.2.2.1 (by decide +kernel)⟩
example : defaultTokens .sentences [0x61, 0x21, 0x20, 0x31, 0xF0] = .ok [[0x61, 0x21, 0x20], [0x31, 0xF0]] := by decide +kernel

end Uax29
