import Verif.Spec.Shapes
import Verif.Props.Divide
import Verif.Props.GenTestText
/-! # How sentences end: C95 -/
namespace Uax29
open Spec

theorem sunits_step (a : SB) (l : List SB) : (a.ignorable = true ∧ sunits (a :: l) = sunits l) ∨ sunits (a :: l) = a :: sunits l := by
  cases l with
  | nil => exact .inr rfl
  | cons c l =>
    by_cases h : (a.ignorable && !c.paraSep) = true
    · left
      refine ⟨(Bool.and_eq_true _ _ ▸ h).1, ?_⟩
      conv => lhs; rw [sunits]
      rw [if_pos h]
    · right
      conv => lhs; rw [sunits]
      rw [if_neg h]

theorem endsClose_units {P : SB → Bool} : ∀ {l : List SB}, endsClose P (sunits l) = true →
    ∃ y c r, l = y ++ c :: r ∧ P c = true ∧ ∀ d ∈ y, d = .Close ∨ d.ignorable = true
  | [], h => by simp [sunits, endsClose] at h
  | a :: l, h => by
    have add : (a = .Close ∨ a.ignorable = true) → endsClose P (sunits l) = true →
        ∃ y c r, a :: l = y ++ c :: r ∧ P c = true ∧ ∀ d ∈ y, d = .Close ∨ d.ignorable = true := by
      intro ha hl
      obtain ⟨y, c, r, h1, h2, h3⟩ := endsClose_units hl
      refine ⟨a :: y, c, r, by rw [h1]; rfl, h2, ?_⟩
      intro d hd
      rcases List.mem_cons.mp hd with rfl | hd
      · exact ha
      · exact h3 d hd
    rcases sunits_step a l with ⟨h1, h2⟩ | h2
    · rw [h2] at h
      exact add (.inr h1) h
    · rw [h2] at h
      by_cases ha : a = .Close
      · refine add (.inl ha) ?_
        unfold endsClose at h ⊢
        rwa [List.dropWhile_cons_of_pos (by simp [ha])] at h
      · unfold endsClose at h
        rw [List.dropWhile_cons_of_neg (by simp [ha])] at h
        exact ⟨[], a, l, rfl, by simpa using h, by simp⟩

theorem endsCloseSp_units {P : SB → Bool} : ∀ {l : List SB}, endsCloseSp P (sunits l) = true →
    ∃ z y c r, l = z ++ (y ++ c :: r) ∧ P c = true ∧ (∀ d ∈ z, d = .Sp ∨ d.ignorable = true)
      ∧ ∀ d ∈ y, d = .Close ∨ d.ignorable = true
  | [], h => by simp [sunits, endsCloseSp, endsClose] at h
  | a :: l, h => by
    have add : (a = .Sp ∨ a.ignorable = true) → endsCloseSp P (sunits l) = true →
        ∃ z y c r, a :: l = z ++ (y ++ c :: r) ∧ P c = true ∧ (∀ d ∈ z, d = .Sp ∨ d.ignorable = true)
          ∧ ∀ d ∈ y, d = .Close ∨ d.ignorable = true := by
      intro ha hl
      obtain ⟨z, y, c, r, h1, h2, h3, h4⟩ := endsCloseSp_units hl
      refine ⟨a :: z, y, c, r, by rw [h1]; rfl, h2, ?_, h4⟩
      intro d hd
      rcases List.mem_cons.mp hd with rfl | hd
      · exact ha
      · exact h3 d hd
    rcases sunits_step a l with ⟨h1, h2⟩ | h2
    · rw [h2] at h
      exact add (.inr h1) h
    · by_cases ha : a = .Sp
      · refine add (.inl ha) ?_
        rw [h2] at h
        unfold endsCloseSp at h ⊢
        rwa [List.dropWhile_cons_of_pos (by simp [ha])] at h
      · have h' : endsClose P (sunits (a :: l)) = true := by
          rw [h2] at h ⊢
          unfold endsCloseSp at h
          rwa [List.dropWhile_cons_of_neg (by simp [ha])] at h
        obtain ⟨y, c, r, k1, k2, k3⟩ := endsClose_units h'
        exact ⟨[], y, c, r, k1, k2, by simp, k3⟩

theorem sunits_noPara : ∀ {c : SB} {l : List SB}, c.paraSep = false → (sunits (c :: l)).head?.any SB.paraSep = false
  | c, [], h => by simpa [sunits] using h
  | c, d :: l, h => by
    conv => lhs; rw [sunits]
    split
    · rename_i hd
      rw [Bool.and_eq_true, Bool.not_eq_true'] at hd
      exact sunits_noPara hd.2
    · simpa using h

/-- Where the rules do not join, the text before ends like a sentence. -/
theorem sjoins_ends {a : List Char} (ha : a ≠ []) {b : SB} {right : List SB}
    (h : sjoins (a.map sentenceClass).reverse (b :: right) = false) : EndsSentence a := by
  have hl := List.dropLast_concat_getLast ha
  generalize hx : a.dropLast = x at hl
  generalize a.getLast ha = c at hl
  subst hl
  unfold sjoins at h
  simp only [List.map_append, List.map_cons, List.map_nil, List.reverse_append, List.reverse_cons, List.reverse_nil,
    List.nil_append, List.cons_append] at h
  unfold sjoinsIf at h
  simp only at h
  split at h
  · cases h
  split at h
  · rename_i hc
    left
    refine ⟨x, c, rfl, ?_⟩
    revert hc
    cases sentenceClass c <;> simp [SB.paraSep]
  rename_i hp
  split at h
  · cases h
  -- SB11
  have key : endsCloseSp (·.saTerm) (sunits (sentenceClass c :: (x.map sentenceClass).reverse)) = true := by
    unfold sunitJoins at h
    simp only at h
    split at h
    · cases h
    split at h
    · cases h
    split at h
    · cases h
    split at h
    · cases h
    split at h
    · cases h
    split at h
    · cases h
    split at h
    · rename_i h'
      rw [Bool.or_eq_true, Bool.and_eq_true] at h'
      rcases h' with h' | ⟨h', -⟩
      · exact h'
      · rw [sunits_noPara (by simpa using hp)] at h'
        cases h'
    · cases h
  right
  obtain ⟨z, y, d, r, h1, h2, h3, h4⟩ := endsCloseSp_units key
  have h5 : (x ++ [c]).map sentenceClass = r.reverse ++ d :: (y.reverse ++ z.reverse) := by
    have := congrArg List.reverse h1
    simpa using this
  obtain ⟨x1, x2, q1, q2, q3⟩ := List.map_eq_append_iff.mp h5
  obtain ⟨e, x3, rfl, q4, q5⟩ := List.map_eq_cons_iff.mp q3
  obtain ⟨y', z', rfl, q6, q7⟩ := List.map_eq_append_iff.mp q5
  refine ⟨x1, e, y', z', q1, ?_, ?_, ?_⟩
  · rw [q4]
    revert h2
    cases d <;> simp [SB.saTerm]
  · intro w hw
    have := h4 (sentenceClass w) (by rw [← List.mem_reverse, ← q6]; exact List.mem_map_of_mem hw)
    simpa [SB.ignorable] using this
  · intro w hw
    have := h3 (sentenceClass w) (by rw [← List.mem_reverse, ← q7]; exact List.mem_map_of_mem hw)
    simpa [SB.ignorable] using this

/-- **C95** Every sentence but the last one ends with a line end or separator, or with a terminator and any closing characters and
blanks after it. -/
theorem C95_sentences (s : List Char) :
    ∃ ts : List (List Char), defaultTokens .sentences (utf8 s) = .ok (ts.map utf8) ∧ ts.flatten = s
      ∧ ∀ A t B, ts = A ++ t :: B → B ≠ [] → EndsSentence t := by
  obtain ⟨ts, h1, h2, h3, -⟩ := C10_conform s
  refine ⟨ts, h1, h2, ?_⟩
  rintro A t B rfl hB
  rw [List.map_append] at h1
  have h4 := (C74_utf8 .sentences s _ _ h1).2
  have h5 : ((t :: B).map utf8).flatten = utf8 (t :: B).flatten := by
    simp only [utf8, List.flatMap_def, List.map_flatten, List.flatten_flatten, List.map_map]
    rfl
  rw [h5] at h4
  obtain ⟨us, k1, k2, k3, k4⟩ := C10_conform (t :: B).flatten
  rw [h4] at k1
  have hu := (List.map_inj_right fun _ _ h => utf8_inj h).mp (Except.ok.inj k1)
  subst hu
  have hb := (k4 t B.flatten (by simp)).mp ⟨1, by simp⟩
  have ht : t ≠ [] := h3 t (by simp)
  have hBf : B.flatten ≠ [] := flatten_ne_nil (fun w hw => h3 w (by simp [hw])) hB
  obtain ⟨d, r, hr⟩ := List.exists_cons_of_ne_nil hBf
  rw [hr] at hb
  refine sjoins_ends ht (b := sentenceClass d) (right := r.map sentenceClass) ?_
  simpa [sentenceBreak, ht] using hb

-- the first two sentences end with a full stop, a bracket and a blank, and with a line end
example : defaultTokens .sentences (utf8 "(A b.) C\nd".toList) = .ok [utf8 "(A b.) ".toList, utf8 "C\n".toList, utf8 ['d']] := by
  decide +kernel
example : EndsSentence "(A b.) ".toList :=
  .inr ⟨"(A b".toList, '.', [')'], [' '], by decide, by decide +kernel, by decide +kernel, by decide +kernel⟩
example : ¬ EndsSentence "A b".toList := by
  have hb : sentenceClass 'A' = .Upper ∧ sentenceClass ' ' = .Sp ∧ sentenceClass 'b' = .Lower := by decide +kernel
  rintro (⟨x, c, h, hc⟩ | ⟨x, c, y, z, h, hc, hy, hz⟩)
  · have hm : c = 'b' := by
      have := congrArg List.getLast? h
      simpa using this.symm
    subst hm
    simp [hb] at hc
  · have hm : c ∈ "A b".toList := by rw [h]; simp
    simp only [show "A b".toList = ['A', ' ', 'b'] from rfl, List.mem_cons, List.not_mem_nil, or_false] at hm
    rcases hm with rfl | rfl | rfl <;> simp [hb] at hc

end Uax29
