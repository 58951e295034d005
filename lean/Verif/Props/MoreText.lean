import Verif.Props.Append
import Verif.Props.Sync
import Verif.Props.JoinerGrammar
import Verif.Proofs.SettleRules
import Verif.Proofs.Replace
import Verif.Model.Chars
/-! # C107: more text may remove a boundary, but makes none -/
namespace Uax29
open Spec

/-- More text after a place does not make it a boundary. -/
def Growing {K : Type} (J : List K → List K → Bool) : Prop := ∀ l r t, r ≠ [] → J l r = true → J l (r ++ t) = true

theorem growing_words (ph : Bool) : Growing (joins ph) := by
  intro l r t hr h
  by_cases hl : l = []
  · subst hl
    cases r <;> simp [joins] at h
  rw [← Bool.not_eq_false]
  intro h0
  have := (joins_differ ph hl hr (l2 := t) (by rw [h0, h]; decide)).1
  rw [h] at this
  cases this

theorem growing_graphemes : Growing graphemeJoins := by
  intro l r t hr h
  obtain ⟨b, r, rfl⟩ := List.exists_cons_of_ne_nil hr
  cases l with
  | nil => simp [graphemeJoins] at h
  | cons a l => exact h

theorem growing_sentences : Growing sjoins := by
  intro l r t hr h
  obtain ⟨b, r, rfl⟩ := List.exists_cons_of_ne_nil hr
  cases l with
  | nil => simp [sjoins, sjoinsIf] at h
  | cons a l =>
    have hla : lowerAhead (b :: r) = true → lowerAhead (b :: r ++ t) = true := by
      unfold lowerAhead
      intro h
      rw [List.dropWhile_append]
      cases hd : (b :: r).dropWhile (!·.stops) with
      | nil => rw [hd] at h; simp at h
      | cons y q => rw [hd] at h; simpa using h
    simp only [sjoins, sjoinsIf, List.cons_append] at h ⊢
    split at h
    · rw [if_pos (by assumption)]
    rename_i h1
    rw [if_neg h1]
    split at h
    · cases h
    rename_i h2
    rw [if_neg h2]
    split at h
    · rw [if_pos (by assumption)]
    rename_i h3
    rw [if_neg h3]
    cases e : lowerAhead (b :: r) with
    | true =>
      have := hla e
      rw [List.cons_append] at this
      rw [this]
      rwa [e] at h
    | false =>
      rw [e] at h
      cases lowerAhead (b :: (r ++ t)) with
      | false => exact h
      | true => exact sunitJoins_ahead h

/-- Boundaries of the longer text that are within the shorter one are boundaries of it. -/
theorem Growing.boundary {K : Type} {J : List K → List K → Bool} (hJ : Growing J) {cl : Char → K} {F : Bytes → Res (List Bytes)}
    (h : ∀ s : List Char, ∃ ts : List (List Char), F (utf8 s) = .ok (ts.map utf8) ∧ ts.flatten = s ∧ (∀ t ∈ ts, t ≠ [])
      ∧ ∀ a b, s = a ++ b → (Boundary ts a ↔ breakOf J (a.map cl) (b.map cl) = true)) (s t : List Char) :
    ∃ ts us : List (List Char), F (utf8 s) = .ok (ts.map utf8) ∧ F (utf8 (s ++ t)) = .ok (us.map utf8)
      ∧ ∀ a, a <+: s → Boundary us a → Boundary ts a := by
  obtain ⟨ts, h1, -, -, h4⟩ := h s
  obtain ⟨us, k1, -, -, k4⟩ := h (s ++ t)
  refine ⟨ts, us, h1, k1, ?_⟩
  rintro a ⟨b, rfl⟩ hb
  rw [k4 a (b ++ t) (by rw [List.append_assoc])] at hb
  rw [h4 a b rfl]
  unfold breakOf at hb ⊢
  cases b with
  | nil => simp
  | cons c b =>
    cases a with
    | nil => simp
    | cons d a =>
      rw [← Bool.not_eq_false]
      intro h0
      simp only [List.map_cons, List.isEmpty_cons, Bool.false_or, Bool.not_eq_false', Bool.not_eq_true', List.map_append,
        List.cons_append] at hb h0
      have := hJ _ _ (t.map cl) (List.cons_ne_nil _ _) h0
      rw [List.cons_append, hb] at this
      cases this

/-- **C107** When text is appended, no boundary is made within the text before: each boundary of the longer text that is within the
shorter one is a boundary of that, too. -/
theorem C107_more (p : Pkg) (s t : List Char) :
    ∃ ts us : List (List Char), defaultTokens p (utf8 s) = .ok (ts.map utf8) ∧ defaultTokens p (utf8 (s ++ t)) = .ok (us.map utf8)
      ∧ ∀ a, a <+: s → Boundary us a → Boundary ts a := by
  cases p with
  | graphemes => exact growing_graphemes.boundary C08_conform s t
  | words => exact (growing_words false).boundary C09_conform s t
  | phrases => exact (growing_words true).boundary C11_conform s t
  | sentences => exact growing_sentences.boundary C10_conform s t

/-- C107 for words with middle joiners other than the blank. -/
theorem C107_middle (M : List Int) (hM : (0x20 : Int) ∉ M) (s t : List Char) :
    ∃ ts us : List (List Char), tokens .words (some ⟨some M, none⟩) (utf8 s) = .ok (ts.map utf8)
      ∧ tokens .words (some ⟨some M, none⟩) (utf8 (s ++ t)) = .ok (us.map utf8) ∧ ∀ a, a <+: s → Boundary us a → Boundary ts a :=
  (growing_words false).boundary (iterator_middle hM) s t

/-- **C107** Any bytes: a longer text has as many graphemes, and at most one word, phrase or sentence less. -/
theorem C107_count (p : Pkg) (a b : Bytes) (ts us : List Bytes) (h : defaultTokens p a = .ok ts)
    (h' : defaultTokens p (a ++ b) = .ok us) : ts.length + 1 ≤ us.length + unsettled p := by
  by_cases hn : unsettled p ≤ ts.length
  · obtain ⟨vs, h1, h2⟩ := C71_append p a b (ts.take (ts.length - unsettled p)) (ts.drop (ts.length - unsettled p))
      (by rw [List.take_append_drop, h]) (by rw [List.length_drop]; omega)
    rw [h'] at h2
    have e := Except.ok.inj h2
    have hv : vs ≠ [] := by
      rintro rfl
      have hne := (splitAdv_good p).segs_ne_nil a
      rw [default_segs] at h h1
      rw [Except.ok.inj h] at hne
      have := (splitAdv_good p).segs_flatten ((ts.drop (ts.length - unsettled p)).flatten ++ b)
      rw [Except.ok.inj h1, List.flatten_nil] at this
      have h0 := (List.append_eq_nil_iff.mp this.symm).1
      have hu : 0 < unsettled p := by cases p <;> decide
      cases hd : ts.drop (ts.length - unsettled p) with
      | nil =>
        have := congrArg List.length hd
        rw [List.length_drop, List.length_nil] at this
        omega
      | cons x l =>
        rw [hd, List.flatten_cons] at h0
        exact hne x (List.mem_of_mem_drop (hd ▸ List.mem_cons_self)) (List.append_eq_nil_iff.mp h0).1
    have := List.length_pos_iff.mpr hv
    rw [e, List.length_append, List.length_take]
    omega
  · have : us.length = 0 → ts.length = 0 := by
      intro h0
      have := List.length_eq_zero_iff.mp h0
      subst this
      rw [default_segs] at h h'
      have := (splitAdv_good p).segs_flatten (a ++ b)
      rw [Except.ok.inj h', List.flatten_nil] at this
      have ha := (List.append_eq_nil_iff.mp this.symm).1
      subst ha
      have hf := (splitAdv_good p).segs_flatten []
      have hne := (splitAdv_good p).segs_ne_nil []
      rw [Except.ok.inj h] at hf hne
      cases ts with
      | nil => rfl
      | cons x l => exact absurd (List.append_eq_nil_iff.mp hf).1 (hne x List.mem_cons_self)
    have hu : 0 < unsettled p := by cases p <;> decide
    omega

/-- Text before a text makes at most two words or phrases less of it, and one grapheme or sentence. -/
theorem C107_before (p : Pkg) (a b : Bytes) (hb : StartsFresh b) (hf : ¬ FlagFirst p b) (ts us : List Bytes)
    (h : defaultTokens p b = .ok ts) (h' : defaultTokens p (a ++ b) = .ok us) : ts.length ≤ us.length + unsynced p := by
  by_cases hn : unsynced p < ts.length
  · obtain ⟨vs, h1, h2⟩ := C73_sync p a b hb hf (ts.take (unsynced p + 1)) (ts.drop (unsynced p + 1))
      (by rw [List.take_append_drop, h]) (by rw [List.length_take]; omega)
    rw [h'] at h1
    have hv : vs ≠ [] := by
      rintro rfl
      have hne := (splitAdv_good p).segs_ne_nil b
      rw [default_segs] at h
      rw [Except.ok.inj h] at hne
      have h0 := (List.append_eq_nil_iff.mp h2.symm).2
      cases ts with
      | nil => simp at hn
      | cons x l =>
        rw [List.take_succ_cons, List.flatten_cons] at h0
        exact hne x List.mem_cons_self (List.append_eq_nil_iff.mp h0).1
    have := List.length_pos_iff.mpr hv
    rw [Except.ok.inj h1, List.length_append, List.length_drop]
    omega
  · omega

-- "a." has a boundary that "a.b" does not have, and one word more
example : defaultTokens .words (utf8 (chars "a.")) = .ok [utf8 (chars "a"), utf8 (chars ".")]
    ∧ defaultTokens .words (utf8 (chars "a.b")) = .ok [utf8 (chars "a.b")] := by decide +kernel
-- "Go. (" has a boundary that it does not have with a lower case letter after it
example : defaultTokens .sentences (utf8 (chars "Go. (")) = .ok [utf8 (chars "Go. "), utf8 (chars "(")]
    ∧ defaultTokens .sentences (utf8 (chars "Go. (on")) = .ok [utf8 (chars "Go. (on")] := by decide +kernel
-- text before a text may make a boundary in it: ") X" is one sentence, but not after "Go."
example : defaultTokens .sentences (utf8 (chars ") X")) = .ok [utf8 (chars ") X")]
    ∧ defaultTokens .sentences (utf8 (chars "Go.) X")) = .ok [utf8 (chars "Go.) "), utf8 (chars "X")] := by decide +kernel
-- two words less: three words of "\u0308'b" are one with "a" before it
example : defaultTokens .words (utf8 (chars "\u0308'b")) = .ok [utf8 (chars "\u0308"), utf8 (chars "'"), utf8 (chars "b")]
    ∧ defaultTokens .words (utf8 (chars "a\u0308'b")) = .ok [utf8 (chars "a\u0308'b")] := by decide +kernel

end Uax29
