import Verif.Spec.Complete
import Verif.Proofs.SettleJoiners
import Verif.Proofs.Pieces
/-! # A boundary divides a text -/
namespace Uax29
open Spec

/-- If the first token of a text stays when what is after it, or after a later token, is taken away, then
all tokens of a text before a boundary are those of the whole text. -/
theorem GoodAdv.divide {adv : Bytes → Nat} (hg : GoodAdv adv) {W : Bytes → Prop}
    (hW : ∀ a s, s <:+ a → W a → W s) (b : Bytes) (hk : ∀ a, a ≠ [] → W a → adv (a ++ b) ≤ a.length → adv a = adv (a ++ b)) :
    ∀ (ts : List Bytes) (a : Bytes) (tl : List Bytes), W a → segs adv (a ++ b) = ts ++ tl → ts.flatten = a → segs adv a = ts
  | [], a, tl, _, _, hf => by
    simp at hf
    subst hf
    exact segs_nil adv
  | t :: ts, a, tl, hw, h, hf => by
    by_cases hab : a ++ b = []
    · rw [hab, segs_nil] at h
      cases h
    have hpos := hg.pos _ hab
    have hle := hg.le _ hab
    rw [hg.segs_cons hab, List.cons_append, List.cons.injEq] at h
    obtain ⟨h1, h2⟩ := h
    have hlen : adv (a ++ b) ≤ a.length := by
      have := congrArg List.length h1
      rw [List.length_take, Nat.min_eq_left hle] at this
      have h3 := congrArg List.length hf
      rw [List.flatten_cons, List.length_append] at h3
      omega
    have ha : a ≠ [] := by
      intro h0
      rw [h0] at hlen hpos
      simp only [List.length_nil] at hlen
      omega
    have he := hk a ha hw hlen
    rw [List.take_append_of_le_length hlen] at h1
    rw [List.drop_append_of_le_length hlen] at h2
    rw [hg.segs_cons ha, he, h1, hg.divide hW b hk ts (a.drop (adv (a ++ b))) tl (hW _ _ (List.drop_suffix _ _) hw) h2]
    rw [← h1] at hf
    have := List.take_append_drop (adv (a ++ b)) a
    rw [List.flatten_cons] at hf
    exact List.append_cancel_left (hf.trans this.symm)

/-- A text that ends with a whole encoding is taken apart without rest. -/
theorem Spec.Pieces.complete {a t : Bytes} {ps : List Piece} (h : Pieces a ps t) (hw : Complete a) : t = [] := by
  induction h with
  | nil => rfl
  | cut short =>
    have := hw _ _ (List.suffix_refl _)
    omega
  | char c _ ih => exact ih fun b rest hs => hw b rest (hs.trans (List.suffix_append _ _))
  | bad _ _ _ _ ih => exact ih fun b rest hs => hw b rest (hs.trans (List.suffix_append _ _))

variable {α : Type}

/-- If `J`, when `l2` follows, does not decide as `J'` does in the text alone, then it joins all of what is
left of the text, and what follows. -/
def Firm (J J' : List α → List α → Bool) (l2 left right : List α) : Prop :=
  J left (right ++ l2) ≠ J' left right →
    ∀ i, i ≤ right.length → right.drop i ++ l2 ≠ [] → J ((right.take i).reverse ++ left) (right.drop i ++ l2) = true

theorem grow_firm {J J' : List α → List α → Bool} {l2 : List α} : ∀ {right left : List α}, left ≠ [] →
    (∀ l r, l ≠ [] → r ≠ [] → r <:+ right → Firm J J' l2 l r) → grow J left (right ++ l2) ≤ right.length →
    grow J left (right ++ l2) < (right ++ l2).length → grow J' left right = grow J left (right ++ l2)
  | [], left, _, _, h, _ => by
    simp at h
    simp [grow, h]
  | x :: right, left, hl, hf, h1, h2 => by
    have heq : J left (x :: right ++ l2) = J' left (x :: right) := by
      refine Decidable.byContradiction fun hne => ?_
      have hall := hf left (x :: right) hl (by simp) (List.suffix_refl _) hne
      have h3 := grow_stop h2
      generalize grow J left (x :: right ++ l2) = k at *
      rw [List.take_append_of_le_length h1, List.drop_append_of_le_length h1, hall k h1 (by
        rw [← List.drop_append_of_le_length h1]; simp only [ne_eq, List.drop_eq_nil_iff]; omega)] at h3
      cases h3
    rw [List.cons_append] at heq h1 h2 ⊢
    rw [grow, heq] at h1 h2
    rw [grow, grow, heq]
    cases hj : J' left (x :: right) with
    | false => simp
    | true =>
      rw [hj] at h1 h2
      simp only [if_true, List.length_cons] at h1 h2 ⊢
      rw [grow_firm (by simp) (fun l r h1 h2 h3 => hf l r h1 h2 (h3.trans (List.suffix_cons _ _))) (by omega) (by omega)]

theorem Firm.of_map {β : Type} (f : α → β) {J J' : List β → List β → Bool} {l2 left right : List α}
    (h : Firm J J' (l2.map f) (left.map f) (right.map f)) :
    Firm (fun l r => J (l.map f) (r.map f)) (fun l r => J' (l.map f) (r.map f)) l2 left right := by
  intro hne i hi hn
  simp only [List.map_append] at hne
  have := h hne i (by simpa using hi) (by
    rw [← List.map_drop, ← List.map_append]
    simpa using hn)
  simpa [List.map_reverse, List.map_take, List.map_drop] using this

namespace Spec

theorem joins_firm (ph : Bool) {l2 left right : List WSet} (hok : ∀ x ∈ right ++ l2, OkSet x) :
    Firm (joins ph) (joins ph) l2 left right := by
  intro hne
  have hl : left ≠ [] := by
    rintro rfl
    exact hne (by simp [joins])
  by_cases hr : right = []
  · subst hr
    intro i hi hn
    have hf : joins ph left [] = false := by cases left <;> rfl
    rw [hf] at hne
    simp at hi
    subst hi
    simpa using hne
  obtain ⟨h1, b, after, rfl, h2, hall⟩ := joins_differ ph hl hr hne
  have h3 : joins ph left (b :: after ++ l2) = true := by
    rw [h1] at hne
    simpa using hne
  intro i hi hn
  rcases Nat.eq_zero_or_pos i with rfl | hpos
  · simpa using h3
  obtain ⟨x, A, hx⟩ := List.exists_cons_of_ne_nil (l := ((b :: after).take i).reverse ++ left) (by simp; omega)
  obtain ⟨y, R, hy⟩ := List.exists_cons_of_ne_nil hn
  have hxn : x.newline = false := by
    have hxm : x ∈ (b :: after).take i := by
      rw [← List.mem_reverse]
      cases hrev : ((b :: after).take i).reverse with
      | nil => simp at hrev; omega
      | cons z q =>
        rw [hrev, List.cons_append, List.cons.injEq] at hx
        rw [hx.1]; exact List.mem_cons_self
    rcases List.mem_cons.mp (List.mem_of_mem_take hxm) with rfl | h
    · exact h2
    · exact (hok x (by simp [h])).ign (hall x h)
  have hyok : OkSet y := by
    apply hok
    have : y ∈ (b :: after).drop i ++ l2 := by rw [hy]; exact List.mem_cons_self
    rcases List.mem_append.mp this with h | h
    · exact List.mem_append_left _ (List.mem_of_mem_drop h)
    · exact List.mem_append_right _ h
  rcases Bool.eq_false_or_eq_true y.ignorable with hyi | hyi
  · rw [hx, hy]
    exact joins_ignored ph A R hxn (hyok.ign hyi) hyi
  -- what follows the text is not ignored
  have hi' : i = (b :: after).length := by
    rcases Nat.lt_or_ge i (b :: after).length with h | h
    · exfalso
      obtain ⟨k, rfl⟩ : ∃ k, i = k + 1 := ⟨i - 1, by omega⟩
      rw [List.drop_succ_cons] at hy
      obtain ⟨z, q, hz⟩ := List.exists_cons_of_ne_nil (l := after.drop k) (by simp at h ⊢; omega)
      rw [hz, List.cons_append, List.cons.injEq] at hy
      rw [← hy.1, hall z (List.mem_of_mem_drop (by rw [hz]; exact List.mem_cons_self))] at hyi
      cases hyi
    · omega
  subst hi'
  rw [List.drop_length, List.nil_append] at hy
  subst hy
  rw [List.drop_length, List.nil_append]
  rw [List.take_length] at hx ⊢
  obtain ⟨a, L, rfl⟩ := List.exists_cons_of_ne_nil hl
  -- the rule that looks ahead joins
  rw [List.cons_append] at h3
  simp only [joins] at h1 h3
  split at h3
  · rename_i c; simp [c] at h1
  rename_i c1
  rw [if_neg c1] at h1
  split at h3
  · cases h3
  rename_i c2
  rw [if_neg c2] at h1
  split at h3
  · rename_i c; simp [c] at h1
  rename_i c3
  rw [if_neg c3] at h1
  split at h3
  · rename_i c; simp [c] at h1
  rename_i c4
  rw [if_neg c4] at h1
  split at h3
  · rename_i c; simp [c] at h1
  rename_i c5
  rw [if_neg c5, dropWhile_nil_iff.mpr hall] at h1
  rw [List.dropWhile_append, dropWhile_nil_iff.mpr hall] at h3
  simp only [List.isEmpty_nil, if_true, List.dropWhile_cons, hyi, Bool.false_eq_true, if_false, List.head?_cons, List.head?_nil] at h1 h3
  have hu : units (x :: A) = b :: units (a :: L) := by
    rw [← hx, List.reverse_cons, List.append_assoc, List.singleton_append]
    rw [units_ignorable after.reverse (fun x hx => by
      rw [List.mem_reverse] at hx
      exact ⟨hall x hx, (hok x (by simp [hx])).ign (hall x hx)⟩) b (a :: L) h2]
    exact units_cons_solid (by simpa using c5) _
  rw [hx]
  have hcase : ((units (a :: L)).head?.any (·.ahLetter ph) && b.midLetter && y.ahLetter ph
      || (units (a :: L)).head?.any (· .HebrewLetter) && b .DoubleQuote && y .HebrewLetter
      || (units (a :: L)).head?.any (· .Numeric) && b.midNum && y .Numeric) = true := by
    simp only [unitJoins, Option.any_some, Option.any_none, Bool.and_false, Bool.or_false] at h1 h3
    simp only [Bool.or_eq_false_iff] at h1
    simp only [h1, Bool.false_or, Bool.or_false] at h3
    simpa [Bool.or_assoc] using h3
  have hyn : y.newline = false := by
    apply hyok.letter
    simp only [Bool.or_eq_true, Bool.and_eq_true] at hcase ⊢
    rcases hcase with (h | h) | h
    · left
      have := h.2
      revert this
      cases ph <;> simp [WSet.ahLetter] <;> grind
    · left; simp [WSet.ahLetter, h.2]
    · right; exact h.2
  apply joins_units ph A R hxn hyn
  rw [hu]
  simp only [unitJoins, List.head?_cons, List.tail_cons, Option.any_some]
  simp only [Bool.or_eq_true, Bool.and_eq_true] at hcase ⊢
  rcases hcase with (h | h) | h <;> simp [h.1.1, h.1.2, h.2]

theorem sjoinsIf_firm {l2 left right : List SB} (cut : Bool) :
    Firm (fun l r => sjoinsIf (lowerAheadCut cut r) l r) (fun l r => sjoinsIf (lowerAheadCut false r) l r) l2 left right := by
  intro hne
  dsimp only at hne ⊢
  match left, right with
  | [], _ => exact absurd (by simp [sjoinsIf]) hne
  | a :: L, [] =>
    intro i hi hn
    simp at hi
    subst hi
    have hf : ∀ b : Bool, sjoinsIf b (a :: L) [] = false := fun _ => rfl
    rw [hf] at hne
    simpa using hne
  | a :: L, b :: r =>
    have hends : endsCloseSp (· = .ATerm) (sunits (a :: L)) = true := by
      rw [← Bool.not_eq_false]
      intro h
      apply hne
      rw [sjoinsIf_ahead (b := lowerAheadCut false (b :: r)) h]
      rfl
    have hpara : a.paraSep = false := by
      rw [Bool.eq_false_iff]
      intro h
      simp [sjoinsIf, h] at hne
    have hstop : ∀ x ∈ b :: r, x.stops = false := by
      cases hd : (b :: r).dropWhile (!·.stops) with
      | nil => simpa using dropWhile_nil_iff.mp hd
      | cons y r' =>
        exfalso
        apply hne
        have hn : ∀ l, (b :: r ++ l).all (!·.stops) = false := by
          intro l
          rw [Bool.eq_false_iff]
          intro h
          rw [List.all_append, Bool.and_eq_true, List.all_eq_true] at h
          rw [dropWhile_nil_iff.mpr h.1] at hd
          cases hd
        have hn' := hn []
        rw [List.append_nil] at hn'
        simp only [lowerAheadCut, hn, hn', Bool.and_false, Bool.or_false, lowerAhead]
        rw [List.dropWhile_append, hd]
        rfl
    have hah : lowerAheadCut cut (b :: r ++ l2) = true := by
      rw [← Bool.not_eq_false]
      intro h
      apply hne
      have h0 : lowerAheadCut false (b :: r) = false := by
        have := lowerAheadCut_run false [] hstop
        rw [List.append_nil] at this
        rw [this]
        rfl
      rw [h, h0]
      rfl
    intro i hi hn
    obtain ⟨y, R, hy⟩ := List.exists_cons_of_ne_nil hn
    have h1 : lowerAheadCut cut ((b :: r).drop i ++ l2) = true := by
      rw [← List.take_append_drop i (b :: r), List.append_assoc, lowerAheadCut_run] at hah
      · exact hah
      · intro x hx; exact hstop x (List.mem_of_mem_take hx)
    rw [h1, hy]
    exact sjoinsIf_run (by simp) (by intro x hx; simp at hx; exact hx ▸ hpara) hends
      (fun x hx => hstop x (List.mem_of_mem_take (List.mem_reverse.mp hx))) y R

theorem graphemeJoins_firm {l2 left right : List GSet} (hright : right ≠ []) :
    Firm graphemeJoins graphemeJoins l2 left right := by
  intro hne
  obtain ⟨b, r, rfl⟩ := List.exists_cons_of_ne_nil hright
  exact absurd (by cases left <;> rfl) hne

end Spec

theorem Words.firm {l2 left right : List Nat} (hv : ∀ x ∈ right ++ l2, trie.IsValue x) : Firm J J l2 left right := by
  apply Firm.of_map (J := joins false) (J' := joins false)
  apply joins_firm
  rw [← List.map_append]
  intro x hx
  obtain ⟨v, hv', rfl⟩ := List.mem_map.mp hx
  exact OkSet.of_goodCell (okValue.all (P := fun v => goodCell v = true) (by decide +kernel) (okValue_of (hv v hv')))

theorem Phrases.firm {l2 left right : List Nat} (hv : ∀ x ∈ right ++ l2, trie.IsValue x) : Firm J J l2 left right := by
  apply Firm.of_map (J := joins true) (J' := joins true)
  apply joins_firm
  rw [← List.map_append]
  intro x hx
  obtain ⟨v, hv', rfl⟩ := List.mem_map.mp hx
  exact OkSet.of_goodCell (value_good (hv v hv'))

theorem Sentences.firm {l2 left right : List Nat} (c : Bool) : Firm (J c) (J false) l2 left right :=
  Firm.of_map sclass (J := fun l r => sjoinsIf (lowerAheadCut c r) l r)
    (J' := fun l r => sjoinsIf (lowerAheadCut false r) l r) (sjoinsIf_firm c)

theorem Graphemes.firm {l2 left right : List Nat} (hright : right ≠ []) : Firm J J l2 left right :=
  Firm.of_map gset (J := graphemeJoins) (J' := graphemeJoins) (graphemeJoins_firm (by simpa using hright))

/-- If the first token is found by counting chunks, and the count stays when chunks after the token are
taken away, then the first token stays. -/
theorem divide_adv {T : Trie} (hT : T.Wf) (hs : T.Strict) {adv : Bytes → Nat} (fc : Bool → List (Nat × Bytes) → Nat)
    (hadv : ∀ d l t, d ≠ [] → Decodes T d l t → adv d = (bytesOf (l.take (fc (!t.isEmpty) l))).length
      + if fc (!t.isEmpty) l = l.length then t.length else 0)
    (hle : ∀ c l, fc c l ≤ l.length)
    (hfc : ∀ c l1 l2, l1 ≠ [] → (∀ x ∈ l1 ++ l2, T.IsValue x.1) → fc c (l1 ++ l2) ≤ l1.length →
      fc c (l1 ++ l2) < (l1 ++ l2).length → fc false l1 = fc c (l1 ++ l2))
    {a b : Bytes} (ha : a ≠ []) (hw : Complete a) (h : adv (a ++ b) ≤ a.length) : adv a = adv (a ++ b) := by
  obtain ⟨l1, t1, h1⟩ := hT.decodes a
  have ht1 : t1 = [] := by
    obtain ⟨ps, hp, -⟩ := h1.pieces hT hs
    exact hp.complete hw
  subst ht1
  obtain ⟨l2, t, h2⟩ := hT.decodes b
  have h12 := h1.append (b := b) h2
  by_cases hb : b = []
  · rw [hb, List.append_nil]
  have hab : a ++ b ≠ [] := by simp [ha]
  have f1 := h1.flatten
  have f2 := h12.flatten
  have e1 := hadv _ _ _ ha h1
  have e2 := hadv _ _ _ hab h12
  have hl1 : l1 ≠ [] := by
    rintro rfl
    simp at f1
    exact ha f1
  have hne : ∀ x ∈ l1 ++ l2, x.2 ≠ [] := fun x hx => (h12.values x hx).2
  have hlt : fc (!t.isEmpty) (l1 ++ l2) < (l1 ++ l2).length := by
    rcases Nat.lt_or_ge (fc (!t.isEmpty) (l1 ++ l2)) (l1 ++ l2).length with h | hge
    · exact h
    · exfalso
      have := hle (!t.isEmpty) (l1 ++ l2)
      rw [if_pos (by omega), List.take_of_length_le hge, ← List.length_append] at e2
      have f3 := congrArg List.length f2
      have hb' := List.length_pos_iff.mpr hb
      rw [List.length_append (as := a)] at f3
      simp only [bytesOf] at e2
      omega
  have hle1 : fc (!t.isEmpty) (l1 ++ l2) ≤ l1.length := by
    rcases Nat.lt_or_ge l1.length (fc (!t.isEmpty) (l1 ++ l2)) with hgt | h
    · exfalso
      rw [if_neg (by omega), Nat.add_zero] at e2
      obtain ⟨k, hk⟩ : ∃ k, fc (!t.isEmpty) (l1 ++ l2) = l1.length + (k + 1) :=
        ⟨fc (!t.isEmpty) (l1 ++ l2) - l1.length - 1, by omega⟩
      rw [hk, List.take_length_add_append] at e2
      obtain ⟨x, r, rfl⟩ := List.exists_cons_of_ne_nil (l := l2) (by
        rintro rfl
        rw [hk, List.append_nil] at hlt
        omega)
      have := List.length_pos_iff.mpr (hne x (by simp))
      have f3 := congrArg List.length f1
      simp [bytesOf] at e2 f3
      omega
    · exact h
  have hf := hfc _ l1 l2 hl1 (fun x hx => (h12.values x hx).1) hle1 hlt
  simp only [List.isEmpty_nil, Bool.not_true, List.length_nil, ite_self, Nat.add_zero] at e1
  rw [e1, e2, hf, if_neg (by omega), Nat.add_zero, List.take_append_of_le_length hle1]

namespace Words

theorem okSet_firm {l2 left right : List Nat}
    (hv : ∀ x ∈ right ++ l2, OkSet (wset x)) : Firm J J l2 left right := by
  apply Firm.of_map (J := joins false) (J' := joins false)
  apply joins_firm
  rw [← List.map_append]
  intro x hx
  obtain ⟨v, hv', rfl⟩ := List.mem_map.mp hx
  exact hv v hv'

/-- What is after a boundary has no influence on the first word, with joiners as well. -/
theorem joiners_divide (j : Option Joiners) {a b : Bytes} (ha : a ≠ []) (hw : Complete a)
    (h : splitAdv (joinersSplitFunc j) (a ++ b) ≤ a.length) :
    splitAdv (joinersSplitFunc j) a = splitAdv (joinersSplitFunc j) (a ++ b) := by
  refine divide_adv wf strict (fun _ => firstCells (j.bind (·.middle)) (j.bind (·.leading)))
    (fun d l t hd hdec => adv_cells j hd hdec) ?_ ?_ ha hw h
  · intro _ l
    cases l with
    | nil => simp [firstCells]
    | cons x r =>
      have := grow_le J [startCell (j.bind (·.leading)) x r] (r.map (joinCell (j.bind (·.middle)) _MidNumLet))
      simp only [firstCells, List.length_cons, List.length_map] at this ⊢
      omega
  · intro _ l1 l2 hl1 hv h1 h2
    generalize j.bind (·.middle) = M at *
    generalize j.bind (·.leading) = L at *
    obtain ⟨x, r, rfl⟩ := List.exists_cons_of_ne_nil hl1
    by_cases hr : r = []
    · subst hr
      simp only [List.cons_append, firstCells, List.length_cons, List.length_nil, List.map_nil, grow] at h1 ⊢
      omega
    have hst : startCell L x (r ++ l2) = startCell L x r := by
      obtain ⟨y, r, rfl⟩ := List.exists_cons_of_ne_nil hr
      rfl
    simp only [List.cons_append, firstCells, hst, List.map_append, List.length_cons] at h1 h2 ⊢
    rw [grow_firm (J := J) (l2 := l2.map (joinCell M _MidNumLet)) (by simp) ?_ (by simp only [List.length_map]; omega)
      (by simp only [List.length_append, List.length_map] at h2 ⊢; omega)]
    intro l' r' h3 h4 h5
    apply okSet_firm
    intro z hz
    have : z ∈ (r ++ l2).map (joinCell M _MidNumLet) := by
      rw [List.map_append]
      rcases List.mem_append.mp hz with h | h
      · exact List.mem_append_left _ (h5.subset h)
      · exact List.mem_append_right _ h
    obtain ⟨w, hw, rfl⟩ := List.mem_map.mp this
    exact OkSet.of_goodCell (middle_good (hv w (List.mem_cons_of_mem _ hw)))

end Words
end Uax29
