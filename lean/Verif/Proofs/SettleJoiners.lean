import Verif.Proofs.SettleRules
import Verif.Proofs.JoinersExact
/-! # Text after a text: words with joiners -/
namespace Uax29
open Spec

/-- If more text changes the first token only when what is after it is one token, then it changes at
most the last two. -/
theorem GoodAdv.settle {adv : Bytes → Nat} (hg : GoodAdv adv) (b : Bytes)
    (h : ∀ a, a ≠ [] → adv a < a.length → adv (a ++ b) ≠ adv a → adv (a.drop (adv a)) = (a.drop (adv a)).length) (a : Bytes) :
    ∃ ts tl, segs adv a = ts ++ tl ∧ tl.length ≤ 2 ∧ segs adv (a ++ b) = ts ++ segs adv (tl.flatten ++ b) := by
  induction a using hg.induction with
  | hnil => exact ⟨[], [], by simp [segs_nil], by simp, by simp⟩
  | hcons a ha ih =>
    have hle := hg.le a ha
    rcases Nat.lt_or_ge (adv a) a.length with hlt | hge
    · have hr : a.drop (adv a) ≠ [] := by simp; omega
      by_cases heq : adv (a ++ b) = adv a
      · obtain ⟨ts, tl, e1, e2, e3⟩ := ih
        refine ⟨a.take (adv a) :: ts, tl, ?_, e2, ?_⟩
        · rw [hg.segs_cons ha, e1]; rfl
        · rw [hg.segs_cons (by simp [ha]), heq, List.take_append_of_le_length hle, List.drop_append_of_le_length hle, e3]
          rfl
      · refine ⟨[], segs adv a, rfl, ?_, ?_⟩
        · rw [hg.segs_cons ha, hg.segs_cons hr, h a ha hlt heq, List.drop_length, segs_nil]
          simp
        · rw [hg.segs_flatten]; rfl
    · refine ⟨[], segs adv a, rfl, ?_, ?_⟩
      · rw [hg.segs_cons ha, List.drop_of_length_le hge, segs_nil]
        simp
      · rw [hg.segs_flatten]; rfl

/-- If more text changes how far `grow` gets, then it changes the decision where it stopped. -/
theorem grow_differ {α : Type} {J : List α → List α → Bool} (l2 : List α)
    (hJ : ∀ left right, left ≠ [] → right ≠ [] → J left (right ++ l2) ≠ J left right → J left right = false) :
    ∀ (right left : List α), left ≠ [] → grow J left right < right.length →
    grow J left (right ++ l2) ≠ grow J left right →
    J ((right.take (grow J left right)).reverse ++ left) (right.drop (grow J left right) ++ l2)
      ≠ J ((right.take (grow J left right)).reverse ++ left) (right.drop (grow J left right))
  | [], left, _, h, _ => by simp [grow] at h
  | x :: right, left, hl, h, hne => by
    cases hj : J left (x :: right) with
    | false =>
      have hg : grow J left (x :: right) = 0 := by simp [grow, hj]
      rw [hg] at hne ⊢
      simp only [List.take_zero, List.reverse_nil, List.nil_append, List.drop_zero, List.cons_append, hj]
      intro h0
      apply hne
      rw [List.cons_append, grow, h0]
      simp
    | true =>
      have hj2 : J left (x :: (right ++ l2)) = true := by
        rw [← Bool.not_eq_false]
        intro h0
        have := hJ left (x :: right) hl (by simp) (by rw [List.cons_append, h0, hj]; simp)
        rw [hj] at this; cases this
      have hg : grow J left (x :: right) = 1 + grow J (x :: left) right := by simp [grow, hj]
      have := grow_differ l2 hJ right (x :: left) (by simp) (by rw [hg] at h; simp at h; omega) (by
        rw [hg, List.cons_append, grow, hj2] at hne
        simp at hne
        omega)
      rw [hg, Nat.add_comm 1]
      simpa using this

namespace Words

/-- The number of chunks of the first token. -/
def firstCells (mid lead : Option (List Int)) : List (Nat × Bytes) → Nat
  | [] => 0
  | x :: l => 1 + grow J [startCell lead x l] (l.map (joinCell mid _MidNumLet))

theorem adv_cells (j : Option Joiners) {d t : Bytes} {l : List (Nat × Bytes)} (hd : d ≠ []) (h : Decodes trie d l t) :
    splitAdv (joinersSplitFunc j) d
      = (bytesOf (l.take (firstCells (j.bind (·.middle)) (j.bind (·.leading)) l))).length
        + if firstCells (j.bind (·.middle)) (j.bind (·.leading)) l = l.length then t.length else 0 := by
  obtain ⟨ps, hp, rfl⟩ := h.pieces wf strict
  have := adv_pieces j hd hp
  have e : firstPieces (j.bind (·.middle)) (j.bind (·.leading)) ps
      = firstCells (j.bind (·.middle)) (j.bind (·.leading)) (ps.map trie.pieceChunk) := by
    cases ps with
    | nil => rfl
    | cons p ps => simp [firstPieces, firstCells, Function.comp_def]
  rw [e] at this
  rw [this, List.length_map]
  simp [bytesOf, ← List.map_take, List.flatMap_map, Trie.pieceChunk]

theorem newline_middle (mid : Option (List Int)) (x : Nat × Bytes) :
    (wset (joinCell mid _MidNumLet x)).newline = (wset x.1).newline := by
  rcases joinCell_cases mid _MidNumLet x with h | h <;> rw [h]
  have e1 : wset _MidNumLet .Newline = false := by decide
  have e2 : wset _MidNumLet .CR = false := by decide
  have e3 : wset _MidNumLet .LF = false := by decide
  simp [WSet.newline, wset_or, e1, e2, e3]

theorem newline_start {lead : Option (List Int)} {x : Nat × Bytes} (l : List (Nat × Bytes))
    (h : (wset x.1).newline = false) : (wset (startCell lead x l)).newline = false := by
  have hn : is x.1 _NL = false := by
    rw [← h]; simp [_NL, is_or, WSet.newline, wset, wbBit]
  have e : ∀ g, wset _AHLetter g = (g == .ALetter || g == .HebrewLetter) := by intro g; cases g <;> decide
  unfold startCell
  split
  · exact h
  split
  · exact h
  rw [hn]
  simp only [Bool.false_eq_true, if_false]
  simp only [WSet.newline, wset_or, e, Bool.or_eq_false_iff] at h ⊢
  simp [h]

/-- If more text changes the first word, then nothing but one character and ignored ones is after it. -/
theorem joiners_settle (j : Option Joiners) (a b : Bytes) (ha : a ≠ [])
    (hlt : splitAdv (joinersSplitFunc j) a < a.length)
    (hne : splitAdv (joinersSplitFunc j) (a ++ b) ≠ splitAdv (joinersSplitFunc j) a) :
    ∃ x l t, Decodes trie (a.drop (splitAdv (joinersSplitFunc j) a)) (x :: l) t ∧ (∀ y ∈ l, is y.1 _Ignore = true)
      ∧ splitAdv (joinersSplitFunc j) (a.drop (splitAdv (joinersSplitFunc j) a))
        = (a.drop (splitAdv (joinersSplitFunc j) a)).length := by
  obtain ⟨l, t, hd⟩ := wf.decodes a
  obtain ⟨l2, t2, hd2⟩ := wf.decodes (t ++ b)
  have hadv := adv_cells j ha hd
  have hadv2 := adv_cells j (d := a ++ b) (by simp [ha]) (hd.append hd2)
  have hflat := hd.flatten
  generalize hM : j.bind (·.middle) = M at *
  generalize hL : j.bind (·.leading) = L at *
  have hn : firstCells M L l < l.length := by
    have hle : firstCells M L l ≤ l.length := by
      cases l with
      | nil => simp [firstCells]
      | cons x r =>
        have := grow_le J [startCell L x r] (r.map (joinCell M _MidNumLet))
        simp [firstCells] at this ⊢
        omega
    rcases Nat.lt_or_ge (firstCells M L l) l.length with h | h
    · exact h
    · exfalso
      rw [if_pos (by omega), List.take_of_length_le h] at hadv
      have : (bytesOf l).length + t.length = a.length := by rw [← hflat]; simp [bytesOf]
      omega
  rw [if_neg (by omega), Nat.add_zero] at hadv
  obtain ⟨x, r, rfl⟩ := List.exists_cons_of_ne_nil (l := l) (by rintro rfl; simp at hn)
  obtain ⟨y, r', hr⟩ := List.exists_cons_of_ne_nil (l := r) (by rintro rfl; simp [firstCells] at hn)
  generalize hk : grow J [startCell L x r] (r.map (joinCell M _MidNumLet)) = k
  have hfc : firstCells M L (x :: r) = k + 1 := by rw [← hk, firstCells]; omega
  have hkr : k < r.length := by rw [hfc] at hn; simpa using hn
  have hst : startCell L x (r ++ l2) = startCell L x r := by
    rw [hr]; rfl
  have hgne : grow J [startCell L x r] (r.map (joinCell M _MidNumLet) ++ l2.map (joinCell M _MidNumLet)) ≠ k := by
    intro h0
    apply hne
    have : firstCells M L (x :: r ++ l2) = k + 1 := by
      rw [List.cons_append, firstCells, hst, List.map_append, h0]; omega
    rw [hadv, hadv2, this, hfc, if_neg (by simp; omega), Nat.add_zero, List.take_append_of_le_length (by simp; omega)]
  have hdiff := grow_differ (J := J) (l2.map (joinCell M _MidNumLet)) (by
      intro left right h1 h2 h3
      unfold J at h3 ⊢
      rw [List.map_append] at h3
      exact (joins_differ false (by simpa using h1) (by simpa using h2) h3).1)
    (r.map (joinCell M _MidNumLet)) [startCell L x r] (by simp) (by rw [hk]; simpa using hkr) (by rw [hk]; exact hgne)
  rw [hk] at hdiff
  unfold J at hdiff
  rw [List.map_append (l₁ := List.drop k _)] at hdiff
  obtain ⟨-, b', after, hb, hbn, hall⟩ := joins_differ false (by simp) (by simp; omega) hdiff
  obtain ⟨z, q, hz⟩ := List.exists_cons_of_ne_nil (l := r.drop k) (by simp; omega)
  rw [← List.map_drop, hz, List.map_cons, List.map_cons, List.cons.injEq] at hb
  obtain ⟨rfl, rfl⟩ := hb
  have hign : ∀ y ∈ q, is y.1 _Ignore = true := by
    intro y hy
    rw [← (middle_cellOk M).ign y, is_ignore]
    exact hall _ (List.mem_map.mpr ⟨_, List.mem_map.mpr ⟨y, hy, rfl⟩, rfl⟩)
  have hval : ∀ y ∈ q, trie.IsValue y.1 := by
    intro y hy
    have : y ∈ r.drop k := by rw [hz]; exact List.mem_cons_of_mem _ hy
    exact (hd.values y (List.mem_cons_of_mem _ (List.mem_of_mem_drop this))).1
  have hrest := hd.drop (k + 1) (by simp; omega)
  rw [show (x :: r).drop (k + 1) = z :: q from hz] at hrest
  have hpos : a.drop (splitAdv (joinersSplitFunc j) a) = a.drop ((((x :: r).take (k + 1)).flatMap (·.2)).length) := by
    rw [hadv, hfc]; rfl
  rw [hpos]
  refine ⟨z, q, t, hrest, hign, ?_⟩
  have hfull : firstCells M L (z :: q) = (z :: q).length := by
    have : grow J [startCell L z q] (q.map (joinCell M _MidNumLet)) = q.length := by
      have hgr := grow_append (J := J) (a := q.map (joinCell M _MidNumLet)) (b := []) (left := [startCell L z q]) (by
        intro i hi
        rw [List.append_nil]
        obtain ⟨w, A, hw⟩ := List.exists_cons_of_ne_nil
          (l := (((q.map (joinCell M _MidNumLet)).take i).reverse ++ [startCell L z q])) (by simp)
        obtain ⟨u, R, hu⟩ := List.exists_cons_of_ne_nil (l := (q.map (joinCell M _MidNumLet)).drop i) (by
          simp at hi ⊢; omega)
        have inq : ∀ v ∈ q.map (joinCell M _MidNumLet), (wset v).ignorable = true ∧ (wset v).newline = false := by
          intro v hv
          obtain ⟨y, hy, rfl⟩ := List.mem_map.mp hv
          have h1 : (wset (joinCell M _MidNumLet y)).ignorable = true := by
            rw [← is_ignore, (middle_cellOk M).ign]; exact hign y hy
          exact ⟨h1, (OkSet.of_goodCell (middle_good (hval y hy))).ign h1⟩
        have hwn : (wset w).newline = false := by
          have : w ∈ ((q.map (joinCell M _MidNumLet)).take i).reverse ++ [startCell L z q] := by
            rw [hw]; exact List.mem_cons_self
          rcases List.mem_append.mp this with h | h
          · exact (inq w (List.mem_of_mem_take (List.mem_reverse.mp h))).2
          · rw [List.mem_singleton.mp h]
            exact newline_start q (by rw [← newline_middle M]; exact hbn)
        have hui := inq u (List.mem_of_mem_drop (hu ▸ List.mem_cons_self))
        rw [hw, hu, J, List.map_cons, List.map_cons]
        exact joins_ignored false _ _ hwn hui.2 hui.1)
      rw [List.append_nil] at hgr
      rw [hgr]
      simp [grow]
    rw [firstCells, this, List.length_cons]; omega
  have hne' : a.drop ((((x :: r).take (k + 1)).flatMap (·.2)).length) ≠ [] := by
    rw [← hpos]; simp; omega
  have := adv_cells j hne' hrest
  rw [hM, hL, hfull, if_pos rfl, List.take_length] at this
  rw [this]
  have := congrArg List.length hrest.flatten
  rw [List.length_append] at this
  exact this

end Words
end Uax29
