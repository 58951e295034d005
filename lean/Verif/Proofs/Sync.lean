import Verif.Proofs.Settle
import Verif.Proofs.Pieces
import Verif.Proofs.Boundaries
/-! # Text before a text changes at most the first few boundaries -/
namespace Uax29
open Spec

variable {α : Type}

/-- If a boundary of `a ++ b` after `a` is none when `h` is before the text (nearest first), then `a` is
at most `n` segments. -/
def Syncs (n : Nat) (J : List α → List α → Bool) (h a b : List α) : Prop :=
  J a.reverse b = false → J (a.reverse ++ h) b = true →
    ∀ as : List (List α), as.flatten = a → (∀ x ∈ as, x ≠ []) →
      (∀ p q, as = p ++ q → p ≠ [] → q ≠ [] → J p.flatten.reverse (q.flatten ++ b) = false) → as.length ≤ n

/-- After more than `n` segments of `l2` there is also a boundary in `l1 ++ l2`. -/
theorem greedy_sync {P : α → Prop} {J : List α → List α → Bool} (hr : Restart P J) {n : Nat} {l1 l2 : List α}
    (h1 : ∀ x ∈ l1, P x) (h2 : ∀ x ∈ l2, P x) {gs gl : List (List α)} (hg : greedy J l2 = gs ++ gl) (hn : n < gs.length)
    (hs : Syncs n J l1.reverse gs.flatten gl.flatten) :
    Boundary (greedy J (l1 ++ l2)) (l1 ++ gs.flatten) := by
  have hfl : l2 = gs.flatten ++ gl.flatten := by
    have := greedy_flatten J l2
    rw [hg] at this
    simpa using this.symm
  have hne : ∀ x ∈ gs ++ gl, x ≠ [] := by
    intro x hx
    rw [← hg] at hx
    exact greedy_ne_nil J l2 x hx
  have hbd : ∀ p q, gs ++ gl = p ++ q → p ≠ [] → q ≠ [] → J p.flatten.reverse q.flatten = false := by
    intro p q hpq hp hq
    have hb := (greedy_boundary hr l2 h2 p.flatten q.flatten (by
      rw [hfl, ← List.flatten_append, ← List.flatten_append, hpq])).mp ⟨p.length, by rw [hg, hpq, List.take_left' rfl]⟩
    have hp' := flatten_ne_nil (ts := p) (fun t ht => hne t (by rw [hpq]; simp [ht])) hp
    have hq' := flatten_ne_nil (ts := q) (fun t ht => hne t (by rw [hpq]; simp [ht])) hq
    rcases hb with h | h | h
    · exact absurd h hp'
    · exact absurd h hq'
    · exact h
  rw [greedy_boundary hr (l1 ++ l2) (by
    intro x hx
    rcases List.mem_append.mp hx with h | h
    · exact h1 x h
    · exact h2 x h) (l1 ++ gs.flatten) gl.flatten (by rw [hfl, List.append_assoc])]
  by_cases hgl : gl = []
  · right; left; simp [hgl]
  have hgs : gs ≠ [] := by rintro rfl; simp at hn
  right; right
  rw [← Bool.not_eq_true]
  intro hj
  rw [List.reverse_append] at hj
  have := hs (hbd gs gl rfl hgs hgl) hj gs rfl (fun x hx => hne x (by simp [hx])) (by
    intro p q hpq hp hq
    rw [← List.flatten_append]
    exact hbd p (q ++ gl) (by rw [hpq, List.append_assoc]) hp (by simp [hq]))
  omega

theorem Restart.onChunks (cell : Nat × Bytes → Nat) {P : Nat → Prop} {J : List Nat → List Nat → Bool} (h : Restart P J) :
    Restart (fun x : Nat × Bytes => P (cell x)) (onChunks cell J) := by
  intro A B C hA hB pA pB pC hj
  have hm : ∀ l : List (Nat × Bytes), (∀ x ∈ l, P (cell x)) → ∀ x ∈ l.map cell, P x := by
    intro l hl x hx
    obtain ⟨y, hy, rfl⟩ := List.mem_map.mp hx
    exact hl y hy
  have := h (A.map cell) (B.map cell) (C.map cell) (by simpa using hA) (by simpa using hB)
    (hm A pA) (hm B pB) (hm C pC) (by simpa [Uax29.onChunks] using hj)
  simpa [Uax29.onChunks, List.map_reverse] using this

/-- `Syncs` goes over to a rule on images. -/
theorem Syncs.of_map {α β : Type} (f : α → β) {n : Nat} {J : List β → List β → Bool} {h a b : List α}
    (hs : Syncs n J (h.map f) (a.map f) (b.map f)) :
    Syncs n (fun l r => J (l.map f) (r.map f)) h a b := by
  intro h1 h2 as hfl hne hbd
  have := hs (by simpa [List.map_reverse] using h1) (by simpa [List.map_reverse] using h2) (as.map (·.map f))
    (by rw [← hfl, List.map_flatten]) (by
      intro x hx
      obtain ⟨y, hy, rfl⟩ := List.mem_map.mp hx
      simpa using hne y hy) (by
      intro p q hpq hp hq
      obtain ⟨p', q', rfl, rfl, rfl⟩ := List.map_eq_append_iff.mp hpq
      have := hbd p' q' rfl (by simpa using hp) (by simpa using hq)
      simpa [List.map_reverse, List.map_flatten] using this)
  simpa using this

/-- A text that does not begin with a continuation byte begins with a new entry, unless the text is very
short. -/
theorem Decodes.split {T : Trie} {a b : Bytes} {l : List (Nat × Bytes)} {t : Bytes}
    (h : Decodes T (a ++ b) l t) (h3 : 3 ≤ b.length) (hb : b.head?.any continuation = false) :
    ∃ l1 l2, l = l1 ++ l2 ∧ l1.flatMap (·.2) = a ∧ Decodes T b l2 t := by
  generalize hd : a ++ b = d at h
  induction h generalizing a with
  | nil =>
    simp at hd
    rw [hd.2] at h3; simp at h3
  | tail ne look =>
    cases a with
    | nil =>
      simp at hd
      subst hd
      exact ⟨[], [], rfl, rfl, .tail ne look⟩
    | cons x a =>
      exfalso
      subst hd
      rw [List.cons_append] at look
      have := lookup_width look
      split at this
      · rename_i hlt
        have : announced x ≤ 4 := by unfold announced; repeat' split <;> try omega
        simp at hlt
        omega
      · simp only [pieceLength] at this
        omega
  | @cons bs d t v l ne look val rest ih =>
    cases a with
    | nil =>
      simp at hd
      subst hd
      exact ⟨[], _, rfl, rfl, .cons ne look val rest⟩
    | cons x a =>
      rw [← hd, List.cons_append] at look
      have hw := lookup_width look
      rcases Nat.lt_or_ge (x :: a).length bs.length with hlt | hge
      · exfalso
        split at hw
        · simp at hlt; omega
        · have hlen : a.length < (((a ++ b).take (announced x - 1)).takeWhile continuation).length := by
            simp only [pieceLength] at hw
            simp at hlt
            omega
          obtain ⟨y, b, rfl⟩ := List.exists_cons_of_ne_nil (l := b) (by rintro rfl; simp at h3)
          have hy : y ∈ ((a ++ y :: b).take (announced x - 1)).takeWhile continuation := by
            have hp : ((a ++ y :: b).take (announced x - 1)).takeWhile continuation <+: a ++ y :: b :=
              (List.takeWhile_prefix _).trans (List.take_prefix _ _)
            have := hp.getElem hlen
            have e : (a ++ y :: b)[a.length]'(by simp) = y := by simp
            rw [e] at this
            have hm := List.getElem_mem hlen
            rwa [this] at hm
          have := List.all_eq_true.mp List.all_takeWhile y hy
          simp [this] at hb
      · obtain ⟨c, hc⟩ : ∃ c, x :: a = bs ++ c := by
          have : bs <+: x :: a := List.prefix_of_prefix_length_le (l₃ := bs ++ d) ⟨d, rfl⟩ ⟨b, hd⟩ hge
          obtain ⟨c, hc⟩ := this
          exact ⟨c, hc.symm⟩
        have hcd : c ++ b = d := by
          rw [hc, List.append_assoc] at hd
          exact List.append_cancel_left hd
        obtain ⟨l1, l2, rfl, h1, h2⟩ := ih hcd
        exact ⟨(v, bs) :: l1, l2, rfl, by rw [hc]; simp [h1], h2⟩

/-- After more than `n` tokens of `b` the tokens of `b` are the tokens of `a ++ b`. -/
theorem Follows.sync_cell {T : Trie} (hT : T.Wf) {cell : Nat × Bytes → Nat} {P : Nat → Prop}
    {J : Bool → List Nat → List Nat → Bool} {adv : Bytes → Nat} (h : Follows T cell cell J adv) (hg : GoodAdv adv)
    (hP : ∀ x : Nat × Bytes, T.IsValue x.1 → P (cell x)) (hr : ∀ cut, Restart P (J cut)) {n : Nat}
    {a b : Bytes} (hb : b.head?.any continuation = false)
    (hs : ∀ (c : Bool) (l1 l2 l3 : List (Nat × Bytes)) (t : Bytes), Decodes T b (l2 ++ l3) t → (∀ x ∈ l1, T.IsValue x.1) →
      Syncs n (onChunks cell (J c)) l1.reverse l2 l3)
    {ts tl : List Bytes} (hseg : segs adv b = ts ++ tl) (hn : n < ts.length) (hn2 : 2 ≤ ts.length) :
    ∃ us, segs adv (a ++ b) = us ++ tl ∧ us.flatten = a ++ ts.flatten := by
  have hfl := hg.segs_flatten b
  rw [hseg, List.flatten_append] at hfl
  by_cases htl : tl = []
  · subst htl
    exact ⟨segs adv (a ++ b), by simp, by rw [hg.segs_flatten, ← hfl]; simp⟩
  have hne : ∀ x ∈ ts ++ tl, x ≠ [] := by rw [← hseg]; exact hg.segs_ne_nil b
  have h3 : 3 ≤ b.length := by
    obtain ⟨t1, t2, ts, rfl⟩ : ∃ t1 t2 r, ts = t1 :: t2 :: r := by
      match ts, hn2 with
      | t1 :: t2 :: r, _ => exact ⟨t1, t2, r, rfl⟩
    obtain ⟨t3, tl, rfl⟩ := List.exists_cons_of_ne_nil htl
    have e1 := List.length_pos_iff.mpr (hne t1 (by simp))
    have e2 := List.length_pos_iff.mpr (hne t2 (by simp))
    have e3 := List.length_pos_iff.mpr (hne t3 (by simp))
    rw [← hfl]
    simp
    omega
  obtain ⟨l, t, hd⟩ := hT.decodes (a ++ b)
  obtain ⟨l1, l2, rfl, ha, hd2⟩ := hd.split h3 hb
  have hv := fun x hx => (hd.values x hx).1
  have e := h.segs_eq hg hd2
  rw [hseg] at e
  generalize hJ : onChunks cell (J (!t.isEmpty)) = J' at e
  have hG : greedy J' l2 ≠ [] := by
    intro h0
    rw [h0, glue] at e
    have h4 := List.length_pos_iff.mpr htl
    have := congrArg List.length e
    rw [List.length_append] at this
    split at this
    · rw [List.length_nil] at this; omega
    · rw [List.length_singleton] at this; omega
  have hlen : ts.length < (greedy J' l2).length := by
    have := glue_length (t := t) hG
    rw [← e] at this
    have h4 := List.length_pos_iff.mpr htl
    simp at this
    omega
  obtain ⟨gs, gl, hgg, hgsl⟩ : ∃ gs gl, greedy J' l2 = gs ++ gl ∧ gs.length = ts.length :=
    ⟨_, _, (List.take_append_drop ts.length _).symm, by simp; omega⟩
  have hgl : gl ≠ [] := by rintro rfl; rw [hgg] at hlen; simp at hlen; omega
  rw [hgg, glue_append (.inl hgl)] at e
  obtain ⟨e1, e2⟩ := List.append_inj e (by simp [hgsl])
  have hl2 : l2 = gs.flatten ++ gl.flatten := by
    have := greedy_flatten J' l2
    rw [hgg] at this
    simpa using this.symm
  have hbound : Boundary (greedy J' (l1 ++ l2)) (l1 ++ gs.flatten) := by
    rw [← hJ] at hgg ⊢
    refine greedy_sync ((hr _).onChunks cell) (fun x hx => hP x (hv x (by simp [hx]))) (fun x hx => hP x (hv x (by simp [hx]))) hgg (n := n) (by omega) ?_
    exact hs _ l1 _ _ t (hl2 ▸ hd2) fun x hx => hv x (by simp [hx])
  obtain ⟨k, hk⟩ := hbound
  have e3 := h.segs_eq hg hd
  rw [hJ, ← List.take_append_drop k (greedy J' (l1 ++ l2))] at e3
  have hrest : ((greedy J' (l1 ++ l2)).drop k).flatten = gl.flatten := by
    have := greedy_flatten J' (l1 ++ l2)
    rw [← List.take_append_drop k (greedy J' (l1 ++ l2)), List.flatten_append, hk] at this
    have h5 : l1 ++ l2 = l1 ++ gs.flatten ++ gl.flatten := by rw [List.append_assoc, ← hl2]
    exact List.append_cancel_left (this.trans h5)
  have hglf : gl.flatten ≠ [] := flatten_ne_nil (fun x hx => greedy_ne_nil J' l2 x (by rw [hgg]; simp [hx])) hgl
  have hne2 : (greedy J' (l1 ++ l2)).drop k ≠ [] := by
    intro h0
    rw [h0] at hrest
    exact hglf hrest.symm
  rw [glue_append (.inl hne2)] at e3
  have hus : (((greedy J' (l1 ++ l2)).take k).map (·.flatMap (·.2))).flatten = a ++ ts.flatten := by
    have hm : ∀ G : List (List (Nat × Bytes)), (G.map (·.flatMap (·.2))).flatten = G.flatten.flatMap (·.2) := by
      intro G
      induction G with
      | nil => rfl
      | cons g G ih => simp [ih]
    rw [hm, hk, List.flatMap_append, ha, e1, hm]
  refine ⟨_, ?_, hus⟩
  rw [e3]
  congr 1
  have r1 := hg.segs_resume (a ++ b) _ _ e3
  have r2 := hg.segs_resume b _ _ hseg
  rw [hus] at r1
  rw [← r1, ← r2, ← hfl]
  simp

/-- `Follows.sync_cell` for the properties as they are. -/
theorem Follows.sync {T : Trie} (hT : T.Wf) {J : Bool → List Nat → List Nat → Bool} {adv : Bytes → Nat}
    (h : Follows T Prod.fst Prod.fst J adv) (hg : GoodAdv adv) (hr : ∀ cut, Restart T.IsValue (J cut)) {n : Nat}
    {a b : Bytes} (hb : b.head?.any continuation = false)
    (hs : ∀ (c : Bool) (l1 l2 l3 : List (Nat × Bytes)) (t : Bytes), Decodes T b (l2 ++ l3) t → (∀ x ∈ l1, T.IsValue x.1) →
      Syncs n (onChunks Prod.fst (J c)) l1.reverse l2 l3)
    {ts tl : List Bytes} (hseg : segs adv b = ts ++ tl) (hn : n < ts.length) (hn2 : 2 ≤ ts.length) :
    ∃ us, segs adv (a ++ b) = us ++ tl ∧ us.flatten = a ++ ts.flatten :=
  h.sync_cell hT hg (fun _ hx => hx) hr hb hs hseg hn hn2

end Uax29
