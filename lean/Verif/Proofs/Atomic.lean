import Verif.Proofs.Conform
/-! # A token alone is segmented into itself -/
namespace Uax29
open Spec

/-- The rules do not need what is after the token: if the positions of `right` up to `k` are joined and
there is a boundary then, a position is also joined when only `m` of these are there. Either these are
all, or the others are lost in an incomplete encoding; then the first of them had no properties. -/
def Local (P : Nat → Prop) (J : Bool → List Nat → List Nat → Bool) : Prop :=
  ∀ (e : Bool) (left right : List Nat) (m : Nat), left ≠ [] → (∀ x ∈ left, P x) → (∀ x ∈ right, P x) →
    grow (J e) left right < right.length → 0 < m → m ≤ grow (J e) left right →
    (m < grow (J e) left right → right[m]? = some 0) →
    J (decide (m < grow (J e) left right)) left (right.take m) = true

theorem Local.grow_take {P : Nat → Prop} {J : Bool → List Nat → List Nat → Bool} (h : Local P J) (e : Bool) :
    ∀ (m : Nat) (left right : List Nat), left ≠ [] → (∀ x ∈ left, P x) → (∀ x ∈ right, P x) →
    grow (J e) left right < right.length → m ≤ grow (J e) left right →
    (m < grow (J e) left right → right[m]? = some 0) →
    grow (J (decide (m < grow (J e) left right))) left (right.take m) = m
  | 0, left, right, _, _, _, _, _, _ => by simp [grow]
  | m + 1, left, [], _, _, _, h1, _, _ => by simp [grow] at h1
  | m + 1, left, b :: right, hne, hl, hr, h1, h2, h3 => by
    have h0 := h e left (b :: right) (m + 1) hne hl hr h1 (by omega) h2 h3
    have hj : J e left (b :: right) = true := by
      cases hj : J e left (b :: right)
      · simp [grow, hj] at h2
      · rfl
    have hk : grow (J e) left (b :: right) = 1 + grow (J e) (b :: left) right := by simp [grow, hj]
    rw [hk] at h0 h1 h2 h3 ⊢
    rw [List.take_succ_cons] at h0 ⊢
    have ih := h.grow_take e m (b :: left) right (by simp)
      (by
        intro x hx
        rcases List.mem_cons.mp hx with rfl | hx
        · exact hr _ List.mem_cons_self
        · exact hl x hx)
      (fun x hx => hr x (List.mem_cons_of_mem _ hx)) (by simp at h1; omega) (by omega)
      (by
        intro hm
        have := h3 (by omega)
        simpa using this)
    have hd : decide (m + 1 < 1 + grow (J e) (b :: left) right) = decide (m < grow (J e) (b :: left) right) := by
      simp only [decide_eq_decide]; omega
    rw [hd] at h0 ⊢
    simp only [grow, h0, if_true, ih]
    omega

/-- Looking up less than the whole text gives the same, or finds an incomplete encoding. -/
theorem Trie.lookup_prefix {T : Trie} (hT : T.Wf) {p q : Bytes} {v w : Nat} (h : T.lookup (p ++ q) = .ok (v, w))
    (hp : p ≠ []) (hw : w ≤ p.length) : T.lookup p = .ok (v, w) ∨ (T.lookup p = .ok (0, 0) ∧ (w ≠ 0 → v = 0)) := by
  obtain ⟨v', w', h1, _, _, _⟩ := hT.lookup_ok hp
  by_cases hw' : w' = 0
  · subst hw'
    right
    have hv' : v' = 0 := by
      match p, h1 with
      | [], h1 => exact absurd rfl hp
      | b0 :: t0, h1 =>
        simp only [Trie.lookup] at h1
        repeat' split at h1
        all_goals first | (cases h1; rfl) | (cases h1)
    subst hv'
    refine ⟨h1, ?_⟩
    intro hw0
    match p, h1, hw with
    | [], h1, _ => exact absurd rfl hp
    | b0 :: t0, h1, hw =>
      simp only [List.cons_append, Trie.lookup] at h1 h
      by_cases c1 : b0.toNat < 0x80
      · simp only [c1, if_true] at h1
        split at h1 <;> cases h1
      simp only [c1, if_false] at h1 h
      by_cases c2 : b0.toNat < 0xC2
      · simp only [c2, if_true] at h1; cases h1
      simp only [c2, if_false] at h1 h
      by_cases c3 : b0.toNat < 0xE0
      · simp only [c3, if_true] at h1 h
        match t0, h1, hw, h with
        | [], _, hw, h =>
          simp only [List.length_cons, List.length_nil] at hw
          repeat' split at h
          all_goals (simp at h; try omega)
        | b1 :: t, h1, _, _ =>
          repeat' split at h1
          all_goals cases h1
      simp only [c3, if_false] at h1 h
      by_cases c4 : b0.toNat < 0xF0
      · simp only [c4, if_true] at h1 h
        match t0, h1, hw, h with
        | [], _, hw, h =>
          simp only [List.length_cons, List.length_nil] at hw
          repeat' split at h
          all_goals (simp at h; try omega)
        | [b1], _, hw, h =>
          simp only [List.length_cons, List.length_nil] at hw
          repeat' split at h
          all_goals (simp at h; try omega)
        | b1 :: b2 :: t, h1, _, _ =>
          repeat' split at h1
          all_goals cases h1
      simp only [c4, if_false] at h1 h
      by_cases c5 : b0.toNat < 0xF8
      · simp only [c5, if_true] at h1 h
        match t0, h1, hw, h with
        | [], _, hw, h =>
          simp only [List.length_cons, List.length_nil] at hw
          repeat' split at h
          all_goals (simp at h; try omega)
        | [b1], _, hw, h =>
          simp only [List.length_cons, List.length_nil] at hw
          repeat' split at h
          all_goals (simp at h; try omega)
        | [b1, b2], _, hw, h =>
          simp only [List.length_cons, List.length_nil] at hw
          repeat' split at h
          all_goals (simp at h; try omega)
        | b1 :: b2 :: b3 :: t, h1, _, _ =>
          repeat' split at h1
          all_goals cases h1
      simp only [c5, if_false] at h1
      cases h1
  · have := Trie.lookup_append h1 hw' q
    rw [h] at this
    cases this
    exact .inl h1

/-- The first chunks of a text alone: the same chunks, except that some last ones may be left as an
incomplete encoding; the first of these has no properties. -/
theorem Decodes.prefix {T : Trie} (hT : T.Wf) {d t : Bytes} {l : List (Nat × Bytes)} (h : Decodes T d l t) :
    ∀ n, n ≤ l.length → ∃ m ≤ n, Decodes T (bytesOf (l.take n)) (l.take m) (bytesOf ((l.take n).drop m))
      ∧ (m < n → (l.map Prod.fst)[m]? = some 0) := by
  induction h with
  | nil => intro n hn; exact ⟨0, by omega, by simpa [bytesOf] using Decodes.nil, by simp at hn; omega⟩
  | tail ne look => intro n hn; exact ⟨0, by omega, by simpa [bytesOf] using Decodes.nil, by simp at hn; omega⟩
  | @cons bs d t v l ne look val rest ih =>
    intro n hn
    cases n with
    | zero => exact ⟨0, by omega, by simpa [bytesOf] using Decodes.nil, by omega⟩
    | succ n =>
      obtain ⟨m, hm, hdec, h0⟩ := ih n (by simpa using hn)
      have hsplit : bs ++ d = (bs ++ bytesOf (l.take n)) ++ (bytesOf (l.drop n) ++ t) := by
        rw [← rest.flatten, List.append_assoc]
        congr 1
        rw [← List.append_assoc]
        congr 1
        simp only [bytesOf]
        rw [← List.flatMap_append, List.take_append_drop]
      rw [hsplit] at look
      have hne : bs ++ bytesOf (l.take n) ≠ [] := by simp [ne]
      rcases Trie.lookup_prefix hT look hne (by simp) with h1 | ⟨h1, h2⟩
      · refine ⟨m + 1, by omega, ?_, ?_⟩
        · rw [List.take_succ_cons, List.take_succ_cons, List.drop_succ_cons, bytesOf_cons]
          exact .cons ne h1 val hdec
        · intro hlt
          simpa using h0 (by omega)
      · refine ⟨0, by omega, ?_, ?_⟩
        · rw [List.take_succ_cons, List.take_zero, List.drop_zero, bytesOf_cons]
          exact .tail hne h1
        · intro _
          have : v = 0 := h2 (by simpa using ne)
          simp [this]

theorem Follows.adv_token {T : Trie} (hT : T.Wf) {J : Bool → List Nat → List Nat → Bool} {adv : Bytes → Nat}
    (h : Follows T Prod.fst Prod.fst J adv) (hg : GoodAdv adv) (hl : Local T.IsValue J) {d : Bytes} (hd : d ≠ []) :
    adv (d.take (adv d)) = adv d := by
  by_cases hall : adv d = d.length
  · rw [hall, List.take_length, hall]
  obtain ⟨l, t, hdec⟩ := hT.decodes d
  have hadv := h d l t hd hdec
  have hflat := hdec.flatten
  have hlen : (l.flatMap (·.2)).length + t.length = d.length := by rw [← hflat, List.length_append]
  generalize hn : firstChunks Prod.fst Prod.fst (J (!t.isEmpty)) l = n at hadv
  have hnl : n ≤ l.length := by
    rw [← hn]
    cases l with
    | nil => simp [firstChunks]
    | cons x r =>
      have := grow_le (J (!t.isEmpty)) [x.1] (r.map Prod.fst)
      simp [firstChunks] at this ⊢
      omega
  have hlt : n < l.length := by
    rcases Nat.lt_or_ge n l.length with h | h
    · exact h
    · exfalso
      apply hall
      have : n = l.length := by omega
      rw [hadv, if_pos this, this, List.take_length]
      exact hlen
  rw [if_neg (by omega), Nat.add_zero] at hadv
  have htok : d.take (adv d) = bytesOf (l.take n) := by
    rw [hadv, ← hflat]
    have h1 : l.flatMap (·.2) = bytesOf (l.take n) ++ bytesOf (l.drop n) := by
      simp only [bytesOf]
      rw [← List.flatMap_append, List.take_append_drop]
    rw [h1, List.append_assoc]
    exact List.take_left' rfl
  obtain ⟨m, hm, hdec', h0⟩ := hdec.prefix hT n hnl
  have htok0 : d.take (adv d) ≠ [] := by
    have := hg.pos d hd
    simp only [ne_eq, List.take_eq_nil_iff, not_or]
    exact ⟨by omega, hd⟩
  have key : firstChunks Prod.fst Prod.fst (J (!(bytesOf ((l.take n).drop m)).isEmpty)) (l.take m) = m := by
    cases m with
    | zero => simp [firstChunks]
    | succ m =>
      cases l with
      | nil => simp at hlt
      | cons x r =>
        have he : (!(bytesOf (((x :: r).take n).drop (m + 1))).isEmpty) = decide (m < n - 1) := by
          by_cases hmn : m < n - 1
          · have : bytesOf (((x :: r).take n).drop (m + 1)) ≠ [] := by
              have hx : ((x :: r).take n).drop (m + 1) ≠ [] := by simp; simp at hlt; omega
              obtain ⟨y, ys, hy⟩ := List.exists_cons_of_ne_nil hx
              have hmem : y ∈ x :: r := List.mem_of_mem_take (List.mem_of_mem_drop (by rw [hy]; exact List.mem_cons_self))
              rw [hy, bytesOf_cons]
              have := (hdec.values y hmem).2
              simp [this]
            simp [hmn, this]
          · have : ((x :: r).take n).drop (m + 1) = [] := by simp; omega
            simp [this, hmn, bytesOf]
        rw [he, List.take_succ_cons]
        simp only [firstChunks] at hn ⊢
        have hk : n - 1 = grow (J (!t.isEmpty)) [x.1] (r.map Prod.fst) := by omega
        rw [hk, List.map_take]
        rw [hl.grow_take (!t.isEmpty) m [x.1] (r.map Prod.fst) (by simp)
          (by intro y hy; simp at hy; rw [hy]; exact (hdec.values x List.mem_cons_self).1)
          (by
            intro y hy
            obtain ⟨z, hz, rfl⟩ := List.mem_map.mp hy
            exact (hdec.values z (List.mem_cons_of_mem _ hz)).1)
          (by rw [← hk]; simp at hlt ⊢; omega) (by omega)
          (by
            intro hlt'
            have := h0 (by omega)
            simpa using this)]
        omega
  rw [htok]
  rw [htok] at htok0
  rw [h _ _ _ htok0 hdec', key, hadv]
  have hml : (l.take m).length = m := by simp; omega
  rw [if_pos hml.symm, List.take_of_length_le (by omega)]
  have : (l.take n).flatMap (·.2) = (l.take m).flatMap (·.2) ++ bytesOf ((l.take n).drop m) := by
    simp only [bytesOf]
    rw [← List.flatMap_append]
    congr 1
    rw [show l.take m = (l.take n).take m by rw [List.take_take, Nat.min_eq_left hm], List.take_append_drop]
  rw [this, List.length_append]

/-- A token alone is one token. -/
theorem Follows.segs_token {T : Trie} (hT : T.Wf) {J : Bool → List Nat → List Nat → Bool} {adv : Bytes → Nat}
    (h : Follows T Prod.fst Prod.fst J adv) (hg : GoodAdv adv) (hl : Local T.IsValue J) (d : Bytes) :
    ∀ tok ∈ segs adv d, segs adv tok = [tok] := by
  induction d using hg.induction with
  | hnil => simp [segs_nil]
  | hcons d hd ih =>
    intro tok ht
    rw [hg.segs_cons hd] at ht
    rcases List.mem_cons.mp ht with rfl | ht
    · have h1 := h.adv_token hT hg hl hd
      have h2 := hg.pos d hd
      have hne : d.take (adv d) ≠ [] := by
        simp only [ne_eq, List.take_eq_nil_iff, not_or]
        exact ⟨by omega, hd⟩
      rw [hg.segs_cons hne, h1, List.take_take, Nat.min_self, List.drop_take]
      simp [segs_nil]
    · exact ih tok ht

end Uax29
