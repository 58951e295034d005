import Verif.Proofs.Chunks
/-! # A loop over the data that follows a rule on properties -/
namespace Uax29

/-- The bytes of some chunks. -/
def bytesOf (l : List (Nat × Bytes)) : Bytes := l.flatMap (·.2)

theorem bytesOf_cons (x : Nat × Bytes) (l : List (Nat × Bytes)) : bytesOf (x :: l) = x.2 ++ bytesOf l := by
  simp [bytesOf]

/-- What a pass at a chunk may do, given the properties `left` of the chunks before, nearest first:
break where the rule breaks; go on by some chunks where it joins; or take all that is left. -/
def PassOk {σ : Type} (body : σ → Step σ) (pos : σ → Nat) (Ctx : σ → List Nat → Prop)
    (cell : Nat × Bytes → Nat) (J : List Nat → List Nat → Bool) (data : Bytes) (s : σ) (left : List Nat)
    (l : List (Nat × Bytes)) : Prop :=
  (J left (l.map cell) = false ∧ body s = .brk (pos s))
  ∨ (∃ n m s', 0 < n ∧ n ≤ l.length ∧ m ≤ 2 * n
      ∧ (∀ fuel, runLoop body (m + fuel) s = runLoop body fuel s')
      ∧ pos s' = pos s + (bytesOf (l.take n)).length
      ∧ Ctx s' (((l.take n).map cell).reverse ++ left)
      ∧ ∀ i, i < n → J (((l.take i).map cell).reverse ++ left) ((l.drop i).map cell) = true)
  ∨ (body s = .brk data.length
      ∧ ∀ i, i < l.length → J (((l.take i).map cell).reverse ++ left) ((l.drop i).map cell) = true)

theorem runLoop_grow {σ : Type} {T : Trie} {data t : Bytes} {body : σ → Step σ} {pos : σ → Nat}
    {Ctx : σ → List Nat → Prop} {cell : Nat × Bytes → Nat} {J : List Nat → List Nat → Bool}
    (hend : ∀ s left, Ctx s left → pos s = data.length → body s = .brk (pos s))
    (htail : ∀ s left, Ctx s left → pos s < data.length → (∃ v, T.lookupAt data (pos s) = .ok (v, 0)) →
      body s = .brk data.length)
    (hstep : ∀ s left v bs d' l, Ctx s left → data.drop (pos s) = bs ++ d' → bs ≠ [] → pos s < data.length →
      T.lookupAt data (pos s) = .ok (v, bs.length) → T.IsValue v → Decodes T d' l t →
      PassOk body pos Ctx cell J data s left ((v, bs) :: l)) :
    ∀ l s left fuel, Ctx s left → pos s ≤ data.length → Decodes T (data.drop (pos s)) l t →
      2 * l.length < fuel →
      runLoop body fuel s = .brk (pos s + (bytesOf (l.take (grow J left (l.map cell)))).length
        + if grow J left (l.map cell) = l.length then t.length else 0) := by
  intro l
  induction hn : l.length using Nat.strongRecOn generalizing l with
  | _ n ih =>
  intro s left fuel hctx hpos hdec hfuel
  obtain ⟨fuel, rfl⟩ : ∃ k, fuel = k + 1 := ⟨fuel - 1, by omega⟩
  have hflat := hdec.flatten
  generalize hdd : data.drop (pos s) = dd at hdec
  cases hdec with
  | nil =>
    have hp : pos s = data.length := by simp at hdd; omega
    simp only [runLoop, hend s left hctx hp]
    simp [grow, bytesOf]
  | tail ne look =>
    have hp : pos s < data.length := by
      rcases Nat.lt_or_ge (pos s) data.length with h | h
      · exact h
      · rw [List.drop_of_length_le h] at hdd; exact absurd hdd.symm ne
    rw [← hdd, ← lookupAt_eq hpos] at look
    simp only [runLoop, htail s left hctx hp ⟨_, look⟩]
    rw [← hdd]
    have hl : ([] : List (Nat × Bytes)).length = n := hn
    simp at hl
    subst hl
    simp [grow, bytesOf]
    omega
  | @cons bs d' _ v l' ne look val rest =>
    have hp : pos s < data.length := by
      rcases Nat.lt_or_ge (pos s) data.length with h | h
      · exact h
      · rw [List.drop_of_length_le h] at hdd; simp at hdd; exact absurd hdd.1 ne
    have hlen : data.length - pos s = (bytesOf ((v, bs) :: l')).length + t.length := by
      have := congrArg List.length hflat
      rw [List.length_append, List.length_drop] at this
      rw [← this]; rfl
    have hdec : Decodes T (data.drop (pos s)) ((v, bs) :: l') t := by
      rw [hdd]; exact .cons ne look val rest
    rw [← hdd, ← lookupAt_eq hpos] at look
    rcases hstep s left v bs d' l' hctx hdd ne hp look val rest with
      ⟨hj, hb⟩ | ⟨k, m, s', hk0, hk, hm, hrun, hps, hctx', hjs⟩ | ⟨hb, hjs⟩
    · simp only [runLoop, hb]
      rw [List.map_cons] at hj ⊢
      simp only [grow, hj]
      have : ¬ (0 = n) := by rw [← hn]; simp
      simp [this, bytesOf]
    · generalize hlv : ((v, bs) :: l') = L at *
      have hsplit : L.map cell = (L.take k).map cell ++ (L.drop k).map cell := by
        rw [← List.map_append, List.take_append_drop]
      have hg : grow J left (L.map cell) = k + grow J (((L.take k).map cell).reverse ++ left) ((L.drop k).map cell) := by
        have := grow_append (J := J) (a := (L.take k).map cell) (b := (L.drop k).map cell) (left := left) (by
          intro i hi
          rw [List.length_map, List.length_take, Nat.min_eq_left hk] at hi
          have := hjs i hi
          rw [List.map_take, List.take_take, Nat.min_eq_left (by omega), ← List.map_take]
          have he : (L.map cell).drop i = ((L.take k).map cell).drop i ++ (L.drop k).map cell := by
            rw [hsplit, List.drop_append_of_le_length]
            rw [List.length_map, List.length_take, Nat.min_eq_left hk]; omega
          rw [← List.map_take (l := L) (i := k), ← he, ← List.map_drop]
          exact this)
        rw [← hsplit, List.length_map, List.length_take, Nat.min_eq_left hk] at this
        exact this
      have hdl : (L.drop k).length = n - k := by rw [List.length_drop, hn]
      have hpos' : pos s' ≤ data.length := by
        have : bytesOf L = bytesOf (L.take k) ++ bytesOf (L.drop k) := by
          simp only [bytesOf, ← List.flatMap_append, List.take_append_drop]
        have := congrArg List.length this
        rw [List.length_append] at this
        omega
      have hdec' : Decodes T (data.drop (pos s')) (L.drop k) t := by
        have := hdec.drop k hk
        rw [List.drop_drop] at this
        rw [hps]; exact this
      obtain ⟨f', hf'⟩ : ∃ f', fuel + 1 = m + f' := ⟨fuel + 1 - m, by omega⟩
      rw [hf', hrun f', ih (n - k) (by omega) (L.drop k) hdl s' _ f' hctx' hpos' hdec' (by omega), hg, hps]
      congr 1
      have h1 : bytesOf (L.take (k + grow J (((L.take k).map cell).reverse ++ left) ((L.drop k).map cell)))
          = bytesOf (L.take k) ++ bytesOf ((L.drop k).take (grow J (((L.take k).map cell).reverse ++ left) ((L.drop k).map cell))) := by
        rw [List.take_add]; simp [bytesOf]
      rw [h1, List.length_append]
      have h2 : (grow J (((L.take k).map cell).reverse ++ left) ((L.drop k).map cell) = n - k)
          ↔ (k + grow J (((L.take k).map cell).reverse ++ left) ((L.drop k).map cell) = n) := by omega
      simp only [h2]
      omega
    · simp only [runLoop, hb]
      have hg : grow J left ((((v, bs) :: l').map cell)) = n := by
        have := grow_append (J := J) (a := (((v, bs) :: l').map cell)) (b := []) (left := left) (by
          intro i hi
          have := hjs i (by rwa [List.length_map] at hi)
          rw [List.map_take, List.map_drop] at this
          simpa using this)
        rw [List.append_nil, List.length_map, hn] at this
        simpa [grow] using this
      rw [hg, if_pos rfl, ← hn, List.take_length]
      congr 1
      omega

end Uax29

namespace Uax29

theorem splitAdv_finish {split : SplitFn} {d : Bytes} {p : Nat} (hp : p ≤ d.length)
    (h : split d true = finish d (.brk p)) : splitAdv split d = p := by
  simp [splitAdv, h, finish, sliceTo_ok hp]

/-- A split function follows a rule on data with a certain first chunk, if it does so after it. -/
theorem Follows.of_loop_at {T : Trie} {split : SplitFn} {first cell : Nat × Bytes → Nat}
    {J : Bool → List Nat → List Nat → Bool} (Q : Nat × Bytes → Prop)
    (h0 : ∀ d v, d ≠ [] → T.lookupAt d 0 = .ok (v, 0) → split d true = finish d (.brk d.length))
    (h1 : ∀ bs d' v l t, bs ≠ [] → T.lookupAt (bs ++ d') 0 = .ok (v, bs.length) → T.IsValue v →
      Q (v, bs) → Decodes T d' l t →
      split (bs ++ d') true = finish (bs ++ d') (.brk (bs.length
        + (bytesOf (l.take (grow (J (!t.isEmpty)) [first (v, bs)] (l.map cell)))).length
        + if grow (J (!t.isEmpty)) [first (v, bs)] (l.map cell) = l.length then t.length else 0))) :
    ∀ d l t, d ≠ [] → Decodes T d l t → (∀ x, l.head? = some x → Q x) →
      splitAdv split d = ((l.take (firstChunks first cell (J (!t.isEmpty)) l)).flatMap (·.2)).length
        + if firstChunks first cell (J (!t.isEmpty)) l = l.length then t.length else 0 := by
  intro d l t hne hdec hQ
  cases hdec with
  | nil => exact absurd rfl hne
  | tail _ look =>
    rw [splitAdv_finish (Nat.le_refl _) (h0 d _ hne (by rw [lookupAt_eq (by simp)]; exact look))]
    simp [firstChunks]
  | @cons bs d' _ v l ne look val rest =>
    have hf := rest.flatten
    have hle := grow_le (J (!t.isEmpty)) [first (v, bs)] (l.map cell)
    rw [List.length_map] at hle
    rw [splitAdv_finish ?_ (h1 bs d' v l t ne (by rw [lookupAt_eq (by simp)]; exact look) val (hQ _ rfl) rest)]
    · simp only [firstChunks, Nat.add_comm 1, List.take_succ_cons, List.flatMap_cons,
        List.length_append, List.length_cons, Nat.add_right_cancel_iff]
      rfl
    · have h2 : bytesOf l = bytesOf (l.take (grow (J (!t.isEmpty)) [first (v, bs)] (l.map cell)))
          ++ bytesOf (l.drop (grow (J (!t.isEmpty)) [first (v, bs)] (l.map cell))) := by
        simp only [bytesOf, ← List.flatMap_append, List.take_append_drop]
      have h3 := congrArg List.length hf
      have h4 := congrArg List.length h2
      rw [List.length_append] at h3 h4 ⊢
      have h5 : (List.flatMap (fun x => x.2) l).length = (bytesOf l).length := rfl
      split <;> omega

/-- A split function follows a rule if it does so after its first chunk. -/
theorem Follows.of_loop {T : Trie} {split : SplitFn} {first cell : Nat × Bytes → Nat} {J : Bool → List Nat → List Nat → Bool}
    (h0 : ∀ d v, d ≠ [] → T.lookupAt d 0 = .ok (v, 0) → split d true = finish d (.brk d.length))
    (h1 : ∀ bs d' v l t, bs ≠ [] → T.lookupAt (bs ++ d') 0 = .ok (v, bs.length) → T.IsValue v →
      Decodes T d' l t →
      split (bs ++ d') true = finish (bs ++ d') (.brk (bs.length
        + (bytesOf (l.take (grow (J (!t.isEmpty)) [first (v, bs)] (l.map cell)))).length
        + if grow (J (!t.isEmpty)) [first (v, bs)] (l.map cell) = l.length then t.length else 0))) :
    Follows T first cell J (splitAdv split) := by
  intro d l t hne hdec
  exact Follows.of_loop_at (fun _ => True) h0 (fun bs d' v l t a b c _ e => h1 bs d' v l t a b c e) d l t hne hdec
    (fun _ _ => trivial)

end Uax29
