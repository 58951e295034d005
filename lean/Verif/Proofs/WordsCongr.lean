import Verif.Proofs.WordsFast
/-! # words: joiners matter only through the characters of the text, and tokens are whole chunks -/
namespace Uax29
open Spec

/-- Position `p` is at the start of one of the chunks, or of what is left after them. -/
def AtChunk (T : Trie) (data : Bytes) (l : List (Nat × Bytes)) (t : Bytes) (p : Nat) : Prop :=
  p ≤ data.length ∧ ∃ l', l' <:+ l ∧ Decodes T (data.drop p) l' t

theorem AtChunk.skip {T : Trie} {data t : Bytes} {l l' : List (Nat × Bytes)} {p : Nat} (hp : p ≤ data.length)
    (hs : l' <:+ l) (hd : Decodes T (data.drop p) l' t) (n : Nat) :
    AtChunk T data l t (p + (bytesOf (l'.take n)).length) := by
  have hfl := congrArg List.length hd.flatten
  have hb : (bytesOf l').length = (bytesOf (l'.take n)).length + (bytesOf (l'.drop n)).length := by
    conv => lhs; rw [← List.take_append_drop n l']
    simp only [bytesOf, List.flatMap_append, List.length_append]
  refine ⟨?_, l'.drop (min n l'.length), (List.drop_suffix _ _).trans hs, ?_⟩
  · rw [List.length_append, List.length_drop] at hfl
    simp only [bytesOf] at hb ⊢
    omega
  · have := hd.drop (min n l'.length) (Nat.min_le_right _ _)
    rw [List.drop_drop] at this
    have e : l'.take (min n l'.length) = l'.take n := by
      rcases Nat.le_total n l'.length with h | h
      · rw [Nat.min_eq_left h]
      · rw [Nat.min_eq_right h, List.take_of_length_le h, List.take_of_length_le (Nat.le_refl _)]
    rw [e] at this
    exact this

theorem segs_congr_chunks {T : Trie} {adv adv' : Bytes → Nat} (hg : GoodAdv adv) (hg' : GoodAdv adv')
    (P : Nat × Bytes → Prop) (h : ∀ d l t, d ≠ [] → Decodes T d l t → (∀ x ∈ l, P x) →
      adv d = adv' d ∧ (adv d = d.length ∨ AtChunk T d l t (adv d))) (d : Bytes) :
    ∀ {l : List (Nat × Bytes)} {t : Bytes}, Decodes T d l t → (∀ x ∈ l, P x) → segs adv d = segs adv' d := by
  induction d using hg.induction with
  | hnil => intros; simp [segs_nil]
  | hcons d hd ih =>
    intro l t hdec hl
    obtain ⟨h1, h2⟩ := h d l t hd hdec hl
    rw [hg.segs_cons hd, hg'.segs_cons hd, ← h1]
    congr 1
    rcases h2 with h2 | ⟨_, l', hs, hd'⟩
    · rw [h2]; simp [segs_nil]
    · exact ih hd' fun x hx => hl x (hs.subset hx)

/-- If tokens are whole chunks, then on UTF-8 they are whole characters. -/
theorem segs_chars {T : Trie} (hT : T.Wf) {adv : Bytes → Nat} (hg : GoodAdv adv)
    (h : ∀ d l t, d ≠ [] → Decodes T d l t → adv d = d.length ∨ AtChunk T d l t (adv d)) (s : List Char) :
    ∃ gs : List (List Char), segs adv (utf8 s) = gs.map utf8 := by
  induction hn : s.length using Nat.strongRecOn generalizing s with
  | _ n ih =>
    by_cases hs : utf8 s = []
    · exact ⟨[], by rw [hs, segs_nil]; rfl⟩
    · have hdec := hT.decodes_utf8 s
      rw [hg.segs_cons hs]
      rcases h _ _ _ hs hdec with h2 | ⟨h1, l', hsuf, hd'⟩
      · exact ⟨[s], by rw [h2]; simp [segs_nil]⟩
      · obtain ⟨s', hs', rfl⟩ : ∃ s', s' <:+ s ∧ l' = s'.map fun c => (T.prop c, String.utf8EncodeChar c) := by
          obtain ⟨a, ha⟩ := hsuf
          refine ⟨s.drop a.length, List.drop_suffix _ _, ?_⟩
          rw [List.map_drop, ← ha, List.drop_left]
        have hrest : (utf8 s).drop (adv (utf8 s)) = utf8 s' := by
          have := hd'.flatten
          rw [utf8_chunks, List.append_nil] at this
          exact this.symm
        obtain ⟨u, rfl⟩ := hs'
        have htake : (utf8 (u ++ s')).take (adv (utf8 (u ++ s'))) = utf8 u := by
          have := List.take_append_drop (adv (utf8 (u ++ s'))) (utf8 (u ++ s'))
          rw [hrest] at this
          have h3 : utf8 (u ++ s') = utf8 u ++ utf8 s' := by simp [utf8]
          rw [h3] at this ⊢
          exact List.append_cancel_right this
        have hu : u ≠ [] := by
          rintro rfl
          have := hg.pos _ hs
          have h3 := congrArg List.length htake
          have := hg.le _ hs
          rw [List.length_take, show utf8 ([] : List Char) = [] from rfl, List.length_nil] at h3
          omega
        obtain ⟨gs, hgs⟩ := ih s'.length (by
          have := List.length_pos_iff.mpr hu
          rw [← hn, List.length_append]; omega) s' rfl
        exact ⟨u :: gs, by rw [htake, hrest, hgs]; rfl⟩

namespace Words

/-- What a pass may do: end at a chunk or at the end, or go on at a chunk. -/
def StepAt (data : Bytes) (l : List (Nat × Bytes)) (t : Bytes) (s : State) : Step State → Prop
  | .cont s' => AtChunk trie data l t s'.pos ∧ s.pos < s'.pos
  | .brk p => p = data.length ∨ AtChunk trie data l t p
  | .more => False
  | .fault _ => False

theorem step_at (middle : Option (List Int)) {data t : Bytes} {l : List (Nat × Bytes)} {s : State}
    (h : AtChunk trie data l t s.pos) : StepAt data l t s (step middle data true s) := by
  obtain ⟨hp, l', hs, hd⟩ := h
  by_cases he : s.pos = data.length
  · simp only [step, if_pos he]
    simp only [Bool.not_true, Bool.false_eq_true, if_false, StepAt]
    exact .inl he
  · generalize hdd : data.drop s.pos = dd at hd
    cases hd with
    | nil => simp at hdd; omega
    | tail ne look =>
      rw [← hdd, ← lookupAt_eq hp] at look
      simp only [step, if_neg he, look]
      simp [StepAt]
    | @cons bs d' _ v l2 ne look val rest =>
      have hdd' := hdd
      rw [← hdd, ← lookupAt_eq hp] at look
      have hlen := congrArg List.length hdd
      rw [List.length_drop, List.length_append] at hlen
      have hpos := List.length_pos_iff.mpr ne
      have hd2 : data.drop (s.pos + bs.length) = d' := by
        rw [← List.drop_drop, hdd, List.drop_left]
      rw [step_eq (by omega) hdd ne look, rules_eq]
      have hs2 : l2 <:+ l := (List.suffix_cons _ _).trans hs
      refine rulesWith_rel (R := fun x _ => StepAt data l t s x) (a2 := fun _ x => x) ?_ ?_ ?_
      · intro s' h' _
        have h' : s'.pos = s.pos + bs.length := h'
        refine ⟨?_, by omega⟩
        rw [h']
        exact ⟨by omega, l2, hs2, hd2 ▸ rest⟩
      · refine .inr ⟨hp, _, hs, ?_⟩
        rw [hdd]
        rw [lookupAt_eq hp, hdd] at look
        exact .cons ne look val rest
      · intro p x _ hx
        unfold lookAhead
        rw [subsequentFrom_decodes (t := t) (l := l2) _ _ (by simp only [nextW]; omega) (by simp only [nextW]; rw [hd2]; exact rest)]
        cases foundIn _Ignore p l2
        · simpa using hx
        · have hnf : ((bytesOf (l2.takeWhile fun x => is x.1 _Ignore)).length : Int) ≠ notfound := by
            simp only [notfound]; omega
          simp only [Bool.false_eq_true, if_false, if_true, if_pos hnf]
          refine ⟨?_, by simp only [nextW]; omega⟩
          have := AtChunk.skip (n := (l2.takeWhile fun x => is x.1 _Ignore).length)
            (p := s.pos + bs.length) (by omega) hs2 (hd2 ▸ rest : Decodes trie (data.drop (s.pos + bs.length)) l2 t)
          have e : l2.take (l2.takeWhile fun x => is x.1 _Ignore).length = l2.takeWhile fun x => is x.1 _Ignore :=
            (List.prefix_iff_eq_take.mp (List.takeWhile_prefix _)).symm
          rw [e] at this
          simpa [nextW] using this

/-- Two lists of joiners have the same effect on a chunk. -/
def Same (runes runes' : Option (List Int)) (bits : Nat) (x : Nat × Bytes) : Prop :=
  joinCell runes bits x = joinCell runes' bits x

theorem step_same {middle middle' : Option (List Int)} {data t : Bytes} {l : List (Nat × Bytes)} {s : State}
    (h : AtChunk trie data l t s.pos) (hl : ∀ x ∈ l, Same middle middle' _MidNumLet x) :
    step middle data true s = step middle' data true s := by
  obtain ⟨hp, l', hs, hd⟩ := h
  by_cases he : s.pos = data.length
  · simp only [step, if_pos he]
  · generalize hdd : data.drop s.pos = dd at hd
    cases hd with
    | nil => simp at hdd; omega
    | tail ne look =>
      rw [← hdd, ← lookupAt_eq hp] at look
      simp only [step, if_neg he, look]
      rfl
    | @cons bs d' _ v l2 ne look val rest =>
      rw [← hdd, ← lookupAt_eq hp] at look
      have hlen := congrArg List.length hdd
      rw [List.length_drop, List.length_append] at hlen
      have hpos := List.length_pos_iff.mpr ne
      rw [step_eq (by omega) hdd ne look, step_eq (by omega) hdd ne look,
        hl _ (hs.subset List.mem_cons_self)]

theorem runLoop_same {middle middle' : Option (List Int)} {data t : Bytes} {l : List (Nat × Bytes)}
    (hl : ∀ x ∈ l, Same middle middle' _MidNumLet x) : ∀ fuel (s : State), AtChunk trie data l t s.pos →
    runLoop (step middle data true) fuel s = runLoop (step middle' data true) fuel s
  | 0, _, _ => rfl
  | fuel + 1, s, h => by
    have h1 := step_same h hl
    have h2 := step_at middle h
    rw [runLoop, runLoop, ← h1]
    split
    · rename_i s' hs
      rw [hs] at h2
      exact runLoop_same hl fuel s' h2.1
    all_goals rfl

theorem runLoop_at (middle : Option (List Int)) {data t : Bytes} {l : List (Nat × Bytes)} (s : State)
    (h : AtChunk trie data l t s.pos) {fuel : Nat} (hf : data.length < fuel) :
    ∃ p, runLoop (step middle data true) fuel s = .brk p ∧ (p = data.length ∨ AtChunk trie data l t p) := by
  apply runLoop_rule (step middle data true) (fun s => AtChunk trie data l t s.pos) (fun s => data.length - s.pos)
    (fun o => ∃ p, o = .brk p ∧ (p = data.length ∨ AtChunk trie data l t p)) _ fuel s h (by omega)
  intro s hs
  have := step_at middle hs
  generalize step middle data true s = o at *
  cases o with
  | cont s' =>
    obtain ⟨h1, h2⟩ := this
    refine ⟨h1, ?_⟩
    have := h1.1
    have := hs.1
    omega
  | brk p => exact ⟨p, rfl, this⟩
  | more => exact absurd this id
  | fault f => exact absurd this id

/-- With any joiners, tokens are whole chunks, and joiners with the same effect on the chunks give the
same tokens. -/
theorem splitAdv_at (j : Option Joiners) {d t : Bytes} {l : List (Nat × Bytes)} (hd : d ≠ [])
    (hdec : Decodes trie d l t) :
    (splitAdv (joinersSplitFunc j) d = d.length ∨ AtChunk trie d l t (splitAdv (joinersSplitFunc j) d))
    ∧ ∀ j' : Option Joiners,
      (∀ x ∈ l, Same (j.bind (·.leading)) (j'.bind (·.leading)) _AHLetter x
        ∧ Same (j.bind (·.middle)) (j'.bind (·.middle)) _MidNumLet x) →
      splitAdv (joinersSplitFunc j) d = splitAdv (joinersSplitFunc j') d := by
  have h1 : ¬ d.length = 0 := by simpa using hd
  have hdec0 := hdec
  cases hdec with
  | nil => exact absurd rfl hd
  | @tail _ v ne look =>
    have hl : trie.lookupAt d 0 = .ok (v, 0) := by rw [lookupAt_eq (by omega)]; simpa using look
    have : ∀ j, splitAdv (joinersSplitFunc j) d = d.length := by
      intro j
      unfold splitAdv
      simp only [joinersSplitFunc, if_neg h1, hl]
      simp [finish, sliceTo_ok]
    exact ⟨.inl (this j), fun j' _ => by rw [this, this]⟩
  | @cons bs d' _ v l' ne look val rest =>
    have hl : trie.lookupAt (bs ++ d') 0 = .ok (v, bs.length) := by
      rw [lookupAt_eq (by omega)]; simpa using look
    have h2 : ¬ bs.length = 0 := by simpa using ne
    have hat : AtChunk trie (bs ++ d') ((v, bs) :: l') t bs.length :=
      ⟨by simp, l', List.suffix_cons _ _, by simpa using rest⟩
    have key : ∀ j : Option Joiners, ∃ p, splitAdv (joinersSplitFunc j) (bs ++ d') = p
        ∧ (p = (bs ++ d').length ∨ AtChunk trie (bs ++ d') ((v, bs) :: l') t p)
        ∧ runLoop (step (j.bind (·.middle)) (bs ++ d') true) (loopFuel (bs ++ d'))
            { pos := bs.length, current := joinCell (j.bind (·.leading)) _AHLetter (v, bs), lastExIgnore := 0,
              lastLastExIgnore := 0, regionalIndicatorCount := 0 } = .brk p := by
      intro j
      have hj := applyJoiner_chunk (runes := j.bind (·.leading)) (bits := _AHLetter) (data := bs ++ d') (pos := 0)
        (by simp) (by simp; rfl) ne hl
      obtain ⟨p, hp, hat'⟩ := runLoop_at (j.bind (·.middle)) (data := bs ++ d')
        { pos := bs.length, current := joinCell (j.bind (·.leading)) _AHLetter (v, bs), lastExIgnore := 0,
          lastLastExIgnore := 0, regionalIndicatorCount := 0 } hat (fuel := loopFuel (bs ++ d')) (by simp [loopFuel]; omega)
      refine ⟨p, ?_, hat', hp⟩
      apply splitAdv_finish
      · rcases hat' with h | h
        · omega
        · exact h.1
      · simp only [joinersSplitFunc, if_neg h1, hl, if_neg h2, hj, hp]
    obtain ⟨p, hp1, hp2, hp3⟩ := key j
    refine ⟨by rw [hp1]; exact hp2, ?_⟩
    intro j' hs
    obtain ⟨p', hp1', hp2', hp3'⟩ := key j'
    rw [hp1, hp1']
    have e := (hs _ List.mem_cons_self).1
    unfold Same at e
    rw [← e, ← runLoop_same (fun x hx => (hs x hx).2) _ _ hat, hp3] at hp3'
    injection hp3'

/-- The same for the iterator. -/
theorem adv_at (j : Option Joiners) {d t : Bytes} {l : List (Nat × Bytes)} (hd : d ≠ [])
    (hdec : Decodes trie d l t) :
    (adv (joinersSplitFunc j) d = d.length ∨ AtChunk trie d l t (adv (joinersSplitFunc j) d))
    ∧ ∀ j' : Option Joiners,
      (∀ x ∈ l, Same (j.bind (·.leading)) (j'.bind (·.leading)) _AHLetter x
        ∧ Same (j.bind (·.middle)) (j'.bind (·.middle)) _MidNumLet x) →
      adv (joinersSplitFunc j) d = adv (joinersSplitFunc j') d := by
  obtain ⟨h1, h2⟩ := splitAdv_at j hd hdec
  cases d with
  | nil => exact absurd rfl hd
  | cons b d =>
    unfold adv
    dsimp only
    by_cases hb : isASCIIAlphanumeric b = true
    · simp only [if_pos hb]
      obtain ⟨run, rest, rfl, e, hrun, _⟩ := countWhile_split isASCIIAlphanumeric d
      rw [e]
      split
      · refine ⟨.inr ?_, fun _ _ => rfl⟩
        obtain ⟨l2, t2, hd2⟩ := wf.decodes rest
        have := wf.decodes_ascii hd2 (b :: run) (by
          intro x hx
          rcases List.mem_cons.mp hx with rfl | hx
          · exact (ascii_alnum hb).1
          · exact (ascii_alnum (hrun x hx)).1)
        obtain ⟨rfl, rfl⟩ := hdec.unique this
        refine ⟨by simp; omega, l2, List.suffix_append _ _, ?_⟩
        rw [Nat.add_comm, List.drop_succ_cons, List.drop_left]
        exact hd2
      · exact ⟨h1, h2⟩
    · simp only [if_neg hb]
      exact ⟨h1, h2⟩

end Words
end Uax29
