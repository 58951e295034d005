import Verif.Proofs.WordsCongr
/-! # words: what joiners do, in terms of the characters -/
namespace Uax29
open Spec

/-- The first character of the text may differ without changing the other units. -/
theorem units_last {b b' : WSet} (hn : b.newline = b'.newline) : ∀ X : List WSet,
    ∃ U, units (X ++ [b]) = U ++ [b] ∧ units (X ++ [b']) = U ++ [b']
  | [] => ⟨[], rfl, rfl⟩
  | [x] => by
    simp only [List.cons_append, List.nil_append, units, hn]
    split
    · exact ⟨[], rfl, rfl⟩
    · exact ⟨[x], rfl, rfl⟩
  | x :: y :: X => by
    obtain ⟨U, h1, h2⟩ := units_last hn (y :: X)
    simp only [List.cons_append] at h1 h2 ⊢
    rw [units, units]
    simp only [h1, h2]
    split
    · exact ⟨U, rfl, rfl⟩
    · exact ⟨x :: U, rfl, rfl⟩

/-- Whether the first character is MidNumLet does not matter. -/
theorem joins_last {ph : Bool} {b b' : WSet} (h : ∀ g, g ≠ .MidNumLet → b g = b' g) (X C : List WSet) :
    joins ph (X ++ [b]) C = joins ph (X ++ [b']) C := by
  have hn : b.newline = b'.newline := by
    simp [WSet.newline, h .Newline, h .CR, h .LF]
  have hah : b.ahLetter ph = b'.ahLetter ph := by
    simp [WSet.ahLetter, h .ALetter, h .HebrewLetter, h .ExtendedPictographic]
  have hal : b.alnum ph = b'.alnum ph := by
    simp [WSet.alnum, hah, h .Numeric, h .WSegSpace]
  obtain ⟨U, h1, h2⟩ := units_last hn X
  have hu : ∀ c n, unitJoins ph (units (X ++ [b])) c n = unitJoins ph (units (X ++ [b'])) c n := by
    intro c n
    rw [h1, h2]
    have hri : ∀ U : List WSet, ((U ++ [b]).takeWhile (· .RegionalIndicator)).length
        = ((U ++ [b']).takeWhile (· .RegionalIndicator)).length := by
      intro U
      induction U with
      | nil => simp [List.takeWhile, h .RegionalIndicator]; split <;> rfl
      | cons u U ih =>
        simp only [List.cons_append, List.takeWhile]
        split
        · simp [ih]
        · rfl
    unfold unitJoins
    dsimp only
    rw [hri U]
    match U with
    | [] =>
      simp [hah, hal, h .HebrewLetter, h .Numeric, h .Katakana, h .ExtendNumLet]
    | [u] =>
      simp [hah, h .HebrewLetter, h .Numeric]
    | u :: u' :: U => simp
  cases C with
  | nil => simp [joins]
  | cons c C =>
    cases X with
    | nil =>
      have := hu c
      simp only [List.nil_append] at this ⊢
      simp only [joins, this, hn, h .CR (by decide), h .ZWJ (by decide), h .WSegSpace (by decide)]
    | cons x X =>
      have := hu c
      simp only [List.cons_append] at this ⊢
      simp only [joins, this]

namespace Words

theorem joinCell_char (runes : Option (List Int)) (bits : Nat) (c : Char) (v : Nat) :
    joinCell runes bits (v, String.utf8EncodeChar c)
      = if runes.any (fun rs => decide ((c.val.toNat : Int) ∈ rs)) then v ||| bits else v := by
  unfold joinCell
  cases runes with
  | none => rfl
  | some rs =>
    have := decodeRune_encode c []
    rw [List.append_nil] at this
    simp only [this, Option.any_some, decide_eq_true_eq]
    by_cases h : (c.val.toNat : Int) ∈ rs
    · rw [if_pos h, if_pos ((runesContain_iff _ _).2 h)]
    · rw [if_neg h, if_neg (fun h' => h ((runesContain_iff _ _).1 h'))]

theorem wordClasses_eq (c : Char) : wordClasses c = wset (trie.prop c) := by
  have := wf.lookup_encode c []
  rw [List.append_nil] at this
  simp only [wordClasses, this]

theorem wset_or (u v : Nat) (g : WB) : wset (u ||| v) g = (wset u g || wset v g) := or_is u v _

/-- An empty list of joiners is like none. -/
theorem applyJoiner_empty (bits : Nat) {data : Bytes} {pos : Nat} (v : Nat) (h : pos ≤ data.length) :
    applyJoiner (some []) bits data pos v = applyJoiner none bits data pos v := by
  simp [applyJoiner, runeAt_ok h, runesContain]

theorem step_empty (data : Bytes) (eof : Bool) (s : State) (h : s.pos ≤ data.length) :
    step (some []) data eof s = step none data eof s := by
  unfold step
  simp only [applyJoiner_empty _ _ h]

theorem runLoop_empty (data : Bytes) (eof : Bool) : ∀ fuel (s : State), 0 < s.pos ∧ s.pos ≤ data.length →
    runLoop (step (some []) data eof) fuel s = runLoop (step none data eof) fuel s
  | 0, _, _ => rfl
  | fuel + 1, s, h => by
    have h2 := step_good (mid := none) (eof := eof) s h
    rw [runLoop, runLoop, step_empty data eof s h.2]
    split
    · rename_i s' hs
      rw [hs] at h2
      exact runLoop_empty data eof fuel s' h2.1
    all_goals rfl

theorem joiners_nil : joinersSplitFunc none = joinersSplitFunc (some ⟨none, none⟩) := rfl

theorem joiners_empty : joinersSplitFunc (some ⟨some [], some []⟩) = joinersSplitFunc none := by
  funext data eof
  unfold joinersSplitFunc
  by_cases h0 : data.length = 0
  · rw [if_pos h0, if_pos h0]
  · rw [if_neg h0, if_neg h0]
    obtain ⟨v, w, hv, hw, _, _⟩ := wf.lookupAt_ok (data := data) (pos := 0) (by omega)
    simp only [hv]
    by_cases hw0 : w = 0
    · simp [hw0]
    · simp only [if_neg hw0, Option.bind_some, Option.bind_none, applyJoiner, runeAt_ok (Nat.zero_le _),
        runesContain, Bool.false_eq_true, if_false]
      rw [runLoop_empty]
      exact ⟨by simp; omega, by simpa using hw⟩

/-- With `Middle` only, the split function follows the rules with the additional MidNumLet characters. -/
theorem follows_middle (mid : Option (List Int)) :
    Follows trie (joinCell mid _MidNumLet) (joinCell mid _MidNumLet) (fun _ => J)
      (splitAdv (joinersSplitFunc (some ⟨mid, none⟩))) := by
  refine (follows_joiners (some ⟨mid, none⟩) ?_).congr_first ?_
  · intro x hx
    have := okValue.all (P := fun v => goodCell v = true ∧ ((wset v).ignorable = true →
        ∀ g ∈ allWB, g ≠ .Extend → g ≠ .Format → g ≠ .ZWJ → wset v g = false)) (by decide +kernel) (okValue_of hx)
    exact ⟨OkSet.of_goodCell this.1, fun h g => this.2 h g (mem_allWB g)⟩
  · intro _ x l _ _
    apply grow_congr
    intro i _
    unfold J
    simp only [List.map_append, List.map_cons, List.map_nil]
    apply joins_last
    intro g hg
    show wset x.1 g = _
    rcases joinCell_cases mid _MidNumLet x with e | e
    · rw [e]
    · rw [e, wset_or]
      have : wset _MidNumLet g = false := by
        cases g <;> first | exact absurd rfl hg | decide
      rw [this, Bool.or_false]

theorem restart_middle : Restart (fun w => goodCell w = true) J := by
  intro A B C hA hB pA pB pC hj
  have ok : ∀ l : List Nat, (∀ x ∈ l, goodCell x = true) → ∀ x ∈ l.map wset, OkSet x := by
    intro l h x hx
    obtain ⟨v, hv, rfl⟩ := List.mem_map.mp hx
    exact OkSet.of_goodCell (h v hv)
  have := joins_restart false (A.map wset) (B.map wset) (C.map wset) (by simpa using hA) (by simpa using hB)
    (ok A pA) (ok B pB) (ok C pC) (by simpa [J] using hj)
  simpa [J] using this

end Words

/-- The tokens of a text when each of them is the first segment of what is left. -/
theorem segs_first {adv : Bytes → Nat} (hg : GoodAdv adv) (n : List Char → Nat)
    (hn : ∀ s : List Char, s ≠ [] → 0 < n s ∧ n s ≤ s.length)
    (h : ∀ s : List Char, s ≠ [] → adv (utf8 s) = (utf8 (s.take (n s))).length) (s : List Char) :
    ∃ gs : List (List Char), segs adv (utf8 s) = gs.map utf8 ∧ gs.flatten = s ∧ (∀ g ∈ gs, g ≠ [])
      ∧ ∀ A g B, gs = A ++ g :: B → g.length = n (g ++ B.flatten) := by
  induction hl : s.length using Nat.strongRecOn generalizing s with
  | _ k ih =>
    by_cases hs : s = []
    · subst hs
      exact ⟨[], by rw [utf8_nil, segs_nil]; rfl, rfl, by simp, by intro A g B h; simp at h⟩
    · have hne : utf8 s ≠ [] := by
        intro h0
        obtain ⟨c, s', rfl⟩ := List.exists_cons_of_ne_nil hs
        have := encode_pos c
        rw [utf8_cons] at h0
        rw [(List.append_eq_nil_iff.mp h0).1] at this
        simp at this
      obtain ⟨h1, h2⟩ := hn s hs
      obtain ⟨gs, e1, e2, e3, e4⟩ := ih (s.drop (n s)).length (by rw [List.length_drop]; omega) (s.drop (n s)) rfl
      have hsplit : utf8 s = utf8 (s.take (n s)) ++ utf8 (s.drop (n s)) := by
        rw [← utf8_append, List.take_append_drop]
      refine ⟨s.take (n s) :: gs, ?_, ?_, ?_, ?_⟩
      · rw [hg.segs_cons hne, h s hs]
        conv => lhs; rw [hsplit]
        rw [List.take_left, List.drop_left, e1]
        rfl
      · rw [List.flatten_cons, e2, List.take_append_drop]
      · intro g hg
        rcases List.mem_cons.mp hg with rfl | hg
        · intro h0
          rw [List.take_eq_nil_iff] at h0
          rcases h0 with h0 | h0
          · omega
          · exact hs h0
        · exact e3 g hg
      · intro A g B hAB
        cases A with
        | nil =>
          simp only [List.nil_append, List.cons.injEq] at hAB
          obtain ⟨rfl, rfl⟩ := hAB
          rw [e2, List.take_append_drop, List.length_take]
          omega
        | cons a A =>
          simp only [List.cons_append, List.cons.injEq] at hAB
          exact e4 A g B hAB.2

end Uax29
