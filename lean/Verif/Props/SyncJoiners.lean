import Verif.Props.Edit
import Verif.Props.Words
/-! # Middle joiners: reading from within a text (C73) and edits (C104) -/
namespace Uax29
open Spec

/-- With middle joiners other than the blank the tokens are the segments of the split function. -/
theorem tokens_middle_segs {M : List Int} (hM : (0x20 : Int) ∉ M) (d : Bytes) :
    tokens .words (some ⟨some M, none⟩) d = .ok (segs (splitAdv (Words.joinersSplitFunc (some ⟨some M, none⟩))) d) := by
  let r : Scanner.Reader := [(d, some .eof)]
  have hr : (deliver 0 r).1 = d := rfl
  obtain ⟨ts, k1, k2⟩ := C31_agree_partial (some ⟨some M, none⟩) (by rintro _ ⟨⟩; exact hM) r 0 (d.length + 1) (by rw [hr]; omega)
  obtain ⟨us, err, l1, l2⟩ := C16_errors .words (some ⟨some M, none⟩) r 0 (d.length + 1)
  rw [l1] at k2
  rw [hr] at k1 l2
  rcases l2 with ⟨l2, l3⟩ | ⟨_, l3, _⟩
  · rw [k1, ← (Prod.mk.inj (Except.ok.inj k2)).1]
    exact congrArg _ ((splits_iff (splitOf_good .words (some ⟨some M, none⟩))).1 l2)
  · omega

/-- C73 with middle joiners other than the blank (see C31): after at most two words, the words are those of the whole text. -/
theorem C73_middle (M : List Int) (hM : (0x20 : Int) ∉ M) (a b : Bytes) (hb : StartsFresh b) (hf : ¬ FlagFirst .words b)
    (ts tl : List Bytes) (h : tokens .words (some ⟨some M, none⟩) b = .ok (ts ++ tl)) (hn : 2 < ts.length) :
    ∃ us, tokens .words (some ⟨some M, none⟩) (a ++ b) = .ok (us ++ tl) ∧ us.flatten = a ++ ts.flatten := by
  rw [tokens_middle_segs hM] at h
  have hset : ∀ (x : Nat × Bytes) (g : WB), g ≠ .MidNumLet → wset (Words.joinCell (some M) Words._MidNumLet x) g = wset x.1 g := by
    intro x g hg
    rcases Words.joinCell_cases (some M) Words._MidNumLet x with e | e
    · rw [e]
    · rw [e, Words.wset_or]
      have : wset Words._MidNumLet g = false := by
        cases g <;> first | exact absurd rfl hg | decide
      rw [this, Bool.or_false]
  have hign : ∀ x : Nat × Bytes, (wset (Words.joinCell (some M) Words._MidNumLet x)).ignorable = (wset x.1).ignorable := by
    intro x
    simp only [WSet.ignorable, hset x .Extend (by decide), hset x .Format (by decide), hset x .ZWJ (by decide)]
  obtain ⟨us, h1, h2⟩ := (Words.follows_middle (some M)).sync_cell Words.wf
    (goodAdv_of_good (Words.splitFunc_good _)) (P := fun w => Words.goodCell w = true)
    (fun _ h => Words.middle_good h) (fun _ => Words.restart_middle) (n := 2) (a := a) (b := b)
    (by
      cases b with
      | nil => rfl
      | cons x b => exact hb x rfl)
    (by
      intro c l1 l2 l3 t hd hv
      apply Syncs.of_map (Words.joinCell (some M) Words._MidNumLet) (J := Words.J)
      refine Words.syncs_good ?_ ?_
      · intro z hz
        obtain ⟨y, hy, rfl⟩ := List.mem_map.mp hz
        exact Words.middle_good (hd.values y (by simp [hy])).1
      · intro I d R hl hI _
        rw [Bool.eq_false_iff]
        intro hri
        obtain ⟨I', r, rfl, rfl, hr⟩ := List.map_eq_append_iff.mp hl
        obtain ⟨d', R', rfl, rfl, rfl⟩ := List.map_eq_cons_iff.mp hr
        rw [hset _ _ (by decide)] at hri
        have hI' : ∀ i ∈ I', (wset i.1).ignorable = true := fun i hi => by
          rw [← hign]; exact hI _ (List.mem_map_of_mem hi)
        obtain ⟨m, c, rest, e1, e2, e3⟩ := hd.starts Words.wf Words.strict (I := I') (d := d') (R := R' ++ l3) (by simp) (by
          intro i hi h0
          have := hI' _ hi
          rw [h0] at this; revert this; decide) (by
          intro h0; rw [h0] at hri; revert hri; decide)
        refine hf ⟨m, c, rest, e1, ?_, indicator_words ?_⟩
        · intro i hi
          rw [Words.wordClasses_eq]
          have hm : Words.trie.prop i ∈ I'.map Prod.fst := by rw [e2]; exact List.mem_map_of_mem hi
          obtain ⟨y, hy, hy2⟩ := List.mem_map.mp hm
          rw [← hy2]
          exact hI' y hy
        · rw [Words.wordClasses_eq, ← e3]
          exact hri)
    (Except.ok.inj h) hn (by omega)
  exact ⟨us, by rw [tokens_middle_segs hM, h1], h2⟩

/-- C104 with middle joiners other than the blank. -/
theorem C104_middle (M : List Int) (hM : (0x20 : Int) ∉ M) (a x y b : Bytes) (P Q N R S : List Bytes)
    (h : tokens .words (some ⟨some M, none⟩) (a ++ x ++ b) = .ok (P ++ Q ++ N ++ R ++ S))
    (ha : (P ++ Q).flatten <+: a) (hb : (R ++ S).flatten <:+ b) (hq : 2 ≤ Q.length) (hr : 2 < R.length)
    (hw : Complete (P ++ Q).flatten) (hs : StartsFresh (R ++ S).flatten) (hf : ¬ FlagFirst .words (R ++ S).flatten) :
    ∃ N', tokens .words (some ⟨some M, none⟩) (a ++ y ++ b) = .ok (P ++ N' ++ S) := by
  obtain ⟨a', rfl⟩ := ha
  obtain ⟨b', rfl⟩ := hb
  have hg := goodAdv_of_good (Words.splitFunc_good (some ⟨some M, none⟩))
  -- before the edit
  obtain ⟨h1, -⟩ := C74_joiners (some ⟨some M, none⟩) (P ++ Q).flatten (a' ++ x ++ (b' ++ (R ++ S).flatten)) hw (P ++ Q) (N ++ R ++ S)
    (by simpa only [List.append_assoc] using h) rfl
  obtain ⟨us, h2, h3⟩ := C71_joiners (some ⟨some M, none⟩) (P ++ Q).flatten (a' ++ y ++ (b' ++ (R ++ S).flatten)) P Q h1 hq
  -- after it
  have h4 : tokens .words (some ⟨some M, none⟩) (R ++ S).flatten = .ok (R ++ S) := by
    rw [tokens_middle_segs hM] at h
    have e : (P ++ Q).flatten ++ a' ++ x ++ (b' ++ (R ++ S).flatten) = (P ++ Q ++ N).flatten ++ (R ++ S).flatten := by
      have := hg.segs_flatten ((P ++ Q).flatten ++ a' ++ x ++ (b' ++ (R ++ S).flatten))
      rw [Except.ok.inj h] at this
      rw [← this, ← List.flatten_append]
      simp only [List.append_assoc]
    rw [e] at h
    have := hg.segs_resume _ (P ++ Q ++ N) (R ++ S) ((Except.ok.inj h).trans (by simp only [List.append_assoc]))
    rw [List.drop_left' rfl] at this
    rw [tokens_middle_segs hM, this]
  obtain ⟨ws, h5, -⟩ := C73_middle M hM (Q.flatten ++ (a' ++ y ++ b')) (R ++ S).flatten hs hf R S h4 hr
  have e : Q.flatten ++ (a' ++ y ++ (b' ++ (R ++ S).flatten)) = Q.flatten ++ (a' ++ y ++ b') ++ (R ++ S).flatten := by
    simp only [List.append_assoc]
  rw [e, h5] at h2
  refine ⟨ws, ?_⟩
  rw [show (P ++ Q).flatten ++ a' ++ y ++ (b' ++ (R ++ S).flatten)
    = (P ++ Q).flatten ++ (a' ++ y ++ (b' ++ (R ++ S).flatten)) by simp only [List.append_assoc], h3, ← Except.ok.inj h2,
    List.append_assoc]

-- the joiner `-`: after a text, the first two words of "-b c d" are part of another word, the others are the same
example : tokens .words (some ⟨some [0x2D], none⟩) (utf8 (chars "-b c d"))
    = .ok ([utf8 (chars "-"), utf8 (chars "b"), utf8 (chars " ")] ++ [utf8 (chars "c"), utf8 (chars " "), utf8 (chars "d")])
  ∧ tokens .words (some ⟨some [0x2D], none⟩) (utf8 (chars "x a") ++ utf8 (chars "-b c d"))
    = .ok ([utf8 (chars "x"), utf8 (chars " "), utf8 (chars "a-b"), utf8 (chars " ")]
      ++ [utf8 (chars "c"), utf8 (chars " "), utf8 (chars "d")]) := by
  decide +kernel
-- the edit of "see ab, or d. e f" to "see ab-d d. e f" with that joiner
example : tokens .words (some ⟨some [0x2D], none⟩) (utf8 (chars "see ab, or d. e f"))
    = .ok ([utf8 (chars "see")] ++ [utf8 (chars " "), utf8 (chars "ab")] ++ [utf8 (chars ","), utf8 (chars " "), utf8 (chars "or")]
      ++ [utf8 (chars " "), utf8 (chars "d"), utf8 (chars ".")] ++ [utf8 (chars " "), utf8 (chars "e"), utf8 (chars " "), utf8 (chars "f")])
  ∧ tokens .words (some ⟨some [0x2D], none⟩) (utf8 (chars "see ab-d d. e f"))
    = .ok ([utf8 (chars "see")] ++ [utf8 (chars " "), utf8 (chars "ab-d"), utf8 (chars " "), utf8 (chars "d"), utf8 (chars ".")]
      ++ [utf8 (chars " "), utf8 (chars "e"), utf8 (chars " "), utf8 (chars "f")]) := by
  decide +kernel

end Uax29
