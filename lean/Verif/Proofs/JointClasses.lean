import Verif.Proofs.RunsGraphemes
import Verif.Proofs.RunsWords
import Verif.Proofs.RunsSentences
import Verif.Props.Graphemes
import Verif.Props.Words
import Verif.Props.Sentences
/-! # The properties of a character in the three tables, side by side -/
set_option maxRecDepth 20000
namespace Uax29
open Spec

/-- Two lists of runs as one; the entries are those of the first times 2^32 plus those of the second. -/
def zipRuns : Nat → List (Nat × Nat) → List (Nat × Nat) → List (Nat × Nat)
  | 0, _, _ => []
  | _ + 1, [], rs' => rs'
  | _ + 1, rs, [] => rs.map fun r => (r.1, r.2 * 4294967296)
  | k + 1, (n, v) :: rs, (m, w) :: rs' =>
    if n < m then (n, v * 4294967296 + w) :: zipRuns k rs ((m - n, w) :: rs')
    else if n = m then (n, v * 4294967296 + w) :: zipRuns k rs rs'
    else (m, v * 4294967296 + w) :: zipRuns k ((n - m, v) :: rs) rs'

theorem runAt_map : ∀ (rs : List (Nat × Nat)) (i : Nat), runAt (rs.map fun r => (r.1, r.2 * 4294967296)) i = runAt rs i * 4294967296
  | [], _ => by rw [List.map_nil, runAt, Nat.zero_mul]
  | (n, v) :: rs, i => by
    rw [List.map_cons, runAt, runAt, runAt_map]
    split <;> rfl

theorem runAt_zip : ∀ (k : Nat) (rs rs' : List (Nat × Nat)), rs.length + rs'.length ≤ k → ∀ i,
    runAt (zipRuns k rs rs') i = runAt rs i * 4294967296 + runAt rs' i
  | 0, rs, rs', h, i => by
    rw [List.length_eq_zero_iff.mp (show rs.length = 0 by omega), List.length_eq_zero_iff.mp (show rs'.length = 0 by omega)]
    simp only [zipRuns, runAt, Nat.zero_mul, Nat.add_zero]
  | k + 1, [], rs', _, i => by rw [zipRuns, runAt, Nat.zero_mul, Nat.zero_add]
  | k + 1, r :: rs, [], _, i => by
    rw [zipRuns, runAt_map, runAt, Nat.add_zero]
    simp
  | k + 1, (n, v) :: rs, (m, w) :: rs', h, i => by
    simp only [List.length_cons] at h
    simp only [zipRuns]
    split
    · rename_i hn
      rw [runAt, runAt_zip k _ _ (by simp only [List.length_cons]; omega)]
      simp only [runAt]
      by_cases h1 : i < n
      · rw [if_pos h1, if_pos h1, if_pos (by omega)]
      · rw [if_neg h1, if_neg h1]
        by_cases h2 : i < m
        · rw [if_pos h2, if_pos (by omega)]
        · rw [if_neg h2, if_neg (by omega), show i - n - (m - n) = i - m by omega]
    · rename_i hn
      split
      · rename_i he
        subst he
        rw [runAt, runAt_zip k _ _ (by omega)]
        show _ = (if i < n then v else runAt rs (i - n)) * 4294967296 + (if i < n then w else runAt rs' (i - n))
        by_cases h1 : i < n
        · rw [if_pos h1, if_pos h1, if_pos h1]
        · rw [if_neg h1, if_neg h1, if_neg h1]
      · rw [runAt, runAt_zip k _ _ (by simp only [List.length_cons]; omega)]
        show (if i < m then _ else (if i - m < n - m then v else runAt rs (i - m - (n - m))) * 4294967296 + runAt rs' (i - m))
          = (if i < n then v else runAt rs (i - n)) * 4294967296 + (if i < m then w else runAt rs' (i - m))
        by_cases h1 : i < m
        · rw [if_pos h1, if_pos h1, if_pos (by omega)]
        · rw [if_neg h1, if_neg h1]
          by_cases h2 : i < n
          · rw [if_pos h2, if_pos (by omega)]
          · rw [if_neg h2, if_neg (by omega), show i - m - (n - m) = i - n by omega]

/-- The three tables as one list of runs. -/
def allRuns : List (Nat × Nat) :=
  zipRuns 20000 (zipRuns 20000 Graphemes.runs Words.runs) Sentences.runs

/-- A property of the three entries of a character, as a property of the entry of `allRuns`. -/
def joint (q : Nat → Nat → Nat → Bool) (v : Nat) : Bool := q (v / 18446744073709551616) (v / 4294967296 % 4294967296) (v % 4294967296)

theorem runAt_lt {b : Nat} (hb : 0 < b) : ∀ {rs : List (Nat × Nat)}, (rs.all fun r => decide (r.2 < b)) = true → ∀ i, runAt rs i < b
  | [], _, _ => hb
  | (n, v) :: rs, h, i => by
    simp only [List.all_cons, Bool.and_eq_true, decide_eq_true_eq] at h
    rw [runAt]
    split
    · exact h.1
    · exact runAt_lt hb h.2 _

theorem runAt_all (i : Nat) : runAt allRuns i
    = runAt Graphemes.runs i * 18446744073709551616 + runAt Words.runs i * 4294967296 + runAt Sentences.runs i := by
  rw [allRuns, runAt_zip _ _ _ (by decide +kernel), runAt_zip _ _ _ (by decide +kernel)]
  omega

theorem joint_runAt (q : Nat → Nat → Nat → Bool) (i : Nat) :
    joint q (runAt allRuns i) = q (runAt Graphemes.runs i) (runAt Words.runs i) (runAt Sentences.runs i) := by
  have hw := runAt_lt (b := 4294967296) (by omega) (rs := Words.runs) (by decide +kernel) i
  have hs := runAt_lt (b := 4294967296) (by omega) (rs := Sentences.runs) (by decide +kernel) i
  rw [joint, runAt_all]
  congr 1 <;> omega

/-- A property of the three entries holds for the characters in the ranges only. -/
theorem joint_ranges {q : Nat → Nat → Nat → Bool} {base : List (Nat × Nat)}
    (hs : sameRanges (joint q) allRuns base [] = true) (c : Char) :
    q (Graphemes.trie.prop c) (Words.trie.prop c) (Sentences.trie.prop c) = inRanges base c.val.toNat := by
  simp only [sameRanges, Bool.and_eq_true, Bool.not_eq_true', beq_iff_eq] at hs
  obtain ⟨⟨⟨h0, hb⟩, hc⟩, ht⟩ := hs
  have := par_toggles h0 allRuns 0 false c.val.toNat (Nat.zero_le _)
  rw [Bool.xor_false, Nat.sub_zero, ht, par_xorMerge, par_cancel, par_tog hb, par_tog hc, joint_runAt,
    ← Graphemes.wf.prop_runs Graphemes.runs_all, ← Words.wf.prop_runs Words.runs_all,
    ← Sentences.wf.prop_runs Sentences.runs_all] at this
  rw [← this]
  simp [inRanges]

/-- The same for the property values. -/
theorem classes_ranges (q : GSet → WSet → SB → Bool) {base : List (Nat × Nat)}
    (hs : sameRanges (joint fun g w s => q (gset g) (wset w) (sclass s)) allRuns base [] = true) (c : Char) :
    q (graphemeClasses c) (wordClasses c) (sentenceClass c) = inRanges base c.val.toNat := by
  rw [graphemeClasses_eq, Words.wordClasses_eq, sentenceClass_eq]
  exact joint_ranges (q := fun g w s => q (gset g) (wset w) (sclass s)) hs c

/-- A relation between the property values of all characters. -/
theorem classes_none (q : GSet → WSet → SB → Bool)
    (hs : sameRanges (joint fun g w s => q (gset g) (wset w) (sclass s)) allRuns [] [] = true) (c : Char) :
    q (graphemeClasses c) (wordClasses c) (sentenceClass c) = false := by
  rw [classes_ranges q hs]
  rfl

end Uax29
