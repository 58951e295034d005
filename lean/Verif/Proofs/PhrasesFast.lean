import Verif.Proofs.PhrasesConf
import Verif.Proofs.WordsFast
/-! # phrases: the fast path for ASCII letters, digits and spaces -/
namespace Uax29
open Spec

/-- What is before a character that is not ignored does not change the units after it. -/
theorem units_split {x : WSet} (hi : x.ignorable = false) (B A : List WSet) :
    ∃ U, units (B ++ x :: A) = U ++ x :: units A ∧ units (B ++ [x]) = U ++ [x] := by
  induction B with
  | nil => exact ⟨[], by simp [units_cons_solid hi], by simp [units]⟩
  | cons b B ih =>
    obtain ⟨U, h1, h2⟩ := ih
    have key : ∀ A', units (b :: (B ++ x :: A'))
        = if b.ignorable && !((B ++ [x]).head (by simp)).newline then units (B ++ x :: A')
          else b :: units (B ++ x :: A') := by
      intro A'
      cases B with
      | nil => simp [units]
      | cons c B => simp [units]
    have key1 := key A
    have key2 := key []
    rw [List.cons_append, List.cons_append, key1, key2]
    split
    · exact ⟨U, h1, h2⟩
    · exact ⟨b :: U, by simp [h1], by simp [h2]⟩

/-- After a letter, digit or space, the rules forget what was before. -/
theorem joins_forget (ph : Bool) {x : WSet} (hi : x.ignorable = false) (h1 : x.midLetter = false) (h2 : x.midNum = false)
    (h3 : x .DoubleQuote = false) (h4 : x .RegionalIndicator = false) (B A C : List WSet) :
    joins ph (B ++ x :: A) C = joins ph (B ++ [x]) C := by
  obtain ⟨U, u1, u2⟩ := units_split hi B A
  have hu : ∀ b n, unitJoins ph (units (B ++ x :: A)) b n = unitJoins ph (units (B ++ [x])) b n := by
    intro b n
    rw [u1, u2]
    cases U with
    | nil => simp [unitJoins, h1, h2, h3, h4]
    | cons u U =>
      have ht : ∀ Y, ((U ++ x :: Y).takeWhile (· .RegionalIndicator)) = U.takeWhile (· .RegionalIndicator) := by
        intro Y
        rw [List.takeWhile_append]
        simp [h4]
        intro h
        exact ((List.takeWhile_prefix _).eq_of_length h).symm
      have hh : ∀ Y, (U ++ x :: Y).head? = (U ++ [x]).head? := by intro Y; cases U <;> rfl
      simp [unitJoins, List.takeWhile_cons, ht, hh]
  cases C with
  | nil => simp [joins]
  | cons b C =>
    cases B with
    | nil =>
      simp only [List.nil_append] at hu ⊢
      simp only [joins, hu]
    | cons c B =>
      simp only [List.cons_append] at hu ⊢
      simp only [joins, hu]

namespace Phrases

theorem ascii_run {b : UInt8} (h : isASCIIAlphanumericOrSpace b = true) : b.toNat < 0x80
    ∧ (pset (trie.ascii b)).alnum true = true ∧ (pset (trie.ascii b)).ignorable = false
    ∧ (pset (trie.ascii b)).newline = false ∧ (pset (trie.ascii b)).midLetter = false
    ∧ (pset (trie.ascii b)).midNum = false ∧ pset (trie.ascii b) .DoubleQuote = false
    ∧ pset (trie.ascii b) .RegionalIndicator = false := by
  have := forall_uint8 (P := fun b => !isASCIIAlphanumericOrSpace b || (decide (b.toNat < 0x80)
    && (pset (trie.ascii b)).alnum true && !(pset (trie.ascii b)).ignorable
    && !(pset (trie.ascii b)).newline && !(pset (trie.ascii b)).midLetter
    && !(pset (trie.ascii b)).midNum && !pset (trie.ascii b) .DoubleQuote
    && !pset (trie.ascii b) .RegionalIndicator)) (by decide +kernel) b
  simpa [h, and_assoc] using this

/-- The fast path of `Next` moves as far as the split function alone. -/
theorem adv_eq (d : Bytes) (hd : d ≠ []) : skipAdv splitFunc d = splitAdv splitFunc d := by
  rw [follows.skip wf isASCIIAlphanumericOrSpace (fun b h => (ascii_run h).1) ?_ ?_ hd]
  · rfl
  · intro e a A b C ha hA hb
    obtain ⟨_, a1, a2, a3, _⟩ := ascii_run ha
    obtain ⟨_, b1, b2, b3, _⟩ := ascii_run hb
    exact joins_alnum true _ _ a1 a2 a3 b1 b3
  · intro e a A B C ha _
    obtain ⟨_, _, a2, _, a4, a5, a6, a7⟩ := ascii_run ha
    have := joins_forget true a2 a4 a5 a6 a7 (B.map pset) ((A.map trie.ascii).map pset) (C.map pset)
    simpa [J] using this

end Phrases
end Uax29
