import Verif.Model.GenMain
import Verif.Proofs.TrieGen
/-! # The bits of the properties -/
namespace Uax29.Gen
open Spec

theorem properties_perm (m : List (String × List Nat)) : (properties m).Perm (m.map (·.1)) :=
  List.mergeSort_perm ..

theorem iotaOf_testBit {m : List (String × List Nat)} (hn : (m.map (·.1)).Nodup) (hl : m.length ≤ 64)
    {p : String} {i : Nat} (hi : i < (properties m).length) :
    (iotaOf m p).testBit i = true ↔ (properties m)[i] = p := by
  have hnd : (properties m).Nodup := (properties_perm m).nodup_iff.mpr hn
  have hlen : (properties m).length = m.length := by
    rw [(properties_perm m).length_eq, List.length_map]
  unfold iotaOf
  cases h : (properties m).idxOf? p with
  | none =>
    rw [List.idxOf?_eq_none_iff] at h
    simp only [Nat.zero_testBit, Bool.false_eq_true, false_iff]
    intro he
    exact h (he ▸ List.getElem_mem hi)
  | some j =>
    simp only
    obtain ⟨hj, he, _⟩ := List.findIdx?_eq_some_iff_getElem.mp h
    simp only [beq_iff_eq] at he
    rw [Nat.testBit_mod_two_pow, Nat.one_shiftLeft, Nat.testBit_two_pow]
    simp only [Bool.and_eq_true, decide_eq_true_eq]
    constructor
    · rintro ⟨_, rfl⟩; exact he
    · intro h1
      refine ⟨by omega, ?_⟩
      have hp := List.pairwise_iff_getElem.mp hnd
      rcases Nat.lt_trichotomy j i with h2 | h2 | h2
      · exact absurd (he.trans h1.symm) (hp j i hj hi h2)
      · exact h2
      · exact absurd (h1.trans he.symm) (hp i j hi hj h2)

theorem foldl_or_testBit (l : List (String × List Nat)) (g : String → Nat) (r a i : Nat) :
    (l.foldl (fun acc e => if r ∈ e.2 then acc ||| g e.1 else acc) a).testBit i = true
      ↔ a.testBit i = true ∨ ∃ e ∈ l, r ∈ e.2 ∧ (g e.1).testBit i = true := by
  induction l generalizing a with
  | nil => simp
  | cons e l ih =>
    rw [List.foldl_cons, ih]
    by_cases h : r ∈ e.2
    · rw [if_pos h, Nat.testBit_or, Bool.or_eq_true]
      simp only [List.mem_cons, exists_eq_or_imp, h, true_and]
      exact or_assoc
    · rw [if_neg h]
      simp only [List.mem_cons, exists_eq_or_imp, h, false_and, false_or]

theorem iotasOf_testBit {m : List (String × List Nat)} (hn : (m.map (·.1)).Nodup) (hl : m.length ≤ 64)
    {i : Nat} (hi : i < (properties m).length) (r : Nat) :
    (iotasOf m r).testBit i = true ↔ Listed m (properties m)[i] r := by
  unfold iotasOf
  rw [foldl_or_testBit]
  simp only [Nat.zero_testBit, Bool.false_eq_true, false_or, iotaOf_testBit hn hl hi, Listed]
  constructor
  · rintro ⟨e, h1, h2, h3⟩; exact ⟨e, h1, h3.symm, h2⟩
  · rintro ⟨e, h1, h3, h2⟩; exact ⟨e, h1, h2, h3.symm⟩

theorem iotasOf_zero {m : List (String × List Nat)} {r : Nat} (h : ¬ ∃ p, Listed m p r) : iotasOf m r = 0 := by
  unfold iotasOf
  have : ∀ e ∈ m, r ∉ e.2 := fun e he hr => h ⟨e.1, e, he, rfl, hr⟩
  have key : ∀ (g : String → Nat) (l : List (String × List Nat)) a, (∀ e ∈ l, r ∉ e.2) →
      l.foldl (fun acc e => if r ∈ e.2 then acc ||| g e.1 else acc) a = a := by
    intro g l
    induction l with
    | nil => intro a _; rfl
    | cons e l ih =>
      intro a hl
      rw [List.foldl_cons, if_neg (hl e (by simp))]
      exact ih a fun e he => hl e (by simp [he])
  exact key _ m 0 this

theorem lastValue_visits {l : List (Nat × Nat)} {g : Nat → Nat} (h1 : ∀ p ∈ l, p.2 = g p.1) {r : Nat}
    (h2 : g r ≠ 0 → ∃ v, (r, v) ∈ l) : lastValue l r = g r := by
  induction l with
  | nil =>
    simp only [lastValue]
    exact Classical.byContradiction fun h => by
      obtain ⟨v, hv⟩ := h2 (fun h' => h h'.symm)
      cases hv
  | cons p l ih =>
    obtain ⟨r', v⟩ := p
    simp only [lastValue]
    by_cases hr : r' = r
    · subst hr
      have hv : v = g r' := h1 (r', v) (by simp)
      have hle : lastValue l r' = 0 ∨ lastValue l r' = g r' := by
        clear ih h2
        have h1' : ∀ p ∈ l, p.2 = g p.1 := fun p hp => h1 p (by simp [hp])
        clear h1
        induction l with
        | nil => exact .inl rfl
        | cons p l ih =>
          obtain ⟨q, w⟩ := p
          have := ih fun p hp => h1' p (by simp [hp])
          simp only [lastValue]
          split
          · exact this
          · split
            · rename_i hq
              right
              rw [← hq]
              exact h1' (q, w) (by simp)
            · exact .inl rfl
      rcases hle with h | h
      · rw [h]; simp [hv]
      · rw [h]; simp only [hv, if_true, ite_self]
    · rw [ih (fun p hp => h1 p (by simp [hp])) (fun hg => by
        obtain ⟨w, hw⟩ := h2 hg
        simp only [List.mem_cons, Prod.mk.injEq] at hw
        rcases hw with ⟨h, _⟩ | h
        · exact absurd h.symm hr
        · exact ⟨w, h⟩)]
      rw [if_neg hr]
      split
      · rfl
      · rename_i h; exact (Classical.not_not.mp h).symm

end Uax29.Gen
