import Verif.Model.Go
/-! # Tests of property bits -/
namespace Uax29

theorem is_false_iff {v a : Nat} : is v a = false ↔ v &&& a = 0 := by simp [is]

theorem is_or (v a b : Nat) : is v (a ||| b) = (is v a || is v b) := by
  rw [Bool.eq_iff_iff]
  simp only [is, bne_iff_ne, Bool.or_eq_true, ne_eq, Nat.and_or_distrib_left]
  rw [Nat.or_eq_zero_iff]
  by_cases h1 : v &&& a = 0 <;> by_cases h2 : v &&& b = 0 <;> simp_all

theorem or_is (u v a : Nat) : is (u ||| v) a = (is u a || is v a) := by
  rw [Bool.eq_iff_iff]
  simp only [is, bne_iff_ne, Bool.or_eq_true, ne_eq, Nat.and_or_distrib_right]
  rw [Nat.or_eq_zero_iff]
  by_cases h1 : u &&& a = 0 <;> by_cases h2 : v &&& a = 0 <;> simp_all

theorem is_zero (a : Nat) : is 0 a = false := by simp [is]

theorem is_pow (v k : Nat) : is v (1 <<< k) = v.testBit k := by
  simp only [is, Nat.one_shiftLeft]
  cases h : v.testBit k
  · simp only [bne_eq_false_iff_eq]
    apply Nat.eq_of_testBit_eq
    intro i
    simp only [Nat.testBit_and, Nat.testBit_two_pow, Nat.zero_testBit]
    by_cases hk : k = i
    · subst hk; simp [h]
    · simp [hk]
  · simp only [bne_iff_ne, ne_eq]
    intro h0
    have := congrArg (Nat.testBit · k) h0
    simp [Nat.testBit_and, h] at this

theorem and_is_pow (u v k : Nat) : is (u &&& v) (1 <<< k) = (is u (1 <<< k) && is v (1 <<< k)) := by
  rw [is_pow, is_pow, is_pow, Nat.testBit_and]

end Uax29
