import Verif.Proofs.GoIter
import Verif.Table.GenericCode
import Verif.Table.FilterCode
import Verif.Model.Filter
/-! # The code of internal/iterators and the model -/
namespace Uax29.Generic
open Source
variable {W : World} {g : Nat} {f : Val} {it : Iter}

theorem new_run (data : Bytes) (split : SplitFn) (hf : ∃ k, f = .fn k ∨ ∃ r, f = .bound k r) :
    (Code.New.run W g (.pair f (.bytes data))).2 = .ok (genericVal f (new split data)) := by
  obtain ⟨k, rfl | ⟨r, rfl⟩⟩ := hf <;> rfl

theorem value_run : Code.mValue.run W g (genericVal f it) = (genericVal f it, bytesRes it.value) := by
  rw [run_eq (vs := [genericVal f it]) rfl]
  show (exec W g Code.mValue_s0 [genericVal f it]).result [none] = _
  unfold Code.mValue_s0 genericVal Iter.value
  go_run [field_zero, field_succ, Val.slice, Int.natCast_nonneg, and_self, Int.toNat_natCast]
  cases sliceFromTo it.data it.start it.pos <;> rfl

theorem start_run : Code.mStart.run W g (genericVal f it) = (genericVal f it, .ok (.num .int it.start)) := rfl

theorem end_run : Code.mEnd.run W g (genericVal f it) = (genericVal f it, .ok (.num .int it.pos)) := rfl

theorem reset_run : Code.mReset.run W g (genericVal f it) = (genericVal f it.reset, .ok .nil) := rfl

theorem setText_run (d : Bytes) : Code.mSetText.run W g (.pair (genericVal f it) (.bytes d)) = (genericVal f (it.setText d), .ok .nil) := rfl

theorem setSplit_run {v : Val} (hf : IsFn f) : Code.mSplit.run W g (.pair (genericVal f it) v) = (genericVal v it, .ok .nil) := by
  show (genericVal (f.like v) it, Except.ok Val.nil) = _
  rw [hf v]

theorem zeroText : String.ofList (chars "SplitFunc returned a zero or negative advance") = "SplitFunc returned a zero or negative advance" := rfl
theorem beyondText : String.ofList (chars "SplitFunc advanced beyond the end of the data") = "SplitFunc advanced beyond the end of the data" := rfl

theorem next_run (h : SplitsAs W f it.split it.data.length) : Code.mNext.run W g (genericVal f it) = genericRes f (next it) := by
  rw [run_eq (vs := [genericVal f it]) rfl]
  show (exec W g Code.mNext.body [genericVal f it, .nil, .nil, .nil]).result [none] = _
  obtain ⟨split, data, pos, start⟩ := it
  unfold Code.mNext Code.mNext_s0 Code.mNext_s1 genericVal next
  go_run [field_zero, field_succ, decide_natCast_eq, decide_natCast_lt, decide_eq_true_eq, beyondText]
  by_cases c : pos = data.length
  · rw [if_pos c, if_pos c]; rfl
  rw [if_neg c, if_neg c]
  by_cases c2 : data.length < pos
  · rw [if_pos c2, if_pos c2]; rfl
  rw [if_neg c2, if_neg c2]
  unfold Code.mNext_s2 Code.mNext_s3
  go_run [field_zero, field_succ, setField_zero, setField_succ, drop_nat]
  cases es : sliceFrom data pos with
  | error x => go_run []; rfl
  | ok d =>
    have hd : d.length ≤ data.length := by
      unfold sliceFrom at es
      split at es
      · cases es; simp
      · cases es
    have h := h d hd
    simp only at h
    unfold Code.mNext_s4
    go_run [eq_lit, decide_eq_true_eq]
    by_cases c3 : d.length = 1
    · rw [if_pos c3, if_pos c3]; rfl
    rw [if_neg c3, if_neg c3]
    unfold Code.mNext_s5
    go_run [h, field_zero, field_succ]
    cases hs : split d true with
    | error x => go_run [splitRes]; rfl
    | ok y =>
      obtain ⟨adv, tok, err⟩ := y
      unfold Code.mNext_s6
      cases err with
      | some m =>
        go_run [splitRes, apply_ne_nil, decide_true, not_false_eq_true, ne_eq]
        simp only [String.ofList_toList]
        rfl
      | none =>
        unfold Code.mNext_s7
        go_run [splitRes, apply_ne_nil, decide_false, not_true_eq_false, ne_eq, decide_eq_true_eq, zeroText]
        by_cases c : adv ≤ 0
        · rw [if_pos c, if_pos c]; rfl
        rw [if_neg c, if_neg c]
        obtain ⟨n, rfl⟩ : ∃ n : Nat, adv = n := ⟨adv.toNat, by omega⟩
        unfold Code.mNext_s8 Code.mNext_s9
        go_run [field_zero, field_succ, setField_zero, setField_succ, ← Int.natCast_add, Int.toNat_natCast, decide_natCast_lt,
          decide_eq_true_eq, beyondText]
        by_cases c : data.length < pos + n
        · rw [if_pos c, if_pos c]; rfl
        · rw [if_neg c, if_neg c]; rfl

theorem first_run (h : SplitsAs W f it.split it.data.length) : Code.mFirst.run W g (genericVal f it) = (genericVal f it, bytesRes (first it)) := by
  rw [run_eq (vs := [genericVal f it]) rfl]
  show (exec W g Code.mFirst.body [genericVal f it, .nil, .nil]).result [none] = _
  obtain ⟨split, data, pos, start⟩ := it
  unfold Code.mFirst Code.mFirst_s0 genericVal first
  go_run [field_zero, field_succ, decide_natCast_zero, decide_eq_true_eq]
  by_cases c : data.length = 0
  · rw [if_pos c, if_pos c]; rfl
  rw [if_neg c, if_neg c]
  have h := h data (Nat.le_refl _)
  simp only at h
  unfold Code.mFirst_s1
  go_run [h, field_zero, field_succ]
  cases hs : split data true with
  | error x => go_run [splitRes]; rfl
  | ok y =>
    obtain ⟨adv, tok, err⟩ := y
    unfold Code.mFirst_s2
    cases err with
    | some m =>
      go_run [splitRes, apply_ne_nil, decide_true, not_false_eq_true, ne_eq]
      simp only [String.ofList_toList]
      rfl
    | none =>
      unfold Code.mFirst_s3
      go_run [splitRes, apply_ne_nil, decide_false, not_true_eq_false, ne_eq, decide_eq_true_eq, zeroText]
      by_cases c : adv ≤ 0
      · rw [if_pos c, if_pos c]; rfl
      rw [if_neg c, if_neg c]
      obtain ⟨n, rfl⟩ : ∃ n : Nat, adv = n := ⟨adv.toNat, by omega⟩
      unfold Code.mFirst_s4 Code.mFirst_s5
      go_run [field_zero, field_succ, Int.toNat_natCast, decide_natCast_lt, decide_eq_true_eq, beyondText, take_nat]
      by_cases c : data.length < n
      · rw [if_pos c, if_pos (by omega)]; rfl
      · rw [if_neg c, if_neg (by omega)]
        cases sliceTo data n <;> rfl
end Uax29.Generic

namespace Uax29.Filter
open Source

/-- The calls of `unicode.IsLetter` and `unicode.IsNumber`. -/
def UnicodeCalls (W : World) (isLetter isNumber : Nat → Bool) : Prop :=
  ∀ r : Nat, (W.call 1 (.num .int32 r)).2 = .ok (.bool (isLetter r)) ∧ (W.call 2 (.num .int32 r)).2 = .ok (.bool (isNumber r))

variable {W : World} {g : Nat} {isLetter isNumber : Nat → Bool} {token : Bytes} (h : UnicodeCalls W isLetter isNumber)
include h

theorem alpha_loop : ∀ (fuel pos : Nat) (x y : Val),
    (((passes (loopPass W g 1 (.bin .lt (.var 1) (.len (.var 0))) .skip (.seq Code.AlphaNumeric_s1 (.seq Code.AlphaNumeric_s2
      Code.AlphaNumeric_s3))) fuel [.bytes token, .num .int pos, x, y]).ofLoop.andThen
      (exec W g Code.AlphaNumeric_s5)).result [none]).2 = boolRes (alphaLoop isLetter isNumber token fuel pos) := by
  intro fuel
  induction fuel with
  | zero => intro pos x y; rfl
  | succ fuel ih =>
    intro pos x y
    have e : eval W [.bytes token, .num .int pos, x, y] (.bin .lt (.var 1) (.len (.var 0))) = .ok (.bool (decide (pos < token.length))) := by
      go_run [decide_natCast_lt]
    simp only [passes, alphaLoop, loopPass, e, asBool_ok, decide_eq_true_eq]
    by_cases c : pos < token.length
    · rw [if_pos c, if_pos c]
      unfold Code.AlphaNumeric_s1
      go_run [drop_nat]
      cases sliceFrom token pos with
      | error f => rfl
      | ok s =>
        cases hw : Utf8.decodeRune s with
        | mk r w =>
          unfold Code.AlphaNumeric_s2 Code.AlphaNumeric_s3
          go_run [decodeOf, hw, (h r).1, (h r).2, ← Int.natCast_add]
          have ih := ih (pos + w) (.num .int32 r) (.num .int w)
          by_cases c1 : (isLetter r || isNumber r) = true
          · rw [if_pos c1, if_pos c1]; rfl
          · rw [if_neg c1, if_neg c1]; exact ih
    · rw [if_neg c, if_neg c]; rfl

theorem AlphaNumeric_run : (Code.AlphaNumeric.run W g (.bytes token)).2 = boolRes (alphaLoop isLetter isNumber token g 0) := by
  rw [run_eq (vs := [.bytes token]) rfl]
  show ((exec W g Code.AlphaNumeric.body [.bytes token, .nil, .nil, .nil]).result [none]).2 = _
  rw [← alpha_loop (g := g) h g 0 .nil .nil]
  unfold Code.AlphaNumeric Code.AlphaNumeric_s0 Code.AlphaNumeric_s4
  go_run [exec_loop]
  rfl
end Uax29.Filter

namespace Uax29.Filter
theorem alphaLoop_mono {isLetter isNumber : Nat → Bool} {token : Bytes} {b : Bool} : ∀ {fuel pos : Nat},
    alphaLoop isLetter isNumber token fuel pos = .ok b → ∀ k, fuel ≤ k → alphaLoop isLetter isNumber token k pos = .ok b := by
  intro fuel
  induction fuel with
  | zero => intro pos h; cases h
  | succ fuel ih =>
    intro pos h k hk
    obtain ⟨k, rfl⟩ : ∃ k', k = k' + 1 := ⟨k - 1, by omega⟩
    simp only [alphaLoop] at h ⊢
    split at h
    · rename_i c
      rw [if_pos c]
      split at h
      · cases h
      · split at h
        · rename_i c1; simp only [c1, if_true]; exact h
        · rename_i c1; simp only [c1]; exact ih h k (by omega)
    · rename_i c
      rw [if_neg c]; exact h
end Uax29.Filter
