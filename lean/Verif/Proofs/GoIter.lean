import Verif.Proofs.GoPackage
import Verif.Proofs.GoAnsi
/-! # The code of the iterators and the model -/
namespace Uax29.Source

/-- A call of the function value `f` on up to `N` bytes is a call of `split`. -/
def SplitsAs (W : World) (f : Val) (split : SplitFn) (N : Nat) : Prop :=
  ∀ d : Bytes, d.length ≤ N → fnOf W (.ok (.pair (.bytes d) (.bool true))) f = splitRes (split d true)

/-- The end of `Next`, from the call of the split function on; the variables `r`, `a` and `e` are for its argument and results. -/
def splitCode (r a e : Nat) : Stmt :=
  .seq (.define [some r] (.drop (.field 1 (.var 0)) (.field 2 (.var 0)))) (.seq
  (.define [some a, none, some e] (.apply (.field 0 (.var 0)) (.pair (.var r) (.lit (.bool true))))) (.seq
  (.ite (.bin .ne (.var e) (.lit .nil)) (.panic (.var e)) .skip) (.seq
  (.ite (.bin .le (.var a) (.lit (.num .untyped 0))) (.panic (.lit (.str
    (chars "splitFunc returned a zero or negative advance")))) .skip) (.seq
  (.setField 0 2 (.bin .add (.field 2 (.var 0)) (.var a))) (.seq
  (.ite (.bin .gt (.field 2 (.var 0)) (.len (.field 1 (.var 0)))) (.panic (.lit (.str
    (chars "splitFunc advanced beyond end of data")))) .skip)
  (.ret (.lit (.bool true))))))))

theorem field_zero (a b : Val) : Val.field 0 (.pair a b) = .ok a := (rfl)
theorem field_succ (k : Nat) (a b : Val) : Val.field (k + 1) (.pair a b) = Val.field k b := (rfl)
theorem setField_zero (a b v : Val) : Val.setField 0 (.pair a b) v = .ok (.pair (a.like v) b) := (rfl)
theorem setField_succ (k : Nat) (a b v : Val) : Val.setField (k + 1) (.pair a b) v
    = bind .error (fun b => .ok (.pair a b)) (Val.setField k b v) := by
  simp only [Val.setField, bind]; cases b.setField k v <;> rfl
theorem apply_ne_nil (v : Val) : Op.ne.apply v .nil = .ok (.bool (decide (v ≠ .nil))) := by cases v <;> rfl
theorem apply_eq_nil (v : Val) : Op.eq.apply v .nil = .ok (.bool (decide (v = .nil))) := by cases v <;> rfl
theorem zeroAdvance : String.ofList (chars "splitFunc returned a zero or negative advance")
    = "splitFunc returned a zero or negative advance" := rfl
theorem beyondEnd : String.ofList (chars "splitFunc advanced beyond end of data") = "splitFunc advanced beyond end of data" := rfl

theorem get_set_self : ∀ {env : Env} {k : Nat} {v : Val}, k < env.length → (env.set k v).get k = v
  | _ :: _, 0, _, _ => rfl
  | _ :: env, k + 1, _, h => get_set_self (env := env) (k := k) (Nat.lt_of_succ_lt_succ h)
theorem get_set_ne : ∀ {env : Env} {k j : Nat} {v : Val}, k ≠ j → (env.set k v).get j = env.get j
  | [], _, _, _, _ => rfl
  | _ :: _, 0, 0, _, h => absurd rfl h
  | _ :: _, 0, _ + 1, _, _ => rfl
  | _ :: _, _ + 1, 0, _, _ => rfl
  | _ :: env, k + 1, j + 1, _, h => get_set_ne (env := env) (fun e => h (by rw [e]))
theorem length_set : ∀ {env : Env} {k : Nat} {v : Val}, (env.set k v).length = env.length
  | [], _, _ => rfl
  | _ :: _, 0, _ => rfl
  | _ :: env, _ + 1, _ => by simp [length_set (env := env)]

theorem callSplit_run {W : World} {g : Nat} {f rest : Val} {it : Iter} (h : SplitsAs W f it.split it.data.length) {r a e : Nat} {vs : Env}
    (hr : r < vs.length) (ha : a < vs.length) (he : e < vs.length) (hn : a ≠ e) :
    (exec W g (splitCode (r + 1) (a + 1) (e + 1)) (iterVal f it rest :: vs)).result [none] = nextRes f rest it.callSplit := by
  obtain ⟨split, data, pos, start⟩ := it
  unfold splitCode iterVal
  rw [exec_seq]
  go_run [field_zero, field_succ, drop_nat, Iter.callSplit]
  cases es : sliceFrom data pos with
  | error x => go_run []; rfl
  | ok d =>
    have hd : d.length ≤ data.length := by
      unfold sliceFrom at es
      split at es
      · cases es; simp
      · cases es
    have h := h d hd
    simp only at h
    go_run [get_set_self hr, h, field_zero, field_succ]
    cases hs : split d true with
    | error x => go_run [splitRes]; rfl
    | ok y =>
      obtain ⟨adv, tok, err⟩ := y
      have hl : (vs.set r (.bytes d)).length = vs.length := length_set
      rw [← hl] at ha he
      generalize vs.set r (.bytes d) = vs at ha he
      have e1 : ∀ v w, ((vs.set a v).set e w).get a = v := fun v w => by
        rw [get_set_ne (fun h => hn h.symm), get_set_self ha]
      have e2 : ∀ v w, ((vs.set a v).set e w).get e = w := fun v w => by
        rw [get_set_self (by rw [length_set]; exact he)]
      cases err with
      | some m =>
        go_run [splitRes, e2, apply_ne_nil, decide_true, not_false_eq_true, ne_eq]
        simp only [String.ofList_toList]
        rfl
      | none =>
        go_run [splitRes, e1, e2, apply_ne_nil, decide_false, not_true_eq_false, ne_eq, decide_eq_true_eq, zeroAdvance]
        by_cases c : adv ≤ 0
        · rw [if_pos c, if_pos c]; rfl
        rw [if_neg c, if_neg c]
        obtain ⟨n, rfl⟩ : ∃ n : Nat, adv = n := ⟨adv.toNat, by omega⟩
        go_run [field_zero, field_succ, setField_zero, setField_succ, e1, ← Int.natCast_add, Int.toNat_natCast, decide_natCast_lt,
          decide_eq_true_eq, beyondEnd]
        by_cases c : data.length < pos + n
        · rw [if_pos c, if_pos c]; rfl
        · rw [if_neg c, if_neg c]; rfl
end Uax29.Source

namespace Uax29.Source
/-- The code of `Value`. -/
def valueCode : Func := ⟨true, [none], [none], 1, .ret (.slice (.field 1 (.var 0)) (.field 3 (.var 0)) (.field 2 (.var 0)))⟩
/-- The code of `Start`. -/
def startCode : Func := ⟨true, [none], [some .int], 1, .ret (.field 3 (.var 0))⟩
/-- The code of `End`. -/
def endCode : Func := ⟨true, [none], [some .int], 1, .ret (.field 2 (.var 0))⟩
/-- The code of `Reset`. -/
def resetCode : Func := ⟨true, [none], [], 1, .seq (.setField 0 3 (.lit (.num .untyped 0))) (.setField 0 2 (.lit (.num .untyped 0)))⟩
/-- The code of `SetText`. -/
def setTextCode : Func := ⟨true, [none, none], [], 2,
  .seq (.setField 0 1 (.var 1)) (.seq (.setField 0 3 (.lit (.num .untyped 0))) (.setField 0 2 (.lit (.num .untyped 0))))⟩
/-- The code of `Split`. -/
def setSplitCode : Func := ⟨true, [none, none], [], 2, .setField 0 0 (.var 1)⟩
/-- The code of `First`; `Next` has number `n` and `Value` number `v`. -/
def firstCode (n v : Nat) : Func := ⟨true, [none], [none], 2,
  .seq (.ite (.bin .eq (.len (.field 1 (.var 0))) (.lit (.num .untyped 0))) (.ret (.field 1 (.var 0))) .skip) (.seq
  (.define [some 1] (.var 0)) (.seq (.setField 1 2 (.lit (.num .untyped 0))) (.seq (.setField 1 3 (.lit (.num .untyped 0))) (.seq
  (.invoke 1 n (.lit .nil)) (.ret (.call v (.var 1)))))))⟩

section
variable {W : World} {g : Nat} {f rest : Val} {it : Iter}

theorem value_run : valueCode.run W g (iterVal f it rest) = (iterVal f it rest, bytesRes it.value) := by
  rw [run_eq (vs := [iterVal f it rest]) rfl]
  show (exec W g valueCode.body [iterVal f it rest]).result [none] = _
  unfold valueCode iterVal Iter.value
  go_run [field_zero, field_succ, Val.slice, Int.natCast_nonneg, and_self, Int.toNat_natCast]
  cases sliceFromTo it.data it.start it.pos <;> rfl

theorem start_run : startCode.run W g (iterVal f it rest) = (iterVal f it rest, .ok (.num .int it.start)) := rfl

theorem end_run : endCode.run W g (iterVal f it rest) = (iterVal f it rest, .ok (.num .int it.pos)) := rfl

theorem reset_run : resetCode.run W g (iterVal f it rest) = (iterVal f it.reset rest, .ok .nil) := rfl

theorem setText_run (d : Bytes) : setTextCode.run W g (.pair (iterVal f it rest) (.bytes d)) = (iterVal f (it.setText d) rest, .ok .nil) := rfl

/-- A value that is a function. -/
def IsFn (f : Val) : Prop := ∀ v, f.like v = v

theorem setSplit_run {v : Val} (hf : IsFn f) : setSplitCode.run W g (.pair (iterVal f it rest) v) = (iterVal v it rest, .ok .nil) := by
  show (iterVal (f.like v) it rest, Except.ok Val.nil) = _
  rw [hf v]

theorem first_run {n v : Nat} {next : Iter → Iter × NextOut}
    (hn : W.call n (iterVal f { it with pos := 0, start := 0 } rest) = nextRes f rest (next { it with pos := 0, start := 0 }))
    (hv : ∀ it : Iter, (W.call v (iterVal f it rest)).2 = bytesRes it.value) :
    (firstCode n v).run W g (iterVal f it rest) = (iterVal f it rest, bytesRes (it.firstWith next)) := by
  rw [run_eq (vs := [iterVal f it rest]) rfl]
  show (exec W g (firstCode n v).body [iterVal f it rest, .nil]).result [none] = _
  unfold firstCode Iter.firstWith
  simp only [iterVal] at hn hv ⊢
  go_run [field_zero, field_succ, decide_natCast_zero, decide_eq_true_eq]
  by_cases c : it.data.length = 0
  · rw [if_pos c, if_pos c]; rfl
  rw [if_neg c, if_neg c]
  go_run [field_zero, field_succ, setField_zero, setField_succ]
  rw [exec]
  go_run []
  simp only [Int.natCast_zero] at hn
  rw [hn]
  generalize next { it with pos := 0, start := 0 } = r
  rcases r with ⟨cp, b | x⟩
  · simp only [nextRes, iterVal]
    go_run [hv]
    cases cp.value <;> rfl
  · rfl
end
end Uax29.Source

namespace Uax29
open Source
theorem index_nat (d : Bytes) (u : IntTy) (n : Nat) : Val.index (.bytes d) (.num u n)
    = (match index d n with | .ok x => .ok (.num .uint8 x.toNat) | .error f => .error f) := by
  simp only [Val.index, Int.natCast_nonneg, if_true, Int.toNat_natCast, index]
  cases d[n]? <;> rfl

namespace Words
/-- The calls of `isASCIIAlphanumeric`. -/
def AlnumCalls (W : World) : Prop :=
  ∀ b : UInt8, (W.call 11 (.num .uint8 b.toNat)).2 = .ok (.bool (isASCIIAlphanumeric b))

theorem isASCIIAlphanumeric_run {W : World} {g : Nat} (b : UInt8) :
    (Code.isASCIIAlphanumeric.run W g (.num .uint8 b.toNat)).2 = .ok (.bool (isASCIIAlphanumeric b)) := by
  rw [run_eq (vs := [.num .uint8 b.toNat]) rfl]
  show ((exec W g Code.isASCIIAlphanumeric_s0 [.num .uint8 b.toNat]).result [none]).2 = _
  unfold Code.isASCIIAlphanumeric_s0
  go_run [lit_le, le_lit]
  simp only [isASCIIAlphanumeric, UInt8.le_iff_toNat_le]
  rfl

/-- One pass of the loop of `Next` over letters and digits. -/
theorem alnum_loop {W : World} {g : Nat} (h : AlnumCalls W) {f rest : Val} {it : Iter} (b x3 x4 x5 : Val) : ∀ (l pre : Bytes) (fuel : Nat),
    pre ++ l = it.data → l.length < fuel →
    passes (loopPass W g 1 (.and (.bin .lt (.var 2) (.len (.field 1 (.var 0)))) (.call 11 (.index (.field 1 (.var 0))
      (.var 2)))) .skip Code.mNext_s3) fuel [iterVal f it rest, b, .num .int pre.length, x3, x4, x5]
      = .brk 0 [iterVal f it rest, b, .num .int (pre.length + countWhile isASCIIAlphanumeric l : Nat), x3, x4, x5] := by
  intro l
  induction l with
  | nil =>
    intro pre fuel hp hf
    obtain ⟨fuel, rfl⟩ : ∃ k, fuel = k + 1 := ⟨fuel - 1, by simp at hf; omega⟩
    have kc : decide (pre.length < it.data.length) = false := by rw [← hp]; simp
    simp only [passes]
    unfold loopPass iterVal
    go_run [field_zero, field_succ, decide_natCast_lt, kc, Bool.false_and]
    rfl
  | cons a l ih =>
    intro pre fuel hp hf
    obtain ⟨fuel, rfl⟩ : ∃ k, fuel = k + 1 := ⟨fuel - 1, by simp at hf; omega⟩
    have kc := lt_append pre l a
    have ki := index_append pre l a
    rw [hp] at kc ki
    have ih := ih (pre ++ [a]) fuel (by simp [hp]) (by simp at hf; omega)
    simp only [List.length_append, List.length_cons, List.length_nil, Nat.zero_add, Int.natCast_add, Int.cast_ofNat_Int] at ih
    have e : loopPass W g 1 (.and (.bin .lt (.var 2) (.len (.field 1 (.var 0)))) (.call 11 (.index (.field 1 (.var 0))
        (.var 2)))) .skip Code.mNext_s3 [iterVal f it rest, b, .num .int pre.length, x3, x4, x5]
        = if isASCIIAlphanumeric a = true then .next [iterVal f it rest, b, .num .int (pre.length + 1), x3, x4, x5]
          else .brk 0 [iterVal f it rest, b, .num .int pre.length, x3, x4, x5] := by
      unfold loopPass Code.mNext_s3 iterVal
      go_run [field_zero, field_succ, decide_natCast_lt, kc, ki, h a, Bool.true_and]
      rfl
    simp only [passes, countWhile, e]
    by_cases c : isASCIIAlphanumeric a = true
    · rw [if_pos c, if_pos c, andThen_next, ih, show (pre.length : Int) + 1 + (countWhile isASCIIAlphanumeric l : Int)
        = ((pre.length + (countWhile isASCIIAlphanumeric l + 1) : Nat) : Int) by omega]
    · rw [if_neg c, if_neg c]; rfl

set_option maxRecDepth 10000 in
theorem next_run {W : World} {g : Nat} {f rest : Val} {it : Iter} (h : AlnumCalls W) (hs : SplitsAs W f it.split it.data.length)
    (hg : it.data.length ≤ g) : Code.mNext.run W g (iterVal f it rest) = nextRes f rest (next it) := by
  rw [run_eq (vs := [iterVal f it rest]) rfl]
  show (exec W g Code.mNext.body [iterVal f it rest, .nil, .nil, .nil, .nil, .nil]).result [none] = _
  obtain ⟨split, data, pos, start⟩ := it
  unfold Code.mNext Code.mNext_s0 iterVal
  go_run [field_zero, field_succ, decide_natCast_le, decide_eq_true_eq, next]
  by_cases c : data.length ≤ pos
  · rw [if_pos c, if_pos c]; rfl
  rw [if_neg c, if_neg c]
  obtain ⟨x, hx⟩ : ∃ x, data[pos]? = some x := ⟨data[pos]'(by omega), by simp⟩
  have hi : index data pos = .ok x := by simp [index, hx]
  unfold Code.mNext_s1 Code.mNext_s2
  go_run [field_zero, field_succ, setField_zero, setField_succ, index_nat, hi]
  unfold Code.mNext_s5
  go_run [h x, field_zero, field_succ, ← Int.natCast_add]
  have tail : ∀ v1 v2 : Val, (exec W g (splitCode 3 4 5)
      [iterVal f ⟨split, data, pos, pos⟩ rest, v1, v2, .nil, .nil, .nil]).result [none]
        = nextRes f rest (Iter.callSplit ⟨split, data, pos, pos⟩) := fun v1 v2 =>
    callSplit_run (it := ⟨split, data, pos, pos⟩) hs (r := 2) (a := 3) (e := 4) (vs := [v1, v2, .nil, .nil, .nil]) (by simp) (by simp) (by simp)
      (by omega)
  by_cases ca : isASCIIAlphanumeric x = true
  · rw [if_pos ca, if_pos ca]
    simp only at hg
    have hl := alnum_loop (g := g) h (f := f) (rest := rest) (it := ⟨split, data, pos, pos⟩) (.num .uint8 x.toNat) .nil .nil .nil
      (data.drop (pos + 1)) (data.take (pos + 1)) g (by simp) (by simp only [List.length_drop]; omega)
    rw [List.length_take, Nat.min_eq_left (by omega)] at hl
    generalize pos + 1 + countWhile isASCIIAlphanumeric (data.drop (pos + 1)) = e at hl ⊢
    unfold Code.mNext_s4
    rw [exec_loop]
    simp only [iterVal, Int.natCast_add, Int.cast_ofNat_Int] at hl ⊢
    go_run [hl, Out.ofLoop, field_zero, field_succ, decide_natCast_le, setField_zero, setField_succ, index_nat]
    by_cases ce : data.length ≤ e
    · simp only [ce, decide_true, if_true, asBool_ok, andThen_ret, Bool.true_or]; rfl
    · obtain ⟨y, hy⟩ : ∃ y, data[e]? = some y := ⟨data[e]'(by omega), by simp⟩
      have hi : index data e = .ok y := by simp [index, hy]
      go_run [ce, decide_false, hi, hy, eq_lit, Bool.false_or, decide_eq_true_eq]
      by_cases cy : y.toNat = 32
      · have : y = 32 := UInt8.toNat_inj.mp cy
        rw [if_pos cy]; subst this; rfl
      · have : ¬ (some y == some (32 : UInt8)) = true := by
          intro hb
          simp only [Option.some_beq_some, beq_iff_eq] at hb
          exact cy (by rw [hb]; rfl)
        rw [if_neg cy, if_neg this]
        exact tail _ _
  · rw [if_neg ca, if_neg ca]
    exact tail _ _
end Words
end Uax29

namespace Uax29
open Source
/-- The calls of `isASCIIAlphanumericOrSpace`. -/
def SpaceCalls (W : World) : Prop :=
  ∀ b : UInt8, (W.call 7 (.num .uint8 b.toNat)).2 = .ok (.bool (isASCIIAlphanumericOrSpace b))

/-- The code of `isASCIIAlphanumericOrSpace`. -/
def alnumOrSpaceCode : Func := ⟨false, [some .uint8], [none], 1, Phrases.Code.isASCIIAlphanumericOrSpace_s0⟩

theorem alnumOrSpace_run {W : World} {g : Nat} (b : UInt8) :
    (alnumOrSpaceCode.run W g (.num .uint8 b.toNat)).2 = .ok (.bool (isASCIIAlphanumericOrSpace b)) := by
  rw [run_eq (vs := [.num .uint8 b.toNat]) rfl]
  show ((exec W g Phrases.Code.isASCIIAlphanumericOrSpace_s0 [.num .uint8 b.toNat]).result [none]).2 = _
  unfold Phrases.Code.isASCIIAlphanumericOrSpace_s0
  go_run [lit_le, le_lit, eq_lit]
  have : (b == 0x20) = decide (b.toNat = 32) := by
    rw [Bool.eq_iff_iff]; simp [← UInt8.toNat_inj]
  simp only [isASCIIAlphanumericOrSpace, UInt8.le_iff_toNat_le, this]
  rfl

/-- The condition of the loop of `Next` in phrases and sentences. -/
def spaceCond : Expr := .and (.bin .lt (.field 2 (.var 0)) (.len (.field 1 (.var 0)))) (.call 7 (.index (.field 1 (.var 0)) (.field 2 (.var 0))))

/-- `Next` of phrases and of sentences. -/
def nextSkippingCode : Func :=
  ⟨true, [none], [none], 4,
   (.seq (.ite (.bin .ge (.field 2 (.var 0)) (.len (.field 1 (.var 0)))) (.ret (.lit (.bool false))) .skip) (.seq
   (.setField 0 3 (.field 2 (.var 0))) (.seq
   (.loop 1 spaceCond .skip (.setField 0 2 (.bin .add (.field 2 (.var 0)) (.lit (.num .untyped 1))))) (.seq
   (.ite (.bin .ge (.field 2 (.var 0)) (.len (.field 1 (.var 0)))) (.ret (.lit (.bool true))) .skip) (.seq
   (.ite (.bin .gt (.field 2 (.var 0)) (.field 3 (.var 0))) (.setField 0 2 (.bin .sub (.field 2 (.var 0)) (.lit
    (.num .untyped 1)))) .skip) (splitCode 1 2 3))))))⟩

example : Phrases.Code.mNext = nextSkippingCode := rfl
example : Sentences.Code.mNext = nextSkippingCode := rfl
example : Sentences.Code.isASCIIAlphanumericOrSpace = alnumOrSpaceCode := rfl

theorem space_loop {W : World} {g : Nat} (h : SpaceCalls W) {f rest : Val} {it : Iter} : ∀ (l pre : Bytes) (fuel : Nat),
    pre ++ l = it.data → l.length < fuel →
    passes (loopPass W g 1 spaceCond .skip (.setField 0 2 (.bin .add (.field 2 (.var 0)) (.lit (.num .untyped 1))))) fuel
        [iterVal f { it with pos := pre.length } rest, .nil, .nil, .nil]
      = .brk 0 [iterVal f { it with pos := pre.length + countWhile isASCIIAlphanumericOrSpace l } rest, .nil, .nil, .nil] := by
  intro l
  induction l with
  | nil =>
    intro pre fuel hp hf
    obtain ⟨fuel, rfl⟩ : ∃ k, fuel = k + 1 := ⟨fuel - 1, by simp at hf; omega⟩
    have kc : decide (pre.length < it.data.length) = false := by rw [← hp]; simp
    simp only [passes]
    unfold loopPass spaceCond iterVal
    go_run [field_zero, field_succ, decide_natCast_lt, kc, Bool.false_and]
    rfl
  | cons a l ih =>
    intro pre fuel hp hf
    obtain ⟨fuel, rfl⟩ : ∃ k, fuel = k + 1 := ⟨fuel - 1, by simp at hf; omega⟩
    have kc := lt_append pre l a
    have ki := index_append pre l a
    rw [hp] at kc ki
    have ih := ih (pre ++ [a]) fuel (by simp [hp]) (by simp at hf; omega)
    simp only [List.length_append, List.length_cons, List.length_nil, Nat.zero_add] at ih
    have e : loopPass W g 1 spaceCond .skip (.setField 0 2 (.bin .add (.field 2 (.var 0)) (.lit (.num .untyped 1))))
        [iterVal f { it with pos := pre.length } rest, .nil, .nil, .nil]
        = if isASCIIAlphanumericOrSpace a = true then .next [iterVal f { it with pos := pre.length + 1 } rest, .nil, .nil, .nil]
          else .brk 0 [iterVal f { it with pos := pre.length } rest, .nil, .nil, .nil] := by
      unfold loopPass spaceCond iterVal
      go_run [field_zero, field_succ, setField_zero, setField_succ, decide_natCast_lt, kc, ki, h a, Bool.true_and]
      rfl
    simp only [passes, countWhile, e]
    by_cases c : isASCIIAlphanumericOrSpace a = true
    · rw [if_pos c, if_pos c, andThen_next, ih, show pre.length + 1 + countWhile isASCIIAlphanumericOrSpace l
        = pre.length + (countWhile isASCIIAlphanumericOrSpace l + 1) by omega]
    · rw [if_neg c, if_neg c]; rfl

set_option maxRecDepth 10000 in
theorem nextSkipping_run {W : World} {g : Nat} {f rest : Val} {it : Iter} (h : SpaceCalls W) (hs : SplitsAs W f it.split it.data.length)
    (hg : it.data.length < g) : nextSkippingCode.run W g (iterVal f it rest) = nextRes f rest it.nextSkipping := by
  rw [run_eq (vs := [iterVal f it rest]) rfl]
  show (exec W g nextSkippingCode.body [iterVal f it rest, .nil, .nil, .nil]).result [none] = _
  obtain ⟨split, data, pos, start⟩ := it
  unfold nextSkippingCode iterVal
  go_run [field_zero, field_succ, decide_natCast_le, decide_eq_true_eq, Iter.nextSkipping]
  by_cases c : data.length ≤ pos
  · rw [if_pos c, if_pos c]; rfl
  rw [if_neg c, if_neg c]
  go_run [field_zero, field_succ, setField_zero, setField_succ]
  have hl := space_loop (g := g) h (f := f) (rest := rest) (it := ⟨split, data, pos, pos⟩)
      (data.drop pos) (data.take pos) g (by simp) (by simp only [List.length_drop] at hg ⊢; omega)
  rw [List.length_take, Nat.min_eq_left (by omega)] at hl
  generalize pos + countWhile isASCIIAlphanumericOrSpace (data.drop pos) = e at hl ⊢
  rw [exec_loop]
  simp only [iterVal] at hl ⊢
  rw [hl]
  simp only [Out.ofLoop, andThen_next, exec_seq]
  go_run [field_zero, field_succ, decide_natCast_le, decide_eq_true_eq]
  by_cases ce : data.length ≤ e
  · rw [if_pos ce, if_pos ce]; rfl
  rw [if_neg ce, if_neg ce]
  go_run [field_zero, field_succ, setField_zero, setField_succ, decide_natCast_lt, decide_eq_true_eq]
  by_cases cp : pos < e
  · rw [if_pos cp, if_pos (Int.ofNat_lt.mpr cp), show ((e : Int) - 1) = ((e - 1 : Nat) : Int) by omega]
    exact callSplit_run (it := ⟨split, data, e - 1, pos⟩) hs (r := 0) (a := 1) (e := 2) (vs := [.nil, .nil, .nil]) (by simp) (by simp) (by simp)
      (by omega)
  · rw [if_neg cp, if_neg (fun h => cp (Int.ofNat_lt.mp h))]
    exact callSplit_run (it := ⟨split, data, e, pos⟩) hs (r := 0) (a := 1) (e := 2) (vs := [.nil, .nil, .nil]) (by simp) (by simp) (by simp)
      (by omega)

namespace Graphemes
/-- The calls of the two functions that measure escape sequences. -/
def EscapeCalls (W : World) (N : Nat) : Prop :=
  ∀ data : Bytes, data.length ≤ N →
    (W.call 13 (.bytes data)).2 = .ok (.num .int (ansiEscapeLength data)) ∧
    (W.call 17 (.bytes data)).2 = .ok (.num .int (ansiEscapeLength8Bit data))

theorem plain_run {W : World} {g : Nat} {f : Val} {o : Options} {it : Iter} (hs : SplitsAs W f it.split it.data.length)
    (x : UInt8) (v2 v3 : Val) :
    (exec W g (.seq Code.mNext_s5 (splitCode 4 5 6)) [iterVal f it (optionsVal o), .num .uint8 x.toNat, v2, v3, .nil, .nil, .nil]).result [none]
      = nextRes f (optionsVal o) (nextPlain it x.toNat) := by
  have tail : (exec W g (splitCode 4 5 6)
      [iterVal f it (optionsVal o), .num .uint8 x.toNat, v2, v3, .nil, .nil, .nil]).result [none]
        = nextRes f (optionsVal o) it.callSplit :=
    callSplit_run (it := it) hs (r := 3) (a := 4) (e := 5) (vs := [.num .uint8 x.toNat, v2, v3, .nil, .nil, .nil]) (by simp) (by simp) (by simp)
      (by omega)
  obtain ⟨split, data, pos, start⟩ := it
  unfold Code.mNext_s5
  unfold iterVal at tail ⊢
  go_run [field_zero, field_succ, decide_natCast_le, index_nat, lt_lit, eq_lit, nextPlain, setField_zero, setField_succ]
  have kc : ∀ n : Nat, ((pos : Int) + 1) = ((pos + 1 : Nat) : Int) := fun _ => by omega
  have kx : (decide (x.toNat < 128) && decide ((x.toNat : Int) ≠ 13)) = (decide (x.toNat < Utf8.runeSelf) && x.toNat != cr) := by
    congr 1
    rw [Bool.eq_iff_iff]; simp only [decide_eq_true_eq, bne_iff_ne, cr]; omega
  rw [kx, kc 0]
  by_cases c : (decide (x.toNat < Utf8.runeSelf) && x.toNat != cr) = true
  · rw [if_pos c, if_pos c, decide_natCast_le]
    by_cases cl : data.length ≤ pos + 1
    · rw [if_pos (by simp [cl]), if_pos cl]; rfl
    · obtain ⟨y, hy⟩ : ∃ y, data[pos + 1]? = some y := ⟨data[pos + 1]'(by omega), by simp⟩
      have hi : index data (pos + 1) = .ok y := by simp [index, hy]
      rw [if_neg (by simp [cl]), if_neg cl]
      go_run [index_nat, hi, lt_lit, decide_eq_true_eq]
      by_cases cy : y.toNat < 128
      · rw [if_pos cy, if_pos (show y.toNat < Utf8.runeSelf from cy)]; rfl
      · rw [if_neg cy, if_neg (show ¬ y.toNat < Utf8.runeSelf from cy)]; exact tail
  · rw [if_neg c, if_neg c]; exact tail

theorem next8_run {W : World} {g : Nat} {f : Val} {o : Options} {it : Iter} (h : EscapeCalls W it.data.length)
    (hs : SplitsAs W f it.split it.data.length) (x : UInt8) (v2 : Val) :
    (exec W g (.seq Code.mNext_s4 (.seq Code.mNext_s5 (splitCode 4 5 6)))
        [iterVal f it (optionsVal o), .num .uint8 x.toNat, v2, .nil, .nil, .nil, .nil]).result [none]
      = nextRes f (optionsVal o) (next8 o it x.toNat) := by
  have tail := fun v3 => plain_run (g := g) (o := o) (it := it) hs x v2 v3
  obtain ⟨split, data, pos, start⟩ := it
  simp only at h
  rw [exec_seq]
  generalize (Stmt.seq Code.mNext_s5 (splitCode 4 5 6)) = rest at tail ⊢
  unfold Code.mNext_s4
  unfold iterVal optionsVal at tail ⊢
  go_run [field_zero, field_succ, drop_nat, lit_le, le_lit, next8, setField_zero, setField_succ]
  by_cases c : (o.ansi8 && decide (128 ≤ x.toNat) && decide (x.toNat ≤ 159)) = true
  · rw [if_pos c, if_pos c]
    cases es : sliceFrom data pos with
    | error x => go_run []; rfl
    | ok d =>
      have hd : d.length ≤ data.length := by
        unfold sliceFrom at es
        split at es
        · cases es; simp
        · cases es
      go_run [(h d hd).2, field_zero, field_succ, setField_zero, setField_succ, decide_eq_true_eq]
      by_cases cn : 0 < ansiEscapeLength8Bit d
      · rw [if_pos cn, if_pos (show (0 : Int) < ansiEscapeLength8Bit d by omega)]; rfl
      · rw [if_neg cn, if_neg (show ¬ (0 : Int) < ansiEscapeLength8Bit d by omega)]; exact tail _
  · rw [if_neg c, if_neg c]
    exact tail _

theorem next_run {W : World} {g : Nat} {f : Val} {o : Options} {it : Iter} (h : EscapeCalls W it.data.length) (hs : SplitsAs W f it.split it.data.length) :
    Code.mNext.run W g (iterVal f it (optionsVal o)) = nextRes f (optionsVal o) (next o it) := by
  rw [run_eq (vs := [iterVal f it (optionsVal o)]) rfl]
  show (exec W g (.seq Code.mNext_s0 (.seq Code.mNext_s1 (.seq Code.mNext_s2 (.seq Code.mNext_s3 (.seq Code.mNext_s4
    (.seq Code.mNext_s5 (splitCode 4 5 6))))))) [iterVal f it (optionsVal o), .nil, .nil, .nil, .nil, .nil, .nil]).result [none] = _
  obtain ⟨split, data, pos, start⟩ := it
  have tail := fun x v2 => next8_run (g := g) (o := o) (it := ⟨split, data, pos, pos⟩) h hs x v2
  generalize (Stmt.seq Code.mNext_s4 (.seq Code.mNext_s5 (splitCode 4 5 6))) = rest at tail ⊢
  unfold Code.mNext_s0
  unfold iterVal at tail ⊢
  go_run [field_zero, field_succ, decide_natCast_le, decide_eq_true_eq, next]
  by_cases c : data.length ≤ pos
  · rw [if_pos c, if_pos c]; rfl
  rw [if_neg c, if_neg c]
  obtain ⟨x, hx⟩ : ∃ x, data[pos]? = some x := ⟨data[pos]'(by omega), by simp⟩
  have hi : index data pos = .ok x := by simp [index, hx]
  unfold Code.mNext_s1 Code.mNext_s2 Code.mNext_s3
  unfold optionsVal at tail ⊢
  go_run [field_zero, field_succ, setField_zero, setField_succ, index_nat, hi, eq_lit, drop_nat]
  by_cases ce : (o.ansi7 && decide (x.toNat = 27)) = true
  · have ce' : (o.ansi7 && x.toNat == esc) = true := by
      simpa [esc] using ce
    rw [if_pos ce, if_pos ce']
    cases es : sliceFrom data pos with
    | error x => go_run []; rfl
    | ok d =>
      have hd : d.length ≤ data.length := by
        unfold sliceFrom at es
        split at es
        · cases es; simp
        · cases es
      go_run [(h d hd).1, field_zero, field_succ, setField_zero, setField_succ, decide_eq_true_eq]
      by_cases cn : 0 < ansiEscapeLength d
      · rw [if_pos cn, if_pos (show (0 : Int) < ansiEscapeLength d by omega)]; rfl
      · rw [if_neg cn, if_neg (show ¬ (0 : Int) < ansiEscapeLength d by omega)]; exact tail _ _
  · have ce' : ¬ (o.ansi7 && x.toNat == esc) = true := by
      simpa [esc] using ce
    rw [if_neg ce, if_neg ce']
    exact tail _ _
end Graphemes
end Uax29
