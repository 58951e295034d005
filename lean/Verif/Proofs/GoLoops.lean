import Verif.Proofs.GoLookup
import Verif.Proofs.Loop
/-! # The code of `is` and `subsequent`, and loops -/
namespace Uax29.Source

/-- The code of the method `is`; `t` is the type `property`. -/
def isCode (t : IntTy) : Func :=
  ⟨false, [some t, some t], [none], 2, .ret (.bin .ne (.bin .and (.var 0) (.var 1)) (.lit (.num .untyped 0)))⟩

theorem natCast_eq_zero (n : Nat) : ((n : Int) = 0) = (n = 0) := by simp

theorem is_run {W : World} {t : IntTy} (ht : t = .uint16 ∨ t = .uint32) (fuel : Nat) (a b : Int) :
    ((isCode t).run W fuel (.pair (.num t a) (.num t b))).2 = .ok (.bool (is a.toNat b.toNat)) := by
  rcases ht with rfl | rfl <;>
    simp [Func.run, isCode, Val.typedAs, exec_ret, eval_bin, eval_var, eval_lit, Op.ints, common, Val.tuple, Out.result, is, bne, BEq.beq]

/-- The code of `subsequent`; the method `is` has number `k`. -/
def subsequentBody (k : Nat) (t : IntTy) (ignore : Int) : Stmt :=
  .seq (.define [some 6, some 7] (.call 0 (.drop (.var 1) (.var 5)))) (.seq
  (.ite (.bin .eq (.var 7) (.lit (.num .untyped 0))) (.seq (.ite (.var 2) (.ret (.pair (.lit (.num .untyped (-1))) (.lit
    (.bool false)))) .skip) (.ret (.pair (.lit (.num .untyped (-1))) (.lit (.bool true))))) .skip) (.seq
  (.ite (.call k (.pair (.var 6) (.lit (.num t ignore)))) (.seq (.assign [some 5] (.bin .add (.var 5) (.var 7)))
    (.cont 0)) .skip) (.seq
  (.ite (.call k (.pair (.var 6) (.var 0))) (.ret (.pair (.var 5) (.lit (.bool false)))) .skip)
  (.ret (.pair (.lit (.num .untyped (-1))) (.lit (.bool false)))))))

def subsequentCode (k : Nat) (t : IntTy) (ignore : Int) : Func :=
  ⟨false, [some t, none, none], [some .int, none], 8,
   .seq (.define [some 3] (.lit (.num .int 0))) (.seq (.define [some 4] (.lit (.bool false))) (.seq
    (.define [some 5] (.lit (.num .untyped 0))) (.seq
    (.loop 1 (.bin .lt (.var 5) (.len (.var 1))) .skip (subsequentBody k t ignore)) (.seq
    (.ite (.var 2) (.ret (.pair (.lit (.num .untyped (-1))) (.lit (.bool false)))) .skip)
    (.ret (.pair (.lit (.num .untyped (-1))) (.lit (.bool true))))))))⟩

/-- The calls of `lookup` and `is`, which has number `k`. -/
structure Calls (W : World) (T : Trie) (t : IntTy) (k : Nat) : Prop where
  typed : t = .uint16 ∨ t = .uint32
  lookup : ∀ s, (W.call 0 (.bytes s)).2 = lookupRes t (T.lookup s)
  is : ∀ a b : Int, (W.call k (.pair (.num t a) (.num t b))).2 = .ok (.bool (Uax29.is a.toNat b.toNat))

theorem Calls.at {W : World} {T : Trie} {t : IntTy} {k : Nat} (h : Calls W T t k) (d : Bytes) (u : IntTy) (n : Nat) :
    bind .error (fun v => (W.call 0 v).2) (Val.drop (.bytes d) (.num u n)) = lookupRes t (T.lookupAt d n) := by
  simp only [Val.drop, Int.natCast_nonneg, if_true, Int.toNat_natCast, Trie.lookupAt]
  cases sliceFrom d n with
  | error f => rfl
  | ok s => simp [h.lookup]

theorem Calls.ne {W : World} {T : Trie} {t : IntTy} {k : Nat} (h : Calls W T t k) : t ≠ .untyped := by
  rcases h.typed with rfl | rfl <;> simp

/-- One pass of the loop of `subsequent`. -/
def subsequentPass (W : World) (fuel k : Nat) (t : IntTy) (ignore : Int) : Env → Out :=
  loopPass W fuel 1 (.bin .lt (.var 5) (.len (.var 1))) .skip (subsequentBody k t ignore)

theorem decide_natCast_lt (a b : Nat) : decide ((a : Int) < (b : Int)) = decide (a < b) := by simp
theorem decide_natCast_le (a b : Nat) : decide ((a : Int) ≤ (b : Int)) = decide (a ≤ b) := by simp
theorem decide_natCast_eq (a b : Nat) : decide ((a : Int) = (b : Int)) = decide (a = b) := by
  congr 1; simp; omega
theorem decide_natCast_zero (a : Nat) : decide ((a : Int) = 0) = decide (a = 0) := by simp

set_option maxRecDepth 10000 in
theorem subsequent_pass {W : World} {T : Trie} {t : IntTy} {k : Nat} (h : Calls W T t k) (g : Nat) (ignore : Nat) (p : Int) (data : Bytes)
    (eof : Bool) (i : Nat) (x y : Val) :
    ∃ x' y', subsequentPass W g k t ignore [.num t p, .bytes data, .bool eof, .num .int 0, .bool false, .num .int i, x, y]
      = (let env := [.num t p, .bytes data, .bool eof, .num .int 0, .bool false, .num .int i, x', y']
        if i < data.length then
          match T.lookupAt data i with
          | .error f => .fault f env
          | .ok (v, w) =>
            if w = 0 then .ret (.pair (.num .untyped (-1)) (.bool (!eof))) env
            else if is v ignore then .next [.num t p, .bytes data, .bool eof, .num .int 0, .bool false, .num .int (i + w : Nat), x', y']
            else if is v p.toNat then .ret (.pair (.num .int i) (.bool false)) env
            else .ret (.pair (.num .untyped (-1)) (.bool false)) env
        else .brk 0 env) := by
  have ht := h.ne
  by_cases c : i < data.length
  · have kc : decide (i < data.length) = true := by simpa
    cases e : T.lookupAt data i with
    | error f =>
      refine ⟨x, y, ?_⟩
      unfold subsequentPass loopPass subsequentBody
      go_run [kc, decide_natCast_lt, h.at, e, lookupRes]
      simp [Out.ofBody, c]
    | ok r =>
      obtain ⟨v, w⟩ := r
      refine ⟨.num t v, .num .int w, ?_⟩
      unfold subsequentPass loopPass subsequentBody
      by_cases w0 : w = 0
      · subst w0
        cases eof <;> go_run [kc, decide_natCast_lt, h.at, e, lookupRes, ht] <;> simp [Out.ofBody, c]
      have kw : decide (w = 0) = false := by simpa
      cases m : is v ignore
      · cases m2 : is v p.toNat <;>
          go_run [kc, decide_natCast_lt, h.at, e, lookupRes, ht, h.is, Int.toNat_natCast, m, m2, kw, decide_natCast_zero] <;>
          simp [Out.ofBody, c, w0]
      · go_run [kc, decide_natCast_lt, h.at, e, lookupRes, ht, h.is, Int.toNat_natCast, m, kw, decide_natCast_zero]
        simp [Out.ofBody, c, w0, exec_skip]
  · refine ⟨x, y, ?_⟩
    have kc : decide (i < data.length) = false := by simpa using c
    unfold subsequentPass loopPass
    go_run [kc, decide_natCast_lt]
    simp [c]

theorem subsequent_loop {W : World} {T : Trie} {t : IntTy} {k : Nat} (h : Calls W T t k) (g : Nat) (ignore : Nat) (p : Int) (data : Bytes)
    (eof : Bool) : ∀ (fuel i : Nat) (x y : Val),
      (((passes (subsequentPass W g k t ignore) fuel [.num t p, .bytes data, .bool eof, .num .int 0, .bool false, .num .int i, x, y]).ofLoop.andThen
        (exec W g (.seq (.ite (.var 2) (.ret (.pair (.lit (.num .untyped (-1))) (.lit (.bool false)))) .skip)
          (.ret (.pair (.lit (.num .untyped (-1))) (.lit (.bool true))))))).result [some .int, none]).2
      = subRes (subsequentLoop T ignore p.toNat data eof fuel i) := by
  intro fuel
  induction fuel with
  | zero => intro i x y; rfl
  | succ fuel ih =>
    intro i x y
    obtain ⟨x', y', e⟩ := subsequent_pass h g ignore p data eof i x y
    simp only [passes, subsequentLoop]
    rw [e]
    by_cases c : i < data.length
    · simp only [c, if_true]
      cases T.lookupAt data i with
      | error f => rfl
      | ok r =>
        obtain ⟨v, w⟩ := r
        simp only
        by_cases w0 : w = 0
        · cases eof <;> simp only [w0, if_true] <;> rfl
        · simp only [w0, if_false]
          cases m : is v ignore
          · cases m2 : is v p.toNat <;> simp only [Bool.false_eq_true, if_true, if_false] <;> rfl
          · simp only [if_true, andThen_next]
            exact ih _ _ _
    · cases eof <;> simp only [c, if_false] <;> rfl

theorem subsequent_run {W : World} {T : Trie} {t : IntTy} {k : Nat} (h : Calls W T t k) (fuel : Nat) (ignore : Nat) (p : Int) (data : Bytes)
    (eof : Bool) : ((subsequentCode k t ignore).run W fuel (.pair (.num t p) (.pair (.bytes data) (.bool eof)))).2
      = subRes (subsequentLoop T ignore p.toNat data eof fuel 0) := by
  have ht := h.ne
  rw [run_eq (vs := [.num t p, .bytes data, .bool eof]) (by simp [subsequentCode, Val.typedAs, ht])]
  rw [← subsequent_loop h fuel ignore p data eof fuel 0 .nil .nil]
  show ((exec W fuel (subsequentCode k t ignore).body [.num t p, .bytes data, .bool eof, .nil, .nil, .nil, .nil, .nil]).result
    [some .int, none]).2 = _
  unfold subsequentCode
  go_run [exec_loop]
  rfl

theorem subsequentLoop_mono {T : Trie} {ignore p : Nat} {data : Bytes} {eof : Bool} {r : Int × Bool} :
    ∀ {fuel i : Nat}, subsequentLoop T ignore p data eof fuel i = .ok r → ∀ k, fuel ≤ k →
      subsequentLoop T ignore p data eof k i = .ok r := by
  intro fuel
  induction fuel with
  | zero => intro i h; cases h
  | succ fuel ih =>
    intro i h k hk
    obtain ⟨k, rfl⟩ : ∃ k', k = k' + 1 := ⟨k - 1, by omega⟩
    simp only [subsequentLoop] at h ⊢
    split at h
    · rename_i c
      rw [if_pos c]
      split at h
      · cases h
      · rename_i v w e
        split at h
        · rename_i w0; rw [if_pos w0]; exact h
        · rename_i w0; rw [if_neg w0]
          split at h
          · rename_i m; rw [if_pos m]; exact ih h k (by omega)
          · rename_i m; rw [if_neg m]; exact h
    · rename_i c
      rw [if_neg c]; exact h

/-- `subsequent` with any sufficient number of passes. -/
theorem subsequent_fuel {T : Trie} (hT : T.Wf) (ignore p : Nat) (data : Bytes) (eof : Bool) {fuel : Nat} (hf : data.length < fuel) :
    subsequentLoop T ignore p data eof fuel 0 = subsequent T ignore p data eof := by
  obtain ⟨a, m, h, _⟩ := subsequentLoop_ok hT ignore p data eof (data.length + 1) 0 (by omega) (by omega)
  rw [subsequent, h]
  exact subsequentLoop_mono h _ (by omega)

/-- The calls of `subsequent`, which has number `k`, on data of up to `N` bytes. -/
def SubCalls (W : World) (T : Trie) (t : IntTy) (k ignore N : Nat) : Prop :=
  ∀ (p : Int) (d : Bytes) (eof : Bool), d.length ≤ N →
    (W.call k (.pair (.num t p) (.pair (.bytes d) (.bool eof)))).2 = subRes (subsequent T ignore p.toNat d eof)

theorem SubCalls.at {W : World} {T : Trie} {t : IntTy} {k ignore : Nat} {d : Bytes} (h : SubCalls W T t k ignore d.length)
    (p : Int) (eof : Bool) (u : IntTy) (n : Nat) :
    bind .error (fun v => (W.call k v).2) (bind .error (fun y => .ok (.pair (.num t p) y))
      (bind .error (fun x => .ok (.pair x (.bool eof))) (Val.drop (.bytes d) (.num u n))))
      = subRes (subsequentFrom T ignore p.toNat d n eof) := by
  simp only [Val.drop, Int.natCast_nonneg, if_true, Int.toNat_natCast, subsequentFrom]
  cases e : sliceFrom d n with
  | error f => rfl
  | ok s =>
    have : s.length ≤ d.length := by
      unfold sliceFrom at e
      split at e
      · cases e; simp
      · cases e
    simp [h p s eof this]

theorem subsequentLoop_cases {T : Trie} {ignore p : Nat} {data : Bytes} {eof : Bool} {a : Int} {m : Bool} :
    ∀ {fuel i : Nat}, subsequentLoop T ignore p data eof fuel i = .ok (a, m) → a = notfound ∨ ∃ j : Nat, a = j := by
  intro fuel
  induction fuel with
  | zero => intro i h; cases h
  | succ fuel ih =>
    intro i h
    simp only [subsequentLoop] at h
    split at h
    · split at h
      · cases h
      · split at h
        · split at h <;> cases h <;> exact .inl rfl
        · split at h
          · exact ih h
          · split at h
            · cases h; exact .inr ⟨i, rfl⟩
            · cases h; exact .inl rfl
    · split at h <;> cases h <;> exact .inl rfl

theorem subsequentFrom_cases {T : Trie} {ignore p : Nat} {data : Bytes} {n : Nat} {eof : Bool} {a : Int} {m : Bool}
    (h : subsequentFrom T ignore p data n eof = .ok (a, m)) : a = notfound ∨ ∃ j : Nat, a = j := by
  unfold subsequentFrom at h
  split at h
  · cases h
  · exact subsequentLoop_cases h

end Uax29.Source
