import Verif.Proofs.GoExec
import Verif.Spec.GoPackage
import Verif.Model.Trie
/-! # The code of `lookup` -/
namespace Uax29.Source

/-- The code of `lookup` in the four packages; `t` is the type `property`. -/
def lookupSwitch : Stmt :=
  (.ite (.bin .lt (.var 3) (.lit (.num .untyped 128))) (.ret (.pair (.table 0 (.var 3)) (.lit (.num .untyped 1)))) (.ite
    (.bin .lt (.var 3) (.lit (.num .untyped 194))) (.ret (.pair (.lit (.num .untyped 0)) (.lit (.num .untyped 1)))) (.ite
    (.bin .lt (.var 3) (.lit (.num .untyped 224))) (.seq (.ite (.bin .lt (.len (.var 0)) (.lit (.num .untyped 2))) (.ret
    (.pair (.lit (.num .untyped 0)) (.lit (.num .untyped 0)))) .skip) (.seq (.define [some 4] (.table 1 (.var 3))) (.seq
    (.define [some 5] (.index (.var 0) (.lit (.num .untyped 1)))) (.seq (.ite (.or (.bin .lt (.var 5) (.lit
    (.num .untyped 128))) (.bin .le (.lit (.num .untyped 192)) (.var 5))) (.ret (.pair (.lit (.num .untyped 0)) (.lit
    (.num .untyped 1)))) .skip) (.ret (.pair (.call 1 (.pair (.conv .uint32 (.var 4)) (.var 5))) (.lit
    (.num .untyped 2)))))))) (.ite (.bin .lt (.var 3) (.lit (.num .untyped 240))) (.seq (.ite (.bin .lt (.len (.var 0)) (.lit
    (.num .untyped 3))) (.ret (.pair (.lit (.num .untyped 0)) (.lit (.num .untyped 0)))) .skip) (.seq (.define [some 6]
    (.table 1 (.var 3))) (.seq (.define [some 7] (.index (.var 0) (.lit (.num .untyped 1)))) (.seq (.ite (.or (.bin .lt
    (.var 7) (.lit (.num .untyped 128))) (.bin .le (.lit (.num .untyped 192)) (.var 7))) (.ret (.pair (.lit (.num .untyped 0))
    (.lit (.num .untyped 1)))) .skip) (.seq (.define [some 8] (.bin .add (.bin .shl (.conv .uint32 (.var 6)) (.lit
    (.num .untyped 6))) (.conv .uint32 (.var 7)))) (.seq (.assign [some 6] (.table 1 (.var 8))) (.seq (.define [some 9]
    (.index (.var 0) (.lit (.num .untyped 2)))) (.seq (.ite (.or (.bin .lt (.var 9) (.lit (.num .untyped 128))) (.bin .le
    (.lit (.num .untyped 192)) (.var 9))) (.ret (.pair (.lit (.num .untyped 0)) (.lit (.num .untyped 2)))) .skip) (.ret (.pair
    (.call 1 (.pair (.conv .uint32 (.var 6)) (.var 9))) (.lit (.num .untyped 3)))))))))))) (.ite (.bin .lt (.var 3) (.lit
    (.num .untyped 248))) (.seq (.ite (.bin .lt (.len (.var 0)) (.lit (.num .untyped 4))) (.ret (.pair (.lit
    (.num .untyped 0)) (.lit (.num .untyped 0)))) .skip) (.seq (.define [some 10] (.table 1 (.var 3))) (.seq
    (.define [some 11] (.index (.var 0) (.lit (.num .untyped 1)))) (.seq (.ite (.or (.bin .lt (.var 11) (.lit
    (.num .untyped 128))) (.bin .le (.lit (.num .untyped 192)) (.var 11))) (.ret (.pair (.lit (.num .untyped 0)) (.lit
    (.num .untyped 1)))) .skip) (.seq (.define [some 12] (.bin .add (.bin .shl (.conv .uint32 (.var 10)) (.lit
    (.num .untyped 6))) (.conv .uint32 (.var 11)))) (.seq (.assign [some 10] (.table 1 (.var 12))) (.seq (.define [some 13]
    (.index (.var 0) (.lit (.num .untyped 2)))) (.seq (.ite (.or (.bin .lt (.var 13) (.lit (.num .untyped 128))) (.bin .le
    (.lit (.num .untyped 192)) (.var 13))) (.ret (.pair (.lit (.num .untyped 0)) (.lit (.num .untyped 2)))) .skip) (.seq
    (.assign [some 12] (.bin .add (.bin .shl (.conv .uint32 (.var 10)) (.lit (.num .untyped 6))) (.conv .uint32 (.var 13))))
    (.seq (.assign [some 10] (.table 1 (.var 12))) (.seq (.define [some 14] (.index (.var 0) (.lit (.num .untyped 3)))) (.seq
    (.ite (.or (.bin .lt (.var 14) (.lit (.num .untyped 128))) (.bin .le (.lit (.num .untyped 192)) (.var 14))) (.ret (.pair
    (.lit (.num .untyped 0)) (.lit (.num .untyped 3)))) .skip) (.ret (.pair (.call 1 (.pair (.conv .uint32 (.var 10))
    (.var 14))) (.lit (.num .untyped 4)))))))))))))))) .skip)))))

def lookupCode (t : IntTy) : Func :=
  ⟨false, [none], [some t, some .int], 15,
   .seq (.define [some 1] (.lit (.num t 0))) (.seq (.define [some 2] (.lit (.num .int 0)))
    (.seq (.define [some 3] (.index (.var 0) (.lit (.num .untyped 0)))) (.seq lookupSwitch
      (.ret (.pair (.lit (.num .untyped 0)) (.lit (.num .untyped 1)))))))⟩

/-- The code of `lookupValue`. -/
def lookupValueCode (t : IntTy) : Func :=
  ⟨false, [some .uint32, some .uint8], [some t], 2,
  (.ret (.conv t (.table 0 (.bin .add (.bin .shl (.var 0) (.lit (.num .untyped 6))) (.conv .uint32 (.var 1))))))⟩

/-- The tables of a world are those of the trie, with entries that fit. -/
structure Tables (W : World) (T : Trie) (t : IntTy) : Prop where
  values : ∀ n : Nat, W.table 0 n = numRes t (tableAt T.values n)
  index : ∀ n : Nat, W.table 1 n = numRes t (tableAt T.index n)
  typed : t = .uint16 ∨ t = .uint32
  small : ∀ o v, tableAt T.index o = .ok v → v < 2 ^ 16
  fits : ∀ o v, tableAt T.values o = .ok v → wrap t v = v

theorem lookupValue_run {W : World} {T : Trie} {t : IntTy} (h : Tables W T t) (fuel n b : Nat) (hn : n < 2 ^ 16) (hb : b < 256) :
    ((lookupValueCode t).run W fuel (.pair (.num .uint32 n) (.num .uint8 b))).2 = numRes t (T.lookupValue n b) := by
  have e : ((n : Int) * 2 ^ 6 % 2 ^ 32 + (b : Int) % 2 ^ 32) % 2 ^ 32 = ((n * 64 + b : Nat) : Int) := by omega
  have e' : W.table 0 (((n : Int) * 2 ^ 6 % 2 ^ 32 + (b : Int) % 2 ^ 32) % 2 ^ 32) = numRes t (tableAt T.values (n * 64 + b)) := by
    rw [e, h.values]
  simp [Func.run, lookupValueCode, Val.typedAs, Val.typed, exec_ret, eval_conv, eval_table, eval_bin, eval_var, eval_lit, Op.ints,
    Op.apply, common, wrap, convOf, tableOf, Trie.lookupValue] at e' ⊢
  rw [e']
  cases e2 : tableAt T.values (n * 64 + b) with
  | error f => simp [numRes]
  | ok v =>
    have := h.fits _ _ e2
    rcases h.typed with rfl | rfl <;> simp [numRes, convOf, this, Val.tuple, Out.result, Val.typedAs]

theorem offset32 {i : Nat} (h : i < 2 ^ 16) (c : UInt8) :
    wrap .uint32 (wrap .uint32 (wrap .uint32 i * 2 ^ (6 : Int).toNat) + wrap .uint32 c.toNat) = ((i * 64 + c.toNat : Nat) : Int) := by
  have := c.toNat_lt
  simp only [wrap]
  show ((i : Int) % 2 ^ 32 * 2 ^ 6 % 2 ^ 32 + (c.toNat : Int) % 2 ^ 32) % 2 ^ 32 = _
  omega

theorem wrap32 {i : Nat} (h : i < 2 ^ 16) : wrap .uint32 i = i := by simp only [wrap]; omega

set_option linter.unusedSimpArgs false in
set_option maxRecDepth 10000 in
theorem lookup_run {W : World} {T : Trie} {t : IntTy} (h : Tables W T t) (fuel : Nat)
    (hc : ∀ n b : Nat, n < 2 ^ 16 → b < 256 → (W.call 1 (.pair (.num .uint32 n) (.num .uint8 b))).2 = numRes t (T.lookupValue n b))
    (s : Bytes) : ((lookupCode t).run W fuel (.bytes s)).2 = lookupRes t (T.lookup s) := by
  have ht : t ≠ .untyped := by rcases h.typed with rfl | rfl <;> simp
  rw [run_eq (vs := [.bytes s]) rfl]
  show ((exec W fuel (lookupCode t).body [.bytes s, .nil, .nil, .nil, .nil, .nil, .nil, .nil, .nil, .nil, .nil, .nil, .nil, .nil,
    .nil]).result [some t, some .int]).2 = _
  cases s with
  | nil => go_run [lookupCode, Val.index]; rfl
  | cons b0 t0 =>
    have e0 := h.values b0.toNat
    have e1 := h.index b0.toNat
    have l0 := b0.toNat_lt
    have i0 : Val.index (.bytes (b0 :: t0)) (.num .untyped 0) = .ok (.num .uint8 b0.toNat) := rfl
    by_cases c1 : b0.toNat < 0x80
    · have k1 : decide ((b0.toNat : Int) < 128) = true := by simp; omega
      cases f0 : tableAt T.values b0.toNat with
      | error f =>
        rw [f0] at e0
        go_run [lookupCode, i0, lookupSwitch, ht, k1, e0, numRes]
        simp [Trie.lookup, c1, f0, lookupRes]
      | ok v =>
        rw [f0] at e0
        go_run [lookupCode, i0, lookupSwitch, ht, k1, e0, numRes]
        simp [Trie.lookup, c1, f0, lookupRes, Out.result, Val.typedAs, Val.tuple, ht]
    have k1 : decide ((b0.toNat : Int) < 128) = false := by simp; omega
    by_cases c2 : b0.toNat < 0xC2
    · have k2 : decide ((b0.toNat : Int) < 194) = true := by simp; omega
      go_run [lookupCode, i0, lookupSwitch, ht, k1, k2]
      simp [Trie.lookup, c1, c2, lookupRes, Out.result, Val.typedAs, Val.tuple]
    have k2 : decide ((b0.toNat : Int) < 194) = false := by simp; omega
    by_cases c3 : b0.toNat < 0xE0
    · have k3 : decide ((b0.toNat : Int) < 224) = true := by simp; omega
      cases t0 with
      | nil =>
        go_run [lookupCode, i0, lookupSwitch, ht, k1, k2, k3, List.length]
        simp [Trie.lookup, c1, c2, c3, lookupRes, Out.result, Val.typedAs, Val.tuple]
      | cons b1 t1 =>
        have i1 : Val.index (.bytes (b0 :: b1 :: t1)) (.num .untyped 1) = .ok (.num .uint8 b1.toNat) := rfl
        have l1 := b1.toNat_lt
        have kl : decide (((b0 :: b1 :: t1).length : Int) < 2) = false := by simp; omega
        cases f0 : tableAt T.index b0.toNat with
        | error f =>
          rw [f0] at e1
          go_run [lookupCode, i0, lookupSwitch, ht, k1, k2, k3, kl, i1, e1, numRes]
          simp [Trie.lookup, c1, c2, c3, f0, lookupRes]
        | ok i =>
          rw [f0] at e1
          have hi := h.small _ _ f0
          have w32 := wrap32 hi
          simp only [wrap] at w32
          by_cases n1 : notCont b1.toNat
          · have m1 : (decide ((b1.toNat : Int) < 128) || decide ((192 : Int) ≤ (b1.toNat : Int))) = true := by
              simp [notCont] at n1 ⊢; omega
            go_run [lookupCode, i0, lookupSwitch, ht, k1, k2, k3, kl, i1, e1, numRes, m1]
            simp [Trie.lookup, c1, c2, c3, f0, n1, lookupRes, Out.result, Val.typedAs, Val.tuple]
          · have m1 : (decide ((b1.toNat : Int) < 128) || decide ((192 : Int) ≤ (b1.toNat : Int))) = false := by
              simp [notCont] at n1 ⊢; omega
            have g := hc i b1.toNat hi l1
            cases fv : T.lookupValue i b1.toNat with
            | error f =>
              rw [fv] at g
              go_run [lookupCode, i0, lookupSwitch, ht, k1, k2, k3, kl, i1, e1, numRes, m1, w32, g]
              simp [Trie.lookup, c1, c2, c3, f0, n1, fv, lookupRes]
            | ok v =>
              rw [fv] at g
              go_run [lookupCode, i0, lookupSwitch, ht, k1, k2, k3, kl, i1, e1, numRes, m1, w32, g]
              simp [Trie.lookup, c1, c2, c3, f0, n1, fv, lookupRes, Out.result, Val.typedAs, Val.tuple, ht]
    have k3 : decide ((b0.toNat : Int) < 224) = false := by simp; omega
    by_cases c4 : b0.toNat < 0xF0
    · have k4 : decide ((b0.toNat : Int) < 240) = true := by simp; omega
      cases t0 with
      | nil =>
        have kl : decide (((b0 :: []).length : Int) < 3) = true := by simp
        go_run [lookupCode, i0, lookupSwitch, ht, k1, k2, k3, k4, kl]
        simp [Trie.lookup, c1, c2, c3, c4, lookupRes, Out.result, Val.typedAs, Val.tuple, ht]
      | cons b1 t1 =>
        cases t1 with
        | nil =>
          have kl : decide (((b0 :: b1 :: []).length : Int) < 3) = true := by simp
          go_run [lookupCode, i0, lookupSwitch, ht, k1, k2, k3, k4, kl]
          simp [Trie.lookup, c1, c2, c3, c4, lookupRes, Out.result, Val.typedAs, Val.tuple, ht]
        | cons b2 t2 =>
          have kl : decide (((b0 :: b1 :: b2 :: t2).length : Int) < 3) = false := by simp; omega
          have i1 : Val.index (.bytes (b0 :: b1 :: b2 :: t2)) (.num .untyped 1) = .ok (.num .uint8 b1.toNat) := rfl
          have l1 := b1.toNat_lt
          have i2 : Val.index (.bytes (b0 :: b1 :: b2 :: t2)) (.num .untyped 2) = .ok (.num .uint8 b2.toNat) := rfl
          have l2 := b2.toNat_lt
          cases f0 : tableAt T.index b0.toNat with
          | error f =>
            rw [f0] at e1
            go_run [lookupCode, i0, lookupSwitch, ht, k1, k2, k3, k4, kl, e1, numRes]
            simp [Trie.lookup, c1, c2, c3, c4, f0, lookupRes, Out.result, Val.typedAs, Val.tuple, ht]
          | ok x0 =>
            rw [f0] at e1
            have h1 := h.small _ _ f0
            have w1 := wrap32 h1
            simp only [wrap] at w1
            by_cases n1 : notCont b1.toNat
            · have m1 : (decide ((b1.toNat : Int) < 128) || decide ((192 : Int) ≤ (b1.toNat : Int))) = true := by
                  simp [notCont] at n1 ⊢; omega
              go_run [lookupCode, i0, lookupSwitch, ht, k1, k2, k3, k4, kl, e1, numRes, i1, m1]
              simp [Trie.lookup, c1, c2, c3, c4, f0, n1, lookupRes, Out.result, Val.typedAs, Val.tuple, ht]
            have m1 : (decide ((b1.toNat : Int) < 128) || decide ((192 : Int) ≤ (b1.toNat : Int))) = false := by
                simp [notCont] at n1 ⊢; omega
            have o1 := offset32 h1 b1
            simp only [wrap] at o1
            have g1 := h.index (x0 * 64 + b1.toNat)
            cases f1 : tableAt T.index (x0 * 64 + b1.toNat) with
            | error f =>
              rw [f1] at g1
              go_run [lookupCode, i0, lookupSwitch, ht, k1, k2, k3, k4, kl, e1, numRes, i1, m1, o1, g1]
              simp [Trie.lookup, c1, c2, c3, c4, f0, n1, f1, lookupRes, Out.result, Val.typedAs, Val.tuple, ht]
            | ok x1 =>
              rw [f1] at g1
              have h2 := h.small _ _ f1
              have w2 := wrap32 h2
              simp only [wrap] at w2
              by_cases n2 : notCont b2.toNat
              · have m2 : (decide ((b2.toNat : Int) < 128) || decide ((192 : Int) ≤ (b2.toNat : Int))) = true := by
                    simp [notCont] at n2 ⊢; omega
                go_run [lookupCode, i0, lookupSwitch, ht, k1, k2, k3, k4, kl, e1, numRes, i1, m1, o1, g1, i2, m2]
                simp [Trie.lookup, c1, c2, c3, c4, f0, n1, f1, n2, lookupRes, Out.result, Val.typedAs, Val.tuple, ht]
              have m2 : (decide ((b2.toNat : Int) < 128) || decide ((192 : Int) ≤ (b2.toNat : Int))) = false := by
                  simp [notCont] at n2 ⊢; omega
              have g := hc x1 b2.toNat h2 l2
              cases fv : T.lookupValue x1 b2.toNat with
              | error f =>
                rw [fv] at g
                go_run [lookupCode, i0, lookupSwitch, ht, k1, k2, k3, k4, kl, e1, numRes, i1, m1, o1, g1, i2, m2, w2, g]
                simp [Trie.lookup, c1, c2, c3, c4, f0, n1, f1, n2, fv, lookupRes, Out.result, Val.typedAs, Val.tuple, ht]
              | ok v =>
                rw [fv] at g
                go_run [lookupCode, i0, lookupSwitch, ht, k1, k2, k3, k4, kl, e1, numRes, i1, m1, o1, g1, i2, m2, w2, g]
                simp [Trie.lookup, c1, c2, c3, c4, f0, n1, f1, n2, fv, lookupRes, Out.result, Val.typedAs, Val.tuple, ht]
    have k4 : decide ((b0.toNat : Int) < 240) = false := by simp; omega
    by_cases c5 : b0.toNat < 0xF8
    · have k5 : decide ((b0.toNat : Int) < 248) = true := by simp; omega
      cases t0 with
      | nil =>
        have kl : decide (((b0 :: []).length : Int) < 4) = true := by simp
        go_run [lookupCode, i0, lookupSwitch, ht, k1, k2, k3, k4, k5, kl]
        simp [Trie.lookup, c1, c2, c3, c4, c5, lookupRes, Out.result, Val.typedAs, Val.tuple, ht]
      | cons b1 t1 =>
        cases t1 with
        | nil =>
          have kl : decide (((b0 :: b1 :: []).length : Int) < 4) = true := by simp
          go_run [lookupCode, i0, lookupSwitch, ht, k1, k2, k3, k4, k5, kl]
          simp [Trie.lookup, c1, c2, c3, c4, c5, lookupRes, Out.result, Val.typedAs, Val.tuple, ht]
        | cons b2 t2 =>
          cases t2 with
          | nil =>
            have kl : decide (((b0 :: b1 :: b2 :: []).length : Int) < 4) = true := by simp
            go_run [lookupCode, i0, lookupSwitch, ht, k1, k2, k3, k4, k5, kl]
            simp [Trie.lookup, c1, c2, c3, c4, c5, lookupRes, Out.result, Val.typedAs, Val.tuple, ht]
          | cons b3 t3 =>
            have kl : decide (((b0 :: b1 :: b2 :: b3 :: t3).length : Int) < 4) = false := by simp; omega
            have i1 : Val.index (.bytes (b0 :: b1 :: b2 :: b3 :: t3)) (.num .untyped 1) = .ok (.num .uint8 b1.toNat) := rfl
            have l1 := b1.toNat_lt
            have i2 : Val.index (.bytes (b0 :: b1 :: b2 :: b3 :: t3)) (.num .untyped 2) = .ok (.num .uint8 b2.toNat) := rfl
            have l2 := b2.toNat_lt
            have i3 : Val.index (.bytes (b0 :: b1 :: b2 :: b3 :: t3)) (.num .untyped 3) = .ok (.num .uint8 b3.toNat) := rfl
            have l3 := b3.toNat_lt
            cases f0 : tableAt T.index b0.toNat with
            | error f =>
              rw [f0] at e1
              go_run [lookupCode, i0, lookupSwitch, ht, k1, k2, k3, k4, k5, kl, e1, numRes]
              simp [Trie.lookup, c1, c2, c3, c4, c5, f0, lookupRes, Out.result, Val.typedAs, Val.tuple, ht]
            | ok x0 =>
              rw [f0] at e1
              have h1 := h.small _ _ f0
              have w1 := wrap32 h1
              simp only [wrap] at w1
              by_cases n1 : notCont b1.toNat
              · have m1 : (decide ((b1.toNat : Int) < 128) || decide ((192 : Int) ≤ (b1.toNat : Int))) = true := by
                    simp [notCont] at n1 ⊢; omega
                go_run [lookupCode, i0, lookupSwitch, ht, k1, k2, k3, k4, k5, kl, e1, numRes, i1, m1]
                simp [Trie.lookup, c1, c2, c3, c4, c5, f0, n1, lookupRes, Out.result, Val.typedAs, Val.tuple, ht]
              have m1 : (decide ((b1.toNat : Int) < 128) || decide ((192 : Int) ≤ (b1.toNat : Int))) = false := by
                  simp [notCont] at n1 ⊢; omega
              have o1 := offset32 h1 b1
              simp only [wrap] at o1
              have g1 := h.index (x0 * 64 + b1.toNat)
              cases f1 : tableAt T.index (x0 * 64 + b1.toNat) with
              | error f =>
                rw [f1] at g1
                go_run [lookupCode, i0, lookupSwitch, ht, k1, k2, k3, k4, k5, kl, e1, numRes, i1, m1, o1, g1]
                simp [Trie.lookup, c1, c2, c3, c4, c5, f0, n1, f1, lookupRes, Out.result, Val.typedAs, Val.tuple, ht]
              | ok x1 =>
                rw [f1] at g1
                have h2 := h.small _ _ f1
                have w2 := wrap32 h2
                simp only [wrap] at w2
                by_cases n2 : notCont b2.toNat
                · have m2 : (decide ((b2.toNat : Int) < 128) || decide ((192 : Int) ≤ (b2.toNat : Int))) = true := by
                      simp [notCont] at n2 ⊢; omega
                  go_run [lookupCode, i0, lookupSwitch, ht, k1, k2, k3, k4, k5, kl, e1, numRes, i1, m1, o1, g1, i2, m2]
                  simp [Trie.lookup, c1, c2, c3, c4, c5, f0, n1, f1, n2, lookupRes, Out.result, Val.typedAs, Val.tuple, ht]
                have m2 : (decide ((b2.toNat : Int) < 128) || decide ((192 : Int) ≤ (b2.toNat : Int))) = false := by
                    simp [notCont] at n2 ⊢; omega
                have o2 := offset32 h2 b2
                simp only [wrap] at o2
                have g2 := h.index (x1 * 64 + b2.toNat)
                cases f2 : tableAt T.index (x1 * 64 + b2.toNat) with
                | error f =>
                  rw [f2] at g2
                  go_run [lookupCode, i0, lookupSwitch, ht, k1, k2, k3, k4, k5, kl, e1, numRes, i1, m1, o1, g1, i2, m2, o2, g2]
                  simp [Trie.lookup, c1, c2, c3, c4, c5, f0, n1, f1, n2, f2, lookupRes, Out.result, Val.typedAs, Val.tuple, ht]
                | ok x2 =>
                  rw [f2] at g2
                  have h3 := h.small _ _ f2
                  have w3 := wrap32 h3
                  simp only [wrap] at w3
                  by_cases n3 : notCont b3.toNat
                  · have m3 : (decide ((b3.toNat : Int) < 128) || decide ((192 : Int) ≤ (b3.toNat : Int))) = true := by
                        simp [notCont] at n3 ⊢; omega
                    go_run [lookupCode, i0, lookupSwitch, ht, k1, k2, k3, k4, k5, kl, e1, numRes, i1, m1, o1, g1, i2, m2, o2, g2, i3, m3]
                    simp [Trie.lookup, c1, c2, c3, c4, c5, f0, n1, f1, n2, f2, n3, lookupRes, Out.result, Val.typedAs, Val.tuple, ht]
                  have m3 : (decide ((b3.toNat : Int) < 128) || decide ((192 : Int) ≤ (b3.toNat : Int))) = false := by
                      simp [notCont] at n3 ⊢; omega
                  have g := hc x2 b3.toNat h3 l3
                  cases fv : T.lookupValue x2 b3.toNat with
                  | error f =>
                    rw [fv] at g
                    go_run [lookupCode, i0, lookupSwitch, ht, k1, k2, k3, k4, k5, kl, e1, numRes, i1, m1, o1, g1, i2, m2, o2, g2, i3, m3, w3, g]
                    simp [Trie.lookup, c1, c2, c3, c4, c5, f0, n1, f1, n2, f2, n3, fv, lookupRes, Out.result, Val.typedAs, Val.tuple, ht]
                  | ok v =>
                    rw [fv] at g
                    go_run [lookupCode, i0, lookupSwitch, ht, k1, k2, k3, k4, k5, kl, e1, numRes, i1, m1, o1, g1, i2, m2, o2, g2, i3, m3, w3, g]
                    simp [Trie.lookup, c1, c2, c3, c4, c5, f0, n1, f1, n2, f2, n3, fv, lookupRes, Out.result, Val.typedAs, Val.tuple, ht]
    have k5 : decide ((b0.toNat : Int) < 248) = false := by simp; omega
    go_run [lookupCode, i0, lookupSwitch, ht, k1, k2, k3, k4, k5]
    simp [Trie.lookup, c1, c2, c3, c4, c5, lookupRes, Out.result, Val.typedAs, Val.tuple, ht]

end Uax29.Source
