import Verif.Proofs.GoLoops
import Verif.Model.Ansi
import Verif.Table.GraphemesCode
/-! # The code of graphemes/ansi.go and graphemes/ansi8.go and the model -/
namespace Uax29.Source

theorem le_lit (n k : Nat) : decide ((n : Int) ≤ (no_index (OfNat.ofNat k) : Int)) = decide (n ≤ (OfNat.ofNat k : Nat)) := by
  show decide ((n : Int) ≤ (k : Int)) = decide (n ≤ k); simp
theorem lit_le (n k : Nat) : decide ((no_index (OfNat.ofNat k) : Int) ≤ (n : Int)) = decide ((OfNat.ofNat k : Nat) ≤ n) := by
  show decide ((k : Int) ≤ (n : Int)) = decide (k ≤ n); simp
theorem lt_lit (n k : Nat) : decide ((n : Int) < (no_index (OfNat.ofNat k) : Int)) = decide (n < (OfNat.ofNat k : Nat)) := by
  show decide ((n : Int) < (k : Int)) = decide (n < k); simp
theorem lit_lt (n k : Nat) : decide ((no_index (OfNat.ofNat k) : Int) < (n : Int)) = decide ((OfNat.ofNat k : Nat) < n) := by
  show decide ((k : Int) < (n : Int)) = decide (k < n); simp
theorem eq_lit (n k : Nat) : decide ((n : Int) = (no_index (OfNat.ofNat k) : Int)) = decide (n = (OfNat.ofNat k : Nat)) := by
  show decide ((n : Int) = (k : Int)) = decide (n = k); congr 1; simp; omega
theorem ne_lit (n k : Nat) : decide ((n : Int) ≠ (no_index (OfNat.ofNat k) : Int)) = decide (n ≠ (OfNat.ofNat k : Nat)) := by
  show decide ((n : Int) ≠ (k : Int)) = decide (n ≠ k); congr 1; simp; omega

/-- The entry at the end of `pre`. -/
theorem index_append (pre rest : Bytes) (x : UInt8) : Val.index (.bytes (pre ++ x :: rest)) (.num .int pre.length) = .ok (.num .uint8 x.toNat) := by
  simp [Val.index]

theorem lt_append (pre rest : Bytes) (x : UInt8) : decide (pre.length < (pre ++ x :: rest).length) = true := by simp

/-- An index, or -1. -/
def optVal : Option Nat → Int
  | none => -1
  | some k => k
end Uax29.Source

namespace Uax29.Graphemes
open Source

section
variable {W : World} {g : Nat}

/-- One pass of the loop of `csiBodyLength`. -/
def csiPass (W : World) (g : Nat) : Env → Out :=
  loopPass W g 1 (.bin .lt (.var 2) (.len (.var 0))) (.assign [some 2] (.bin .add (.var 2) (.lit (.num .untyped 1))))
    (.seq Code.csiBodyLength_s2 (.seq Code.csiBodyLength_s3 (.seq Code.csiBodyLength_s4 (.seq Code.csiBodyLength_s5 Code.csiBodyLength_s6))))

theorem csi_loop (data : Bytes) : ∀ (l pre : Bytes) (fuel : Nat) (seen : Bool) (x : Val), pre ++ l = data → l.length < fuel →
    (((passes (csiPass W g) fuel [.bytes data, .bool seen, .num .int pre.length, x]).ofLoop.andThen
      (exec W g Code.csiBodyLength_s9)).result [some .int]).2 = .ok (.num .int (csiLoop seen pre.length l)) := by
  intro l
  induction l with
  | nil =>
    intro pre fuel seen x hp hf
    obtain ⟨fuel, rfl⟩ : ∃ k, fuel = k + 1 := ⟨fuel - 1, by simp at hf; omega⟩
    have kc : decide (pre.length < data.length) = false := by subst hp; simp
    have e : csiPass W g [.bytes data, .bool seen, .num .int pre.length, x] = .brk 0 [.bytes data, .bool seen, .num .int pre.length, x] := by
      unfold csiPass loopPass
      go_run [decide_natCast_lt, kc]
    simp only [passes, e]
    rfl
  | cons a l ih =>
    intro pre fuel seen x hp hf
    obtain ⟨fuel, rfl⟩ : ∃ k, fuel = k + 1 := ⟨fuel - 1, by simp at hf; omega⟩
    have kc := lt_append pre l a
    have ki := index_append pre l a
    rw [hp] at kc ki
    have ih := fun seen => ih (pre ++ [a]) fuel seen (.num .uint8 a.toNat) (by simp [hp]) (by simp at hf; omega)
    simp only [List.length_append, List.length_cons, List.length_nil, Nat.zero_add, Int.natCast_add, Int.cast_ofNat_Int] at ih
    simp only [passes]
    have e : csiPass W g [.bytes data, .bool seen, .num .int pre.length, x]
        = (let b := a.toNat
          let env := fun s (i : Int) => [.bytes data, .bool s, .num .int i, .num .uint8 a.toNat]
          if 0x30 ≤ b ∧ b ≤ 0x3F then
            if seen then .ret (.num .untyped 0) (env seen pre.length) else .next (env seen (pre.length + 1))
          else if 0x20 ≤ b ∧ b ≤ 0x2F then .next (env true (pre.length + 1))
          else if 0x40 ≤ b ∧ b ≤ 0x7E then .ret (.num .int (pre.length + 1)) (env seen pre.length)
          else .ret (.num .untyped 0) (env seen pre.length)) := by
      unfold csiPass loopPass Code.csiBodyLength_s2 Code.csiBodyLength_s3 Code.csiBodyLength_s4 Code.csiBodyLength_s5 Code.csiBodyLength_s6
      go_run [decide_natCast_lt, kc, ki, lit_le, le_lit, Bool.and_eq_true, decide_eq_true_eq]
      repeat' split
      all_goals first | rfl | (exfalso; omega) | skip
    rw [e]
    simp only [csiLoop]
    repeat' split
    all_goals first | rfl | (simp only [andThen_next]; rw [ih]) 
theorem csiBodyLength_run (data : Bytes) (hg : data.length < g) :
    (Code.csiBodyLength.run W g (.bytes data)).2 = .ok (.num .int (csiBodyLength data)) := by
  rw [run_eq (vs := [.bytes data]) rfl]
  have h := csi_loop (W := W) (g := g) data data [] g false .nil rfl hg
  show ((exec W g Code.csiBodyLength.body [.bytes data, .nil, .nil, .nil]).result [some .int]).2 = _
  unfold Code.csiBodyLength Code.csiBodyLength_s0 Code.csiBodyLength_s8 Code.csiBodyLength_s1 Code.csiBodyLength_s7
  go_run [exec_loop]
  exact h

/-- One pass of the loop of `oscLength`. -/
def oscLengthPass (W : World) (g : Nat) : Env → Out :=
  loopPass W g 1 (.bin .lt (.var 1) (.len (.var 0))) (.assign [some 1] (.bin .add (.var 1) (.lit (.num .untyped 1))))
    (.seq Code.oscLength_s1 (.seq Code.oscLength_s2 (.seq Code.oscLength_s3 Code.oscLength_s4)))

theorem oscLength_loop (data : Bytes) : ∀ (l pre : Bytes) (fuel : Nat) (x : Val), pre ++ l = data → l.length < fuel →
    (((passes (oscLengthPass W g) fuel [.bytes data, .num .int pre.length, x]).ofLoop.andThen
      (exec W g Code.oscLength_s7)).result [some .int]).2 = .ok (.num .int (optVal (oscLoop pre.length l))) := by
  intro l
  induction l with
  | nil =>
    intro pre fuel x hp hf
    obtain ⟨fuel, rfl⟩ : ∃ k, fuel = k + 1 := ⟨fuel - 1, by simp at hf; omega⟩
    have kc : decide (pre.length < data.length) = false := by subst hp; simp
    have e : oscLengthPass W g [.bytes data, .num .int pre.length, x] = .brk 0 [.bytes data, .num .int pre.length, x] := by
      unfold oscLengthPass loopPass
      go_run [decide_natCast_lt, kc]
    simp only [passes, e]
    rfl
  | cons a l ih =>
    intro pre fuel x hp hf
    obtain ⟨fuel, rfl⟩ : ∃ k, fuel = k + 1 := ⟨fuel - 1, by simp at hf; omega⟩
    have kc := lt_append pre l a
    have ki := index_append pre l a
    rw [hp] at kc ki
    have ih := ih (pre ++ [a]) fuel (.num .uint8 a.toNat) (by simp [hp]) (by simp at hf; omega)
    simp only [List.length_append, List.length_cons, List.length_nil, Nat.zero_add, Int.natCast_add, Int.cast_ofNat_Int] at ih
    simp only [passes]
    have e : oscLengthPass W g [.bytes data, .num .int pre.length, x]
        = (let b := a.toNat
          let env := fun (i : Int) => [.bytes data, .num .int i, .num .uint8 a.toNat]
          if b = bel then .ret (.num .int (pre.length + 1)) (env pre.length)
          else if b = can ∨ b = sub then .ret (.num .int pre.length) (env pre.length)
          else if isST7 a l then .ret (.num .int (pre.length + 2)) (env pre.length)
          else .next (env (pre.length + 1))) := by
      unfold oscLengthPass loopPass Code.oscLength_s1 Code.oscLength_s2 Code.oscLength_s3 Code.oscLength_s4
      cases l with
      | nil =>
        have kn : decide ((pre.length : Int) + 1 < data.length) = false := by subst hp; simp
        go_run [decide_natCast_lt, kc, ki, eq_lit, Bool.or_eq_true, decide_eq_true_eq, kn, Bool.and_false, isST7]
        repeat' split
        all_goals first | rfl | (exfalso; simp only [bel, can, sub] at *; omega) | skip
      | cons y l =>
        have kn : decide ((pre.length : Int) + 1 < data.length) = true := by subst hp; simp; omega
        have kj : Val.index (.bytes data) (.num .int ((pre.length : Int) + 1)) = .ok (.num .uint8 y.toNat) := by
          have := index_append (pre ++ [a]) l y
          simpa [hp] using this
        go_run [decide_natCast_lt, kc, ki, eq_lit, Bool.or_eq_true, Bool.and_eq_true, decide_eq_true_eq, kn, kj, Bool.and_true, isST7, beq_iff_eq, esc]
        repeat' split
        all_goals first | rfl | (exfalso; simp only [bel, can, sub] at *; omega) | skip
    rw [e]
    simp only [oscLoop]
    repeat' split
    all_goals first | rfl | (simp only [andThen_next]; rw [ih])

theorem oscLength_run (data : Bytes) (hg : data.length < g) : (Code.oscLength.run W g (.bytes data)).2 = .ok (.num .int (optVal (oscLength data))) := by
  rw [run_eq (vs := [.bytes data]) rfl]
  have h := oscLength_loop (W := W) (g := g) data data [] g .nil rfl hg
  show ((exec W g Code.oscLength.body [.bytes data, .nil, .nil]).result [some .int]).2 = _
  unfold Code.oscLength Code.oscLength_s6 Code.oscLength_s0 Code.oscLength_s5
  go_run [exec_loop]
  exact h

/-- One pass of the loop of `stSequenceLength`. -/
def stSequenceLengthPass (W : World) (g : Nat) : Env → Out :=
  loopPass W g 1 (.bin .lt (.var 1) (.len (.var 0))) (.assign [some 1] (.bin .add (.var 1) (.lit (.num .untyped 1))))
    (.seq Code.stSequenceLength_s1 Code.stSequenceLength_s2)

theorem stSequenceLength_loop (data : Bytes) : ∀ (l pre : Bytes) (fuel : Nat), pre ++ l = data → l.length < fuel →
    (((passes (stSequenceLengthPass W g) fuel [.bytes data, .num .int pre.length]).ofLoop.andThen
      (exec W g Code.stSequenceLength_s5)).result [some .int]).2 = .ok (.num .int (optVal (stLoop pre.length l))) := by
  intro l
  induction l with
  | nil =>
    intro pre fuel hp hf
    obtain ⟨fuel, rfl⟩ : ∃ k, fuel = k + 1 := ⟨fuel - 1, by simp at hf; omega⟩
    have kc : decide (pre.length < data.length) = false := by subst hp; simp
    have e : stSequenceLengthPass W g [.bytes data, .num .int pre.length] = .brk 0 [.bytes data, .num .int pre.length] := by
      unfold stSequenceLengthPass loopPass
      go_run [decide_natCast_lt, kc]
    simp only [passes, e]
    rfl
  | cons a l ih =>
    intro pre fuel hp hf
    obtain ⟨fuel, rfl⟩ : ∃ k, fuel = k + 1 := ⟨fuel - 1, by simp at hf; omega⟩
    have kc := lt_append pre l a
    have ki := index_append pre l a
    rw [hp] at kc ki
    have ih := ih (pre ++ [a]) fuel (by simp [hp]) (by simp at hf; omega)
    simp only [List.length_append, List.length_cons, List.length_nil, Nat.zero_add, Int.natCast_add, Int.cast_ofNat_Int] at ih
    simp only [passes]
    have e : stSequenceLengthPass W g [.bytes data, .num .int pre.length]
        = (let b := a.toNat
          let env := fun (i : Int) => [.bytes data, .num .int i]
          if b = can ∨ b = sub then .ret (.num .int pre.length) (env pre.length)
          else if isST7 a l then .ret (.num .int (pre.length + 2)) (env pre.length)
          else .next (env (pre.length + 1))) := by
      unfold stSequenceLengthPass loopPass Code.stSequenceLength_s1 Code.stSequenceLength_s2
      cases l with
      | nil =>
        have kn : decide ((pre.length : Int) + 1 < data.length) = false := by subst hp; simp
        go_run [decide_natCast_lt, kc, ki, eq_lit, Bool.or_eq_true, decide_eq_true_eq, kn, Bool.and_false, isST7]
        repeat' split
        all_goals first | rfl | (exfalso; simp only [can, sub] at *; omega) | skip
      | cons y l =>
        have kn : decide ((pre.length : Int) + 1 < data.length) = true := by subst hp; simp; omega
        have kj : Val.index (.bytes data) (.num .int ((pre.length : Int) + 1)) = .ok (.num .uint8 y.toNat) := by
          have := index_append (pre ++ [a]) l y
          simpa [hp] using this
        go_run [decide_natCast_lt, kc, ki, eq_lit, Bool.or_eq_true, Bool.and_eq_true, decide_eq_true_eq, kn, kj, Bool.and_true, isST7, beq_iff_eq, esc]
        repeat' split
        all_goals first | rfl | (exfalso; simp only [can, sub] at *; omega) | skip
    rw [e]
    simp only [stLoop]
    repeat' split
    all_goals first | rfl | (simp only [andThen_next]; rw [ih])

theorem stSequenceLength_run (data : Bytes) (hg : data.length < g) : (Code.stSequenceLength.run W g (.bytes data)).2 = .ok (.num .int (optVal (stSequenceLength data))) := by
  rw [run_eq (vs := [.bytes data]) rfl]
  have h := stSequenceLength_loop (W := W) (g := g) data data [] g rfl hg
  show ((exec W g Code.stSequenceLength.body [.bytes data, .nil]).result [some .int]).2 = _
  unfold Code.stSequenceLength Code.stSequenceLength_s4 Code.stSequenceLength_s0 Code.stSequenceLength_s3
  go_run [exec_loop]
  exact h

/-- One pass of the loop of `oscLengthC1`. -/
def oscLengthC1Pass (W : World) (g : Nat) : Env → Out :=
  loopPass W g 1 (.bin .lt (.var 1) (.len (.var 0))) (.assign [some 1] (.bin .add (.var 1) (.lit (.num .untyped 1))))
    (.seq Code.oscLengthC1_s1 (.seq Code.oscLengthC1_s2 Code.oscLengthC1_s3))

theorem oscLengthC1_loop (data : Bytes) : ∀ (l pre : Bytes) (fuel : Nat) (x : Val), pre ++ l = data → l.length < fuel →
    (((passes (oscLengthC1Pass W g) fuel [.bytes data, .num .int pre.length, x]).ofLoop.andThen
      (exec W g Code.oscLengthC1_s6)).result [some .int]).2 = .ok (.num .int (optVal (oscLoopC1 pre.length l))) := by
  intro l
  induction l with
  | nil =>
    intro pre fuel x hp hf
    obtain ⟨fuel, rfl⟩ : ∃ k, fuel = k + 1 := ⟨fuel - 1, by simp at hf; omega⟩
    have kc : decide (pre.length < data.length) = false := by subst hp; simp
    have e : oscLengthC1Pass W g [.bytes data, .num .int pre.length, x] = .brk 0 [.bytes data, .num .int pre.length, x] := by
      unfold oscLengthC1Pass loopPass
      go_run [decide_natCast_lt, kc]
    simp only [passes, e]
    rfl
  | cons a l ih =>
    intro pre fuel x hp hf
    obtain ⟨fuel, rfl⟩ : ∃ k, fuel = k + 1 := ⟨fuel - 1, by simp at hf; omega⟩
    have kc := lt_append pre l a
    have ki := index_append pre l a
    rw [hp] at kc ki
    have ih := ih (pre ++ [a]) fuel (.num .uint8 a.toNat) (by simp [hp]) (by simp at hf; omega)
    simp only [List.length_append, List.length_cons, List.length_nil, Nat.zero_add, Int.natCast_add, Int.cast_ofNat_Int] at ih
    simp only [passes]
    have e : oscLengthC1Pass W g [.bytes data, .num .int pre.length, x]
        = (let b := a.toNat
          let env := fun (i : Int) => [.bytes data, .num .int i, .num .uint8 a.toNat]
          if b = bel ∨ b = st then .ret (.num .int (pre.length + 1)) (env pre.length)
          else if b = can ∨ b = sub then .ret (.num .int pre.length) (env pre.length)
          else .next (env (pre.length + 1))) := by
      unfold oscLengthC1Pass loopPass Code.oscLengthC1_s1 Code.oscLengthC1_s2 Code.oscLengthC1_s3
      go_run [decide_natCast_lt, kc, ki, eq_lit, Bool.or_eq_true, decide_eq_true_eq]
      repeat' split
      all_goals first | rfl | (exfalso; simp only [bel, can, sub, st] at *; omega) | skip
    rw [e]
    simp only [oscLoopC1]
    repeat' split
    all_goals first | rfl | (simp only [andThen_next]; rw [ih])

theorem oscLengthC1_run (data : Bytes) (hg : data.length < g) : (Code.oscLengthC1.run W g (.bytes data)).2 = .ok (.num .int (optVal (oscLengthC1 data))) := by
  rw [run_eq (vs := [.bytes data]) rfl]
  have h := oscLengthC1_loop (W := W) (g := g) data data [] g .nil rfl hg
  show ((exec W g Code.oscLengthC1.body [.bytes data, .nil, .nil]).result [some .int]).2 = _
  unfold Code.oscLengthC1 Code.oscLengthC1_s5 Code.oscLengthC1_s0 Code.oscLengthC1_s4
  go_run [exec_loop]
  exact h

/-- One pass of the loop of `stSequenceLengthC1`. -/
def stSequenceLengthC1Pass (W : World) (g : Nat) : Env → Out :=
  loopPass W g 1 (.bin .lt (.var 1) (.len (.var 0))) (.assign [some 1] (.bin .add (.var 1) (.lit (.num .untyped 1))))
    (.seq Code.stSequenceLengthC1_s1 (.seq Code.stSequenceLengthC1_s2 Code.stSequenceLengthC1_s3))

theorem stSequenceLengthC1_loop (data : Bytes) : ∀ (l pre : Bytes) (fuel : Nat) (x : Val), pre ++ l = data → l.length < fuel →
    (((passes (stSequenceLengthC1Pass W g) fuel [.bytes data, .num .int pre.length, x]).ofLoop.andThen
      (exec W g Code.stSequenceLengthC1_s6)).result [some .int]).2 = .ok (.num .int (optVal (stLoopC1 pre.length l))) := by
  intro l
  induction l with
  | nil =>
    intro pre fuel x hp hf
    obtain ⟨fuel, rfl⟩ : ∃ k, fuel = k + 1 := ⟨fuel - 1, by simp at hf; omega⟩
    have kc : decide (pre.length < data.length) = false := by subst hp; simp
    have e : stSequenceLengthC1Pass W g [.bytes data, .num .int pre.length, x] = .brk 0 [.bytes data, .num .int pre.length, x] := by
      unfold stSequenceLengthC1Pass loopPass
      go_run [decide_natCast_lt, kc]
    simp only [passes, e]
    rfl
  | cons a l ih =>
    intro pre fuel x hp hf
    obtain ⟨fuel, rfl⟩ : ∃ k, fuel = k + 1 := ⟨fuel - 1, by simp at hf; omega⟩
    have kc := lt_append pre l a
    have ki := index_append pre l a
    rw [hp] at kc ki
    have ih := ih (pre ++ [a]) fuel (.num .uint8 a.toNat) (by simp [hp]) (by simp at hf; omega)
    simp only [List.length_append, List.length_cons, List.length_nil, Nat.zero_add, Int.natCast_add, Int.cast_ofNat_Int] at ih
    simp only [passes]
    have e : stSequenceLengthC1Pass W g [.bytes data, .num .int pre.length, x]
        = (let b := a.toNat
          let env := fun (i : Int) => [.bytes data, .num .int i, .num .uint8 a.toNat]
          if b = can ∨ b = sub then .ret (.num .int pre.length) (env pre.length)
          else if b = st then .ret (.num .int (pre.length + 1)) (env pre.length)
          else .next (env (pre.length + 1))) := by
      unfold stSequenceLengthC1Pass loopPass Code.stSequenceLengthC1_s1 Code.stSequenceLengthC1_s2 Code.stSequenceLengthC1_s3
      go_run [decide_natCast_lt, kc, ki, eq_lit, Bool.or_eq_true, decide_eq_true_eq]
      repeat' split
      all_goals first | rfl | (exfalso; simp only [can, sub, st] at *; omega) | skip
    rw [e]
    simp only [stLoopC1]
    repeat' split
    all_goals first | rfl | (simp only [andThen_next]; rw [ih])

theorem stSequenceLengthC1_run (data : Bytes) (hg : data.length < g) : (Code.stSequenceLengthC1.run W g (.bytes data)).2 = .ok (.num .int (optVal (stSequenceLengthC1 data))) := by
  rw [run_eq (vs := [.bytes data]) rfl]
  have h := stSequenceLengthC1_loop (W := W) (g := g) data data [] g .nil rfl hg
  show ((exec W g Code.stSequenceLengthC1.body [.bytes data, .nil, .nil]).result [some .int]).2 = _
  unfold Code.stSequenceLengthC1 Code.stSequenceLengthC1_s5 Code.stSequenceLengthC1_s0 Code.stSequenceLengthC1_s4
  go_run [exec_loop]
  exact h

/-- The loop for nF escapes and what follows it. -/
theorem nf_loop (data : Bytes) (b1 b2 x4 x5 x6 : Val) : ∀ (l pre : Bytes) (fuel : Nat), pre ++ l = data → l.length < fuel →
    ∃ t e, (t = .int ∨ t = .untyped) ∧ ((passes (loopPass W g 1 (.and (.and (.bin .lt (.var 7) (.var 1)) (.bin .ge (.index (.var 0) (.var 7)) (.lit (.num .untyped 32))))
        (.bin .le (.index (.var 0) (.var 7)) (.lit (.num .untyped 47)))) .skip Code.ansiEscapeLength_s8) fuel
        [.bytes data, .num .int data.length, b1, b2, x4, x5, x6, .num .int pre.length]).ofLoop.andThen
      (exec W g (.seq (.ite (.and (.and (.bin .lt (.var 7) (.var 1))
    (.bin .ge (.index (.var 0) (.var 7)) (.lit (.num .untyped 48)))) (.bin .le (.index (.var 0) (.var 7)) (.lit
    (.num .untyped 126)))) (.ret (.bin .add (.var 7) (.lit (.num .untyped 1)))) .skip) (.ret (.lit (.num .untyped 0))))))
      = .ret (.num t (nfLoop pre.length l)) e := by
  intro l
  induction l with
  | nil =>
    intro pre fuel hp hf
    obtain ⟨fuel, rfl⟩ : ∃ k, fuel = k + 1 := ⟨fuel - 1, by simp at hf; omega⟩
    have kc : decide (pre.length < data.length) = false := by subst hp; simp
    simp only [passes]
    unfold loopPass
    go_run [decide_natCast_lt, kc, Bool.false_and]
    simp only [Out.ofLoop]
    go_run [decide_natCast_lt, kc, Bool.false_and]
    exact ⟨_, _, .inr rfl, rfl⟩
  | cons a l ih =>
    intro pre fuel hp hf
    obtain ⟨fuel, rfl⟩ : ∃ k, fuel = k + 1 := ⟨fuel - 1, by simp at hf; omega⟩
    have kc := lt_append pre l a
    have ki := index_append pre l a
    rw [hp] at kc ki
    have ih := ih (pre ++ [a]) fuel (by simp [hp]) (by simp at hf; omega)
    simp only [List.length_append, List.length_cons, List.length_nil, Nat.zero_add, Int.natCast_add, Int.cast_ofNat_Int] at ih
    simp only [passes, nfLoop]
    have e : loopPass W g 1 (.and (.and (.bin .lt (.var 7) (.var 1)) (.bin .ge (.index (.var 0) (.var 7)) (.lit (.num .untyped 32))))
        (.bin .le (.index (.var 0) (.var 7)) (.lit (.num .untyped 47)))) .skip Code.ansiEscapeLength_s8
        [.bytes data, .num .int data.length, b1, b2, x4, x5, x6, .num .int pre.length]
        = if 0x20 ≤ a.toNat ∧ a.toNat ≤ 0x2F then .next [.bytes data, .num .int data.length, b1, b2, x4, x5, x6, .num .int (pre.length + 1)]
          else .brk 0 [.bytes data, .num .int data.length, b1, b2, x4, x5, x6, .num .int pre.length] := by
      unfold loopPass Code.ansiEscapeLength_s8
      go_run [decide_natCast_lt, kc, ki, lit_le, le_lit, Bool.true_and, Bool.and_eq_true, decide_eq_true_eq]
      rfl
    rw [e]
    by_cases c : 0x20 ≤ a.toNat ∧ a.toNat ≤ 0x2F
    · rw [if_pos c, if_pos c, andThen_next]; exact ih
    · rw [if_neg c, if_neg c]
      simp only [andThen_brk, Out.ofLoop]
      go_run [decide_natCast_lt, kc, ki, lit_le, le_lit, Bool.true_and, Bool.and_eq_true, decide_eq_true_eq]
      by_cases c : 0x30 ≤ a.toNat ∧ a.toNat ≤ 0x7E
      · rw [if_pos c, if_pos c]; exact ⟨_, _, .inl rfl, rfl⟩
      · rw [if_neg c, if_neg c]; exact ⟨_, _, .inr rfl, rfl⟩

/-- The calls of the functions for the parts of an escape, on data of up to `N` bytes. -/
structure AnsiCalls (W : World) (N : Nat) : Prop where
  csi : ∀ d : Bytes, d.length ≤ N → (W.call 14 (.bytes d)).2 = .ok (.num .int (csiBodyLength d))
  osc : ∀ d : Bytes, d.length ≤ N → (W.call 15 (.bytes d)).2 = .ok (.num .int (optVal (oscLength d)))
  st : ∀ d : Bytes, d.length ≤ N → (W.call 16 (.bytes d)).2 = .ok (.num .int (optVal (stSequenceLength d)))
  oscC1 : ∀ d : Bytes, d.length ≤ N → (W.call 18 (.bytes d)).2 = .ok (.num .int (optVal (oscLengthC1 d)))
  stC1 : ∀ d : Bytes, d.length ≤ N → (W.call 19 (.bytes d)).2 = .ok (.num .int (optVal (stSequenceLengthC1 d)))

theorem ansiEscapeLength_run {data : Bytes} (h : AnsiCalls W data.length) (hg : data.length < g) :
    (Code.ansiEscapeLength.run W g (.bytes data)).2 = .ok (.num .int (ansiEscapeLength data)) := by
  rw [run_eq (vs := [.bytes data]) rfl]
  show ((exec W g Code.ansiEscapeLength.body [.bytes data, .nil, .nil, .nil, .nil, .nil, .nil, .nil]).result [some .int]).2 = _
  unfold Code.ansiEscapeLength Code.ansiEscapeLength_s0 Code.ansiEscapeLength_s1
  match data, h, hg with
  | [], _, _ => rfl
  | [x], _, _ => rfl
  | x0 :: x1 :: rest, h, hg =>
    have i0 : Val.index (.bytes (x0 :: x1 :: rest)) (.num .untyped 0) = .ok (.num .uint8 x0.toNat) := rfl
    have i1 : Val.index (.bytes (x0 :: x1 :: rest)) (.num .untyped 1) = .ok (.num .uint8 x1.toNat) := rfl
    have i2 : Val.drop (.bytes (x0 :: x1 :: rest)) (.num .untyped 2) = .ok (.bytes rest) := by simp [Val.drop, sliceFrom]
    have kl : decide ((x0 :: x1 :: rest).length < 2) = false := by simp
    have hr : rest.length ≤ (x0 :: x1 :: rest).length := by simp; omega
    have hcsi := h.csi rest hr
    have hosc := h.osc rest hr
    have hst := h.st rest hr
    simp only [ansiEscapeLength, esc]
    go_run [lt_lit, ne_lit, kl, i0, Bool.false_or, decide_eq_true_eq]
    by_cases c0 : x0.toNat ≠ 27
    · rw [if_pos c0, if_pos c0]; rfl
    rw [if_neg c0, if_neg c0]
    unfold Code.ansiEscapeLength_s2 Code.ansiEscapeLength_s5 Code.ansiEscapeLength_s3 Code.ansiEscapeLength_s4
    go_run [i1, i2, hcsi, hosc, hst, eq_lit, decide_eq_true_eq, Bool.or_eq_true]
    by_cases c1 : x1.toNat = 0x5B
    · rw [if_pos c1, if_pos c1]
      by_cases cb : csiBodyLength rest = 0
      · rw [if_pos cb, if_pos cb]; rfl
      · rw [if_neg cb, if_neg cb]; simp [Out.result, Val.typedAs, Val.typed, Val.tuple]
    rw [if_neg c1, if_neg c1]
    by_cases c2 : x1.toNat = 0x5D
    · rw [if_pos c2, if_pos c2]
      cases oscLength rest with
      | none => rfl
      | some k =>
        have hk : ¬ ((k : Int) < 0) := by omega
        simp [optVal, hk, Out.result, Val.typedAs, Val.typed, Val.tuple]
    rw [if_neg c2, if_neg c2]
    by_cases c3 : x1.toNat = 0x50 ∨ x1.toNat = 0x58 ∨ x1.toNat = 0x5E ∨ x1.toNat = 0x5F
    · rw [if_pos c3, if_pos c3]
      cases stSequenceLength rest with
      | none => rfl
      | some k =>
        have hk : ¬ ((k : Int) < 0) := by omega
        simp [optVal, hk, Out.result, Val.typedAs, Val.typed, Val.tuple]
    rw [if_neg c3, if_neg c3]
    unfold Code.ansiEscapeLength_s6 Code.ansiEscapeLength_s7 Code.ansiEscapeLength_s10
    go_run [lit_le, le_lit, Bool.and_eq_true, decide_eq_true_eq]
    by_cases c4 : 0x40 ≤ x1.toNat ∧ x1.toNat ≤ 0x7E
    · rw [if_pos c4, if_pos c4]; rfl
    rw [if_neg c4, if_neg c4]
    by_cases c5 : 0x30 ≤ x1.toNat ∧ x1.toNat ≤ 0x3F
    · rw [if_pos c5, if_pos c5]; rfl
    rw [if_neg c5, if_neg c5]
    by_cases c6 : 0x20 ≤ x1.toNat ∧ x1.toNat ≤ 0x2F
    · rw [if_pos c6, if_pos c6]
      unfold Code.ansiEscapeLength_s9
      obtain ⟨t, e, ht, this⟩ := nf_loop (W := W) (g := g) (x0 :: x1 :: rest) (.num .uint8 x1.toNat) (.num .uint8 x1.toNat) .nil .nil .nil rest [x0, x1] g rfl
        (by simp at hg; omega)
      rw [exec_loop]
      simp only [List.length_cons, List.length_nil, Nat.zero_add, Nat.reduceAdd, Int.cast_ofNat_Int] at this ⊢
      rw [this]
      rcases ht with rfl | rfl <;> rfl
    · rw [if_neg c6, if_neg c6]; rfl

theorem ansiEscapeLength8Bit_run {data : Bytes} (h : AnsiCalls W data.length) :
    (Code.ansiEscapeLength8Bit.run W g (.bytes data)).2 = .ok (.num .int (ansiEscapeLength8Bit data)) := by
  rw [run_eq (vs := [.bytes data]) rfl]
  show ((exec W g Code.ansiEscapeLength8Bit.body [.bytes data, .nil, .nil, .nil, .nil]).result [some .int]).2 = _
  unfold Code.ansiEscapeLength8Bit Code.ansiEscapeLength8Bit_s0
  match data, h with
  | [], _ => rfl
  | x0 :: rest, h =>
    have i0 : Val.index (.bytes (x0 :: rest)) (.num .untyped 0) = .ok (.num .uint8 x0.toNat) := rfl
    have i1 : Val.drop (.bytes (x0 :: rest)) (.num .untyped 1) = .ok (.bytes rest) := by simp [Val.drop, sliceFrom]
    have kl : decide ((x0 :: rest).length = 0) = false := by simp
    have hr : rest.length ≤ (x0 :: rest).length := by simp
    have hcsi := h.csi rest hr
    have hosc := h.oscC1 rest hr
    have hst := h.stC1 rest hr
    simp only [ansiEscapeLength8Bit]
    unfold Code.ansiEscapeLength8Bit_s3 Code.ansiEscapeLength8Bit_s1 Code.ansiEscapeLength8Bit_s2
    go_run [eq_lit, kl, i0, i1, hcsi, hosc, hst, lit_le, le_lit, decide_eq_true_eq, Bool.or_eq_true, Bool.and_eq_true]
    by_cases c1 : x0.toNat = 0x9B
    · rw [if_pos c1, if_pos c1]
      by_cases cb : csiBodyLength rest = 0
      · rw [if_pos cb, if_pos cb]; rfl
      · rw [if_neg cb, if_neg cb]; simp [Out.result, Val.typedAs, Val.typed, Val.tuple]
    rw [if_neg c1, if_neg c1]
    by_cases c2 : x0.toNat = 0x9D
    · rw [if_pos c2, if_pos c2]
      cases oscLengthC1 rest with
      | none => rfl
      | some k =>
        have hk : ¬ ((k : Int) < 0) := by omega
        simp [optVal, hk, Out.result, Val.typedAs, Val.typed, Val.tuple]
    rw [if_neg c2, if_neg c2]
    by_cases c3 : x0.toNat = 0x90 ∨ x0.toNat = 0x98 ∨ x0.toNat = 0x9E ∨ x0.toNat = 0x9F
    · rw [if_pos c3, if_pos c3]
      cases stSequenceLengthC1 rest with
      | none => rfl
      | some k =>
        have hk : ¬ ((k : Int) < 0) := by omega
        simp [optVal, hk, Out.result, Val.typedAs, Val.typed, Val.tuple]
    rw [if_neg c3, if_neg c3]
    by_cases c4 : 0x80 ≤ x0.toNat ∧ x0.toNat ≤ 0x9F
    · rw [if_pos c4, if_pos c4]; rfl
    · rw [if_neg c4, if_neg c4]; rfl
end
end Uax29.Graphemes
