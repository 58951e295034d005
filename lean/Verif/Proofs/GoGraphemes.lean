import Verif.Proofs.GoSplit
import Verif.Model.Graphemes
import Verif.Table.GraphemesCode
/-! # The code of graphemes/splitfunc.go and the model -/
namespace Uax29.Graphemes
open Source
open Source (moreVal)

/-- `incbState` as a number. -/
def Incb.num : Incb → Nat
  | .none => 0
  | .consonant => 1
  | .linker => 2

/-- The variables of `splitFunc` with those of the model. -/
def Rep (data : Bytes) (eof : Bool) (s : State) (env : Env) : Prop :=
  ∃ w x y z, env = [.bytes data, .bool eof, .num .int 0, .nil, .nil, .nil, .num .int s.pos, .num .uint32 s.lastExIgnore,
    .num .uint32 s.lastLastExIgnore, .num .int s.regionalIndicatorCount, .num .int s.incb.num, .num .uint32 s.current, .num .int w,
    x, y, z]

/-- The end of the loop at `p`. -/
def Fin (data : Bytes) (p : Nat) (env : Env) : Prop := env.get 0 = .bytes data ∧ env.get 6 = .num .int p

theorem incb_run {W : World} {g : Nat} (h : Calls W trie .uint32 2) (last : Nat) (incb : Incb) (a b c d e f i j k l m o x y : Val) :
    exec W g Code.splitFunc_s17 [a, b, c, d, e, f, i, j, k, l, .num .int incb.num, m, o, x, .num .uint32 last, y]
      = .next [a, b, c, d, e, f, i, j, k, l, .num .int (updateIncb last incb).num, m, o, x, .num .uint32 last, y] := by
  unfold Code.splitFunc_s17
  go_run [h.is, Int.toNat_natCast]
  have e1 : is last (_InCBConsonant ||| _InCBLinker ||| _InCBExtend) = is last (Int.toNat 16 ||| Int.toNat 64 ||| Int.toNat 32) := rfl
  have e2 : is last _InCBConsonant = is last (Int.toNat 16) := rfl
  have e3 : is last _InCBLinker = is last (Int.toNat 64) := rfl
  simp only [updateIncb, e1, e2, e3]
  cases is last (Int.toNat 16 ||| Int.toNat 64 ||| Int.toNat 32) <;> cases is last (Int.toNat 16) <;> cases is last (Int.toNat 64) <;>
    cases incb <;> rfl

theorem incb_linker (i : Incb) : decide ((i.num : Int) = 2) = decide (i = .linker) := by cases i <;> rfl

set_option maxRecDepth 10000 in
theorem rules_agrees {W : World} {g : Nat} (h : Calls W trie .uint32 2) (data : Bytes) (eof : Bool) (s : State) (cur w l ll : Nat)
    (incb : Incb) (x z : Val) :
    Agrees (Rep data eof) (Fin data)
      (rules s { pos := s.pos + w, current := cur, lastExIgnore := l, lastLastExIgnore := ll,
                 regionalIndicatorCount := s.regionalIndicatorCount, incb })
      (exec W g (.seq Code.splitFunc_s20 (.seq Code.splitFunc_s21 (.seq Code.splitFunc_s22 (.seq Code.splitFunc_s23 (.seq Code.splitFunc_s24 (.seq Code.splitFunc_s25 (.seq Code.splitFunc_s26 (.seq Code.splitFunc_s27 (.seq Code.splitFunc_s28 (.seq Code.splitFunc_s29 (.seq Code.splitFunc_s30 (.seq Code.splitFunc_s31 (.brk 0)))))))))))))
        [.bytes data, .bool eof, .num .int 0, .nil, .nil, .nil, .num .int s.pos, .num .uint32 l, .num .uint32 ll,
          .num .int s.regionalIndicatorCount, .num .int incb.num, .num .uint32 cur, .num .int w, x, .num .uint32 s.current, z]) := by
  unfold rules Code.splitFunc_s20
  go_run [Int.toNat_natCast, decide_natCast_zero, decide_eq_true_eq]
  refine agrees_ite rfl (fun _ => ⟨_, ⟨rfl, rfl⟩, .inl rfl⟩) (fun _ => ?_)
  unfold Code.splitFunc_s21
  go_run [h.is, Int.toNat_natCast, ← Int.natCast_add]
  refine agrees_ite rfl (fun _ => ⟨_, ⟨_, _, _, _, rfl⟩, .inr rfl⟩) (fun _ => ?_)
  unfold Code.splitFunc_s22
  go_run [h.is, Int.toNat_natCast, ← Int.natCast_add]
  refine agrees_ite rfl (fun _ => ⟨_, ⟨rfl, rfl⟩, .inl rfl⟩) (fun _ => ?_)
  unfold Code.splitFunc_s23
  go_run [h.is, Int.toNat_natCast, ← Int.natCast_add]
  refine agrees_ite rfl (fun _ => ⟨_, ⟨_, _, _, _, rfl⟩, .inr rfl⟩) (fun _ => ?_)
  unfold Code.splitFunc_s24
  go_run [h.is, Int.toNat_natCast, ← Int.natCast_add]
  refine agrees_ite rfl (fun _ => ⟨_, ⟨_, _, _, _, rfl⟩, .inr rfl⟩) (fun _ => ?_)
  unfold Code.splitFunc_s25
  go_run [h.is, Int.toNat_natCast, ← Int.natCast_add]
  refine agrees_ite rfl (fun _ => ⟨_, ⟨_, _, _, _, rfl⟩, .inr rfl⟩) (fun _ => ?_)
  unfold Code.splitFunc_s26
  go_run [h.is, Int.toNat_natCast, ← Int.natCast_add]
  refine agrees_ite rfl (fun _ => ⟨_, ⟨_, _, _, _, rfl⟩, .inr rfl⟩) (fun _ => ?_)
  unfold Code.splitFunc_s27
  go_run [h.is, Int.toNat_natCast, ← Int.natCast_add]
  refine agrees_ite rfl (fun _ => ⟨_, ⟨_, _, _, _, rfl⟩, .inr rfl⟩) (fun _ => ?_)
  unfold Code.splitFunc_s28
  go_run [h.is, Int.toNat_natCast, ← Int.natCast_add]
  refine agrees_ite rfl (fun _ => ⟨_, ⟨_, _, _, _, rfl⟩, .inr rfl⟩) (fun _ => ?_)
  unfold Code.splitFunc_s29
  go_run [h.is, Int.toNat_natCast, ← Int.natCast_add, incb_linker]
  refine agrees_ite rfl (fun _ => ⟨_, ⟨_, _, _, _, rfl⟩, .inr rfl⟩) (fun _ => ?_)
  unfold Code.splitFunc_s30
  go_run [h.is, Int.toNat_natCast, ← Int.natCast_add]
  refine agrees_ite rfl (fun _ => ⟨_, ⟨_, _, _, _, rfl⟩, .inr rfl⟩) (fun _ => ?_)
  unfold Code.splitFunc_s31
  go_run [h.is, Int.toNat_natCast, ← Int.natCast_add, two_eq_zero, decide_odd, decide_eq_true_eq]
  refine agrees_ite rfl (fun _ => ?_) (fun _ => ⟨_, ⟨rfl, rfl⟩, .inl rfl⟩)
  exact agrees_ite rfl (fun _ => ⟨_, ⟨_, _, _, _, rfl⟩, .inr rfl⟩) (fun _ => ⟨_, ⟨rfl, rfl⟩, .inl rfl⟩)

set_option maxRecDepth 10000 in
theorem step_agrees {W : World} {g : Nat} (h : Calls W trie .uint32 2) (data : Bytes) (eof : Bool) (s : State) (env : Env)
    (hr : Rep data eof s env) : Agrees (Rep data eof) (Fin data) (step data eof s) (exec W g (.seq Code.splitFunc_s13 (.seq Code.splitFunc_s14
    (.seq Code.splitFunc_s15 (.seq Code.splitFunc_s16 (.seq Code.splitFunc_s17 (.seq Code.splitFunc_s18 (.seq Code.splitFunc_s19
    (.seq Code.splitFunc_s20 (.seq Code.splitFunc_s21 (.seq Code.splitFunc_s22 (.seq Code.splitFunc_s23 (.seq Code.splitFunc_s24
    (.seq Code.splitFunc_s25 (.seq Code.splitFunc_s26 (.seq Code.splitFunc_s27 (.seq Code.splitFunc_s28 (.seq Code.splitFunc_s29
    (.seq Code.splitFunc_s30 (.seq Code.splitFunc_s31 (.brk 0)))))))))))))))))))) env) := by
  obtain ⟨w, x, y, z, rfl⟩ := hr
  unfold step Code.splitFunc_s13 Code.splitFunc_s14
  go_run [decide_natCast_eq, decide_eq_true_eq]
  refine agrees_ite rfl (fun hp => ?_) (fun hp => ?_)
  · exact agrees_ite rfl (fun _ => ⟨_, rfl⟩) (fun _ => ⟨_, ⟨rfl, rfl⟩, .inl rfl⟩)
  unfold Code.splitFunc_s15 Code.splitFunc_s16
  go_run [h.is, Int.toNat_natCast, next_ite, cons_ite, ite_self, natCast_ite]
  rw [incb_run h]
  unfold Code.splitFunc_s18
  go_run [h.at]
  cases trie.lookupAt data s.pos with
  | error f => go_run [lookupRes]; exact ⟨_, rfl⟩
  | ok r =>
    obtain ⟨current, w⟩ := r
    unfold Code.splitFunc_s19
    go_run [lookupRes, decide_natCast_zero, decide_eq_true_eq]
    refine agrees_ite rfl (fun hw => ?_) (fun hw => ?_)
    · exact agrees_ite rfl (fun _ => ⟨_, ⟨rfl, rfl⟩, .inl rfl⟩) (fun _ => ⟨_, rfl⟩)
    rw [← exec_seq]
    exact rules_agrees h data eof s current w _ _ _ _ _

set_option maxRecDepth 10000 in
theorem splitFunc_loop {W : World} {g : Nat} (h : Calls W trie .uint32 2) (data : Bytes) (eof : Bool) :
    (Code.splitFunc.run W g (.pair (.bytes data) (.bool eof))).2 = splitRes (
      if data.length = 0 then .ok .requestMore
      else
        match trie.lookupAt data 0 with
        | .error f => .error f
        | .ok (current, w) =>
          if w = 0 then
            if !eof then .ok .requestMore
            else finish data (.brk data.length)
          else
            finish data (runLoop (step data eof) g
              { pos := w, current, lastExIgnore := 0, lastLastExIgnore := 0, regionalIndicatorCount := 0, incb := .none })) := by
  rw [run_eq (vs := [.bytes data, .bool eof]) rfl]
  show ((exec W g Code.splitFunc.body [.bytes data, .bool eof, .nil, .nil, .nil, .nil, .nil, .nil, .nil, .nil, .nil, .nil, .nil, .nil,
    .nil, .nil]).result [some .int, none, none]).2 = _
  unfold Code.splitFunc Code.splitFunc_s0 Code.splitFunc_s1 Code.splitFunc_s2 Code.splitFunc_s3 Code.splitFunc_s4
  go_run [decide_natCast_zero, decide_eq_true_eq]
  by_cases h0 : data.length = 0
  · rw [if_pos h0, if_pos h0]; rfl
  rw [if_neg h0, if_neg h0]
  unfold Code.splitFunc_s5 Code.splitFunc_s6 Code.splitFunc_s7 Code.splitFunc_s8 Code.splitFunc_s9 Code.splitFunc_s10
  have h1 := h.at data .int 0
  simp only [Int.natCast_zero] at h1
  go_run [h1]
  cases trie.lookupAt data 0 with
  | error f => rfl
  | ok r =>
    obtain ⟨current, w⟩ := r
    unfold Code.splitFunc_s11
    go_run [lookupRes, decide_natCast_zero, decide_eq_true_eq]
    by_cases hw : w = 0
    · rw [if_pos hw, if_pos hw]
      cases eof
      · rfl
      · go_run [take_nat]
        simp only [finish]
        cases sliceTo data data.length <;> rfl
    · rw [if_neg hw, if_neg hw]
      unfold Code.splitFunc_s12 Code.splitFunc_s32 Code.splitFunc_s33
      go_run [exec_loop]
      refine finish_agrees (fun p env he => he) (loop_agrees (step_agrees h data eof) g _ _ ?_)
      exact ⟨w, .nil, .nil, .nil, by simp [Incb.num]⟩

end Uax29.Graphemes
