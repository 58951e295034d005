import Verif.Proofs.GoSplit
import Verif.Model.Phrases
import Verif.Table.PhrasesCode
/-! # The code of phrases/splitfunc.go and the model -/
namespace Uax29.Phrases
open Source

/-- The variables of `splitFunc` with those of the model. -/
def Rep (data : Bytes) (eof : Bool) (s : State) (env : Env) : Prop :=
  ∃ (w : Int) (x y j1 j2 j3 j4 j5 j6 j7 : Val),
    env = [.bytes data, .bool eof, .num .int 0, .nil, .nil, .nil, .num .int s.pos, .num .uint32 s.lastExIgnore, .num .uint32 s.lastLastExIgnore, .num .int s.regionalIndicatorCount,
          .num .uint32 s.current, .num .int w, x, y, j1, j2, j3, j4, j5, j6, j7]

/-- The end of the loop at `p`. -/
def Fin (data : Bytes) (p : Nat) (env : Env) : Prop := env.get 0 = .bytes data ∧ env.get 6 = .num .int p

section
variable {W : World} {g : Nat} {data : Bytes} (h : Calls W trie .uint32 2) (hs : SubCalls W trie .uint32 4 _Ignore data.length)
  (eof : Bool) (s : State) (cur w l ll : Nat) (x j1 j2 j3 j4 j5 j6 j7 : Val)
include h

set_option maxRecDepth 10000 in
theorem rest3_agrees : Agrees (Rep data eof) (Fin data)
      (stepRest3 s
        { pos := s.pos + w, current := cur, lastExIgnore := l, lastLastExIgnore := ll, regionalIndicatorCount := s.regionalIndicatorCount })
      (exec W g (.seq Code.splitFunc_s33 (.seq Code.splitFunc_s34 (.seq Code.splitFunc_s35 (.seq Code.splitFunc_s36 (.brk 0)))))
        [.bytes data, .bool eof, .num .int 0, .nil, .nil, .nil, .num .int s.pos, .num .uint32 l, .num .uint32 ll, .num .int s.regionalIndicatorCount,
          .num .uint32 cur, .num .int w, x, .num .uint32 s.current, j1, j2, j3, j4, j5, j6, j7]) := by
  unfold stepRest3
  unfold Code.splitFunc_s33
  go_run [h.is, Int.toNat_natCast, ← Int.natCast_add]
  refine agrees_ite rfl (fun _ => ⟨_, ⟨_, _, _, _, _, _, _, _, _, _, rfl⟩, .inr rfl⟩) (fun _ => ?_)
  unfold Code.splitFunc_s34
  go_run [h.is, Int.toNat_natCast, ← Int.natCast_add]
  refine agrees_ite rfl (fun _ => ⟨_, ⟨_, _, _, _, _, _, _, _, _, _, rfl⟩, .inr rfl⟩) (fun _ => ?_)
  unfold Code.splitFunc_s35
  go_run [h.is, Int.toNat_natCast, ← Int.natCast_add]
  refine agrees_ite rfl (fun _ => ⟨_, ⟨_, _, _, _, _, _, _, _, _, _, rfl⟩, .inr rfl⟩) (fun _ => ?_)
  unfold Code.splitFunc_s36
  go_run [h.is, Int.toNat_natCast, ← Int.natCast_add, two_eq_zero, decide_odd, decide_eq_true_eq]
  refine agrees_ite rfl (fun _ => ?_) (fun _ => ⟨_, ⟨rfl, rfl⟩, .inl rfl⟩)
  exact agrees_ite rfl (fun _ => ⟨_, ⟨_, _, _, _, _, _, _, _, _, _, rfl⟩, .inr rfl⟩) (fun _ => ⟨_, ⟨rfl, rfl⟩, .inl rfl⟩)

include hs in
set_option maxRecDepth 10000 in
theorem rest2_agrees : Agrees (Rep data eof) (Fin data)
      (stepRest2 data eof s
        { pos := s.pos + w, current := cur, lastExIgnore := l, lastLastExIgnore := ll, regionalIndicatorCount := s.regionalIndicatorCount })
      (exec W g (.seq Code.splitFunc_s29 (.seq Code.splitFunc_s30 (.seq Code.splitFunc_s31 (.seq Code.splitFunc_s32 (.seq Code.splitFunc_s33 (.seq Code.splitFunc_s34 (.seq Code.splitFunc_s35 (.seq Code.splitFunc_s36 (.brk 0)))))))))
        [.bytes data, .bool eof, .num .int 0, .nil, .nil, .nil, .num .int s.pos, .num .uint32 l, .num .uint32 ll, .num .int s.regionalIndicatorCount,
          .num .uint32 cur, .num .int w, x, .num .uint32 s.current, j1, j2, j3, j4, j5, j6, j7]) := by
  unfold stepRest2
  unfold Code.splitFunc_s29
  go_run [h.is, Int.toNat_natCast, ← Int.natCast_add]
  refine agrees_ite rfl (fun _ => ⟨_, ⟨_, _, _, _, _, _, _, _, _, _, rfl⟩, .inr rfl⟩) (fun _ => ?_)
  unfold Code.splitFunc_s30
  go_run [h.is, Int.toNat_natCast, ← Int.natCast_add]
  refine agrees_ite rfl (fun _ => ⟨_, ⟨_, _, _, _, _, _, _, _, _, _, rfl⟩, .inr rfl⟩) (fun _ => ?_)
  unfold Code.splitFunc_s31
  go_run [h.is, Int.toNat_natCast, ← Int.natCast_add]
  refine agrees_ite rfl (fun _ => ⟨_, ⟨_, _, _, _, _, _, _, _, _, _, rfl⟩, .inr rfl⟩) (fun _ => ?_)
  unfold Code.splitFunc_s32
  go_run [h.is, Int.toNat_natCast, ← Int.natCast_add, hs.at]
  refine agrees_ite rfl (fun _ => ?_) (fun _ => by rw [← exec_seq]; exact rest3_agrees h eof s cur w l ll _ _ _ _ _ _ _ _)
  have e : subsequentFrom trie _Ignore (Int.toNat 16384) data (s.pos + w) eof = subsequentFrom trie _Ignore _Numeric data (s.pos + w) eof := rfl
  rw [e]
  unfold lookAhead
  generalize hr : subsequentFrom trie _Ignore _Numeric data (s.pos + w) eof = r
  rcases r with f | ⟨a, m⟩
  · go_run [subRes]; exact ⟨_, rfl⟩
  · rcases subsequentFrom_cases hr with rfl | ⟨j, rfl⟩
    · go_run [subRes, notfound_ne]
      exact agrees_ite rfl (fun _ => ⟨_, rfl⟩) (fun _ => by rw [← exec_seq]; exact rest3_agrees h eof s cur w l ll _ _ _ _ _ _ _ _)
    · go_run [subRes, natCast_ne_notfound, ← Int.natCast_add, ← Nat.add_assoc, Int.toNat_natCast]
      exact agrees_ite rfl (fun _ => ⟨_, rfl⟩) (fun _ => ⟨_, ⟨_, _, _, _, _, _, _, _, _, _, rfl⟩, .inr rfl⟩)

include hs in
set_option maxRecDepth 10000 in
theorem rest1_agrees : Agrees (Rep data eof) (Fin data)
      (stepRest1 data eof s
        { pos := s.pos + w, current := cur, lastExIgnore := l, lastLastExIgnore := ll, regionalIndicatorCount := s.regionalIndicatorCount })
      (exec W g (.seq Code.splitFunc_s26 (.seq Code.splitFunc_s27 (.seq Code.splitFunc_s28 (.seq Code.splitFunc_s29 (.seq Code.splitFunc_s30 (.seq Code.splitFunc_s31 (.seq Code.splitFunc_s32 (.seq Code.splitFunc_s33 (.seq Code.splitFunc_s34 (.seq Code.splitFunc_s35 (.seq Code.splitFunc_s36 (.brk 0))))))))))))
        [.bytes data, .bool eof, .num .int 0, .nil, .nil, .nil, .num .int s.pos, .num .uint32 l, .num .uint32 ll, .num .int s.regionalIndicatorCount,
          .num .uint32 cur, .num .int w, x, .num .uint32 s.current, j1, j2, j3, j4, j5, j6, j7]) := by
  unfold stepRest1
  unfold Code.splitFunc_s26
  go_run [h.is, Int.toNat_natCast, ← Int.natCast_add]
  refine agrees_ite rfl (fun _ => ⟨_, ⟨_, _, _, _, _, _, _, _, _, _, rfl⟩, .inr rfl⟩) (fun _ => ?_)
  unfold Code.splitFunc_s27
  go_run [h.is, Int.toNat_natCast, ← Int.natCast_add]
  refine agrees_ite rfl (fun _ => ⟨_, ⟨_, _, _, _, _, _, _, _, _, _, rfl⟩, .inr rfl⟩) (fun _ => ?_)
  unfold Code.splitFunc_s28
  go_run [h.is, Int.toNat_natCast, ← Int.natCast_add, hs.at]
  refine agrees_ite rfl (fun _ => ?_) (fun _ => by rw [← exec_seq]; exact rest2_agrees h hs eof s cur w l ll _ _ _ _ _ _ _ _)
  have e : subsequentFrom trie _Ignore (Int.toNat 128) data (s.pos + w) eof = subsequentFrom trie _Ignore _HebrewLetter data (s.pos + w) eof := rfl
  rw [e]
  unfold lookAhead
  generalize hr : subsequentFrom trie _Ignore _HebrewLetter data (s.pos + w) eof = r
  rcases r with f | ⟨a, m⟩
  · go_run [subRes]; exact ⟨_, rfl⟩
  · rcases subsequentFrom_cases hr with rfl | ⟨j, rfl⟩
    · go_run [subRes, notfound_ne]
      exact agrees_ite rfl (fun _ => ⟨_, rfl⟩) (fun _ => by rw [← exec_seq]; exact rest2_agrees h hs eof s cur w l ll _ _ _ _ _ _ _ _)
    · go_run [subRes, natCast_ne_notfound, ← Int.natCast_add, ← Nat.add_assoc, Int.toNat_natCast]
      exact agrees_ite rfl (fun _ => ⟨_, rfl⟩) (fun _ => ⟨_, ⟨_, _, _, _, _, _, _, _, _, _, rfl⟩, .inr rfl⟩)

include hs in
set_option maxRecDepth 10000 in
theorem rules_agrees : Agrees (Rep data eof) (Fin data)
      (rules data eof s
        { pos := s.pos + w, current := cur, lastExIgnore := l, lastLastExIgnore := ll, regionalIndicatorCount := s.regionalIndicatorCount })
      (exec W g (.seq Code.splitFunc_s18 (.seq Code.splitFunc_s19 (.seq Code.splitFunc_s20 (.seq Code.splitFunc_s21 (.seq Code.splitFunc_s22 (.seq Code.splitFunc_s23 (.seq Code.splitFunc_s24 (.seq Code.splitFunc_s25 (.seq Code.splitFunc_s26 (.seq Code.splitFunc_s27 (.seq Code.splitFunc_s28 (.seq Code.splitFunc_s29 (.seq Code.splitFunc_s30 (.seq Code.splitFunc_s31 (.seq Code.splitFunc_s32 (.seq Code.splitFunc_s33 (.seq Code.splitFunc_s34 (.seq Code.splitFunc_s35 (.seq Code.splitFunc_s36 (.brk 0))))))))))))))))))))
        [.bytes data, .bool eof, .num .int 0, .nil, .nil, .nil, .num .int s.pos, .num .uint32 l, .num .uint32 ll, .num .int s.regionalIndicatorCount,
          .num .uint32 cur, .num .int w, x, .num .uint32 s.current, j1, j2, j3, j4, j5, j6, j7]) := by
  unfold rules
  unfold Code.splitFunc_s18
  go_run [Int.toNat_natCast, decide_natCast_zero, decide_eq_true_eq]
  refine agrees_ite rfl (fun _ => ⟨_, ⟨rfl, rfl⟩, .inl rfl⟩) (fun _ => ?_)
  unfold Code.splitFunc_s19
  go_run [h.is, Int.toNat_natCast, ← Int.natCast_add]
  refine agrees_ite rfl (fun _ => ⟨_, ⟨_, _, _, _, _, _, _, _, _, _, rfl⟩, .inr rfl⟩) (fun _ => ?_)
  unfold Code.splitFunc_s20
  go_run [h.is, Int.toNat_natCast, ← Int.natCast_add]
  refine agrees_ite rfl (fun _ => ⟨_, ⟨rfl, rfl⟩, .inl rfl⟩) (fun _ => ?_)
  unfold Code.splitFunc_s21
  go_run [h.is, Int.toNat_natCast, ← Int.natCast_add]
  refine agrees_ite rfl (fun _ => ⟨_, ⟨_, _, _, _, _, _, _, _, _, _, rfl⟩, .inr rfl⟩) (fun _ => ?_)
  unfold Code.splitFunc_s22
  go_run [h.is, Int.toNat_natCast, ← Int.natCast_add]
  refine agrees_ite rfl (fun _ => ⟨_, ⟨_, _, _, _, _, _, _, _, _, _, rfl⟩, .inr rfl⟩) (fun _ => ?_)
  unfold Code.splitFunc_s23
  go_run [h.is, Int.toNat_natCast, ← Int.natCast_add]
  refine agrees_ite rfl (fun _ => ⟨_, ⟨_, _, _, _, _, _, _, _, _, _, rfl⟩, .inr rfl⟩) (fun _ => ?_)
  unfold Code.splitFunc_s24
  go_run [h.is, Int.toNat_natCast, ← Int.natCast_add]
  refine agrees_ite rfl (fun _ => ⟨_, ⟨_, _, _, _, _, _, _, _, _, _, rfl⟩, .inr rfl⟩) (fun _ => ?_)
  unfold Code.splitFunc_s25
  go_run [h.is, Int.toNat_natCast, ← Int.natCast_add, hs.at]
  refine agrees_ite rfl (fun _ => ?_) (fun _ => by rw [← exec_seq]; exact rest1_agrees h hs eof s cur w l ll _ _ _ _ _ _ _ _)
  have e : subsequentFrom trie _Ignore (Int.toNat 161) data (s.pos + w) eof = subsequentFrom trie _Ignore _AHLetter data (s.pos + w) eof := rfl
  rw [e]
  unfold lookAhead
  generalize hr : subsequentFrom trie _Ignore _AHLetter data (s.pos + w) eof = r
  rcases r with f | ⟨a, m⟩
  · go_run [subRes]; exact ⟨_, rfl⟩
  · rcases subsequentFrom_cases hr with rfl | ⟨j, rfl⟩
    · go_run [subRes, notfound_ne]
      exact agrees_ite rfl (fun _ => ⟨_, rfl⟩) (fun _ => by rw [← exec_seq]; exact rest1_agrees h hs eof s cur w l ll _ _ _ _ _ _ _ _)
    · go_run [subRes, natCast_ne_notfound, ← Int.natCast_add, ← Nat.add_assoc, Int.toNat_natCast]
      exact agrees_ite rfl (fun _ => ⟨_, rfl⟩) (fun _ => ⟨_, ⟨_, _, _, _, _, _, _, _, _, _, rfl⟩, .inr rfl⟩)

end

set_option maxRecDepth 10000 in
theorem step_agrees {W : World} {g : Nat} {data : Bytes} (h : Calls W trie .uint32 2)
    (hs : SubCalls W trie .uint32 4 _Ignore data.length) (eof : Bool) (s : State) (env : Env)
    (hr : Rep data eof s env) : Agrees (Rep data eof) (Fin data) (step data eof s)
      (exec W g (.seq Code.splitFunc_s12 (.seq Code.splitFunc_s13 (.seq Code.splitFunc_s14 (.seq Code.splitFunc_s15 (.seq Code.splitFunc_s16 (.seq Code.splitFunc_s17 (.seq Code.splitFunc_s18 (.seq Code.splitFunc_s19 (.seq Code.splitFunc_s20 (.seq Code.splitFunc_s21 (.seq Code.splitFunc_s22 (.seq Code.splitFunc_s23 (.seq Code.splitFunc_s24 (.seq Code.splitFunc_s25 (.seq Code.splitFunc_s26 (.seq Code.splitFunc_s27 (.seq Code.splitFunc_s28 (.seq Code.splitFunc_s29 (.seq Code.splitFunc_s30 (.seq Code.splitFunc_s31 (.seq Code.splitFunc_s32 (.seq Code.splitFunc_s33 (.seq Code.splitFunc_s34 (.seq Code.splitFunc_s35 (.seq Code.splitFunc_s36 (.brk 0)))))))))))))))))))))))))) env) := by
  obtain ⟨w, x, y, j1, j2, j3, j4, j5, j6, j7, rfl⟩ := hr
  unfold step Code.splitFunc_s12 Code.splitFunc_s13
  go_run [decide_natCast_eq, decide_eq_true_eq]
  refine agrees_ite rfl (fun hp => ?_) (fun hp => ?_)
  · exact agrees_ite rfl (fun _ => ⟨_, rfl⟩) (fun _ => ⟨_, ⟨rfl, rfl⟩, .inl rfl⟩)
  unfold Code.splitFunc_s14 Code.splitFunc_s15
  go_run [h.is, Int.toNat_natCast, next_ite, cons_ite, ite_self, natCast_ite]
  unfold Code.splitFunc_s16
  go_run [h.at]
  cases trie.lookupAt data s.pos with
  | error f => go_run [lookupRes]; exact ⟨_, rfl⟩
  | ok r =>
    obtain ⟨current, w⟩ := r
    unfold Code.splitFunc_s17
    go_run [lookupRes, decide_natCast_zero, decide_eq_true_eq]
    refine agrees_ite rfl (fun hw => ?_) (fun hw => ?_)
    · exact agrees_ite rfl (fun _ => ⟨_, ⟨rfl, rfl⟩, .inl rfl⟩) (fun _ => ⟨_, rfl⟩)
    rw [← exec_seq]
    exact rules_agrees h hs eof s current w _ _ _ _ _ _ _ _ _ _

set_option maxRecDepth 10000 in
theorem splitFunc_loop {W : World} {g : Nat} {data : Bytes} (h : Calls W trie .uint32 2)
    (hs : SubCalls W trie .uint32 4 _Ignore data.length) (eof : Bool) :
    (Code.splitFunc.run W g (.pair (.bytes data) (.bool eof))).2 = splitRes (
      if data.length = 0 then .ok .requestMore
      else
        match trie.lookupAt data 0 with
        | .error f => .error f
        | .ok (current, w) =>
          if w = 0 then
            if !eof then .ok .requestMore
            else finish data (.brk data.length)
          else
            finish data (runLoop (step data eof) g
              { pos := w, current, lastExIgnore := 0, lastLastExIgnore := 0, regionalIndicatorCount := 0 })) := by
  rw [run_eq (vs := [.bytes data, .bool eof]) rfl]
  show ((exec W g Code.splitFunc.body [.bytes data, .bool eof, .nil, .nil, .nil, .nil, .nil, .nil, .nil, .nil, .nil, .nil, .nil, .nil,
    .nil, .nil, .nil, .nil, .nil, .nil, .nil]).result [some .int, none, none]).2 = _
  unfold Code.splitFunc Code.splitFunc_s0 Code.splitFunc_s1 Code.splitFunc_s2 Code.splitFunc_s3 Code.splitFunc_s4
  go_run [decide_natCast_zero, decide_eq_true_eq]
  by_cases h0 : data.length = 0
  · rw [if_pos h0, if_pos h0]; rfl
  rw [if_neg h0, if_neg h0]
  unfold Code.splitFunc_s5 Code.splitFunc_s6 Code.splitFunc_s7 Code.splitFunc_s8 Code.splitFunc_s9
  have h1 := h.at data .int 0
  simp only [Int.natCast_zero] at h1
  go_run [h1]
  cases trie.lookupAt data 0 with
  | error f => rfl
  | ok r =>
    obtain ⟨current, w⟩ := r
    unfold Code.splitFunc_s10
    go_run [lookupRes, decide_natCast_zero, decide_eq_true_eq]
    by_cases hw : w = 0
    · rw [if_pos hw, if_pos hw]
      cases eof
      · rfl
      · go_run [take_nat]
        simp only [finish]
        cases sliceTo data data.length <;> rfl
    · rw [if_neg hw, if_neg hw]
      unfold Code.splitFunc_s11 Code.splitFunc_s37 Code.splitFunc_s38
      go_run [exec_loop]
      refine finish_agrees (fun p env he => he) (loop_agrees (step_agrees h hs eof) g _ _ ?_)
      exact ⟨w, .nil, .nil, .nil, .nil, .nil, .nil, .nil, .nil, .nil, by simp⟩

end Uax29.Phrases
