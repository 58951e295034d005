import Verif.Proofs.GoSplit
import Verif.Proofs.Contract
import Verif.Table.SentencesCode
/-! # The code of sentences/splitfunc.go and the model -/
namespace Uax29.Sentences
open Source

/-- The variables of `splitFunc` with those of the model. -/
def Rep (data : Bytes) (eof : Bool) (s : State) (env : Env) : Prop :=
  ∃ (w : Int) (x y j1 j2 j3 j4 j5 : Val),
    env = [.bytes data, .bool eof, .num .int 0, .nil, .nil, .nil, .num .int s.pos, .num .uint16 s.lastExIgnore, .num .uint16 s.lastLastExIgnore, .num .uint16 s.lastExIgnoreSp, .num .uint16 s.lastExIgnoreClose,
          .num .uint16 s.lastExIgnoreSpClose, .num .uint16 s.lastExIgnoreParaSepSpClose, .num .uint16 s.current, .num .int w, x, y, j1, j2, j3, j4, j5]

/-- The end of the loop at `p`. -/
def Fin (data : Bytes) (p : Nat) (env : Env) : Prop := env.get 0 = .bytes data ∧ env.get 6 = .num .int p

theorem scan8_mono {data : Bytes} {eof : Bool} : ∀ {fuel p : Nat}, scan8 data eof fuel p ≠ .fault .diverge → ∀ k, fuel ≤ k →
    scan8 data eof k p = scan8 data eof fuel p := by
  intro fuel
  induction fuel with
  | zero => intro p h; exact absurd rfl h
  | succ fuel ih =>
    intro p h k hk
    obtain ⟨k, rfl⟩ : ∃ k', k = k' + 1 := ⟨k - 1, by omega⟩
    simp only [scan8] at h ⊢
    split
    · rename_i c
      rw [if_pos c] at h
      cases e : trie.lookupAt data p with
      | error f => rfl
      | ok r =>
        obtain ⟨v, w⟩ := r
        simp only [e] at h ⊢
        split
        · rfl
        · rename_i w0
          rw [if_neg w0] at h
          split
          · rfl
          · rename_i m
            rw [if_neg m] at h
            exact ih h k (by omega)
    · rfl

theorem scan8_fuel {data : Bytes} (eof : Bool) (p : Nat) {g : Nat} (hg : data.length < g) :
    scan8 data eof g p = scan8 data eof (data.length + 1) p := by
  refine scan8_mono ?_ g hg
  by_cases hp : p ≤ data.length
  · have := scan8_ok data eof (data.length + 1) p hp (by omega)
    intro h; rw [h] at this; exact this
  · simp only [scan8]; rw [if_neg (by omega)]; simp

/-- The inner loop of SB8 in code and in the model. `env p pos x y` are the variables. -/
def ScanAgrees (data : Bytes) (env : Nat → Nat → Val → Val → Env) (pos : Nat) : Scan8 → Out → Prop
  | .stop q, o => ∃ x y, o = .next (env pos q x y)
  | .breakMain, o => ∃ p x y, o = .brk 1 (env data.length p x y)
  | .more, o => ∃ env, o = .ret moreVal env
  | .fault f, o => ∃ env, o = .fault f env

section
variable {W : World} {g : Nat} {data : Bytes} (h : Calls W trie .uint16 2) (hs : SubCalls W trie .uint16 4 _Ignore data.length)
  (eof : Bool) (s : State) (cur w l ll sp cl spc ps : Nat) (x j1 j2 j3 j4 j5 : Val)
include h

/-- One pass of the inner loop of SB8. -/
def scanPass (W : World) (g : Nat) : Env → Out :=
  loopPass W g 2 (.bin .lt (.var 17) (.len (.var 0))) .skip (.seq Code.splitFunc_s31 (.seq Code.splitFunc_s32 (.seq Code.splitFunc_s33 Code.splitFunc_s34)))

set_option maxRecDepth 10000 in
theorem scan8_pass (pos p : Nat) (y z : Val) : ∃ y' z', scanPass W g [.bytes data, .bool eof, .num .int 0, .nil, .nil, .nil, .num .int pos, .num .uint16 l, .num .uint16 ll, .num .uint16 sp, .num .uint16 cl, .num .uint16 spc, .num .uint16 ps, .num .uint16 cur, .num .int w, x, .num .uint16 s.current, .num .int p, y, z, j4, j5]
      = (let env := [.bytes data, .bool eof, .num .int 0, .nil, .nil, .nil, .num .int pos, .num .uint16 l, .num .uint16 ll, .num .uint16 sp, .num .uint16 cl, .num .uint16 spc, .num .uint16 ps, .num .uint16 cur, .num .int w, x, .num .uint16 s.current, .num .int p, y', z', j4, j5]
        if p < data.length then
          match trie.lookupAt data p with
          | .error f => .fault f env
          | .ok (v, n) =>
            if n = 0 then if eof then .brk 1 [.bytes data, .bool eof, .num .int 0, .nil, .nil, .nil, .num .int data.length, .num .uint16 l, .num .uint16 ll, .num .uint16 sp, .num .uint16 cl, .num .uint16 spc, .num .uint16 ps, .num .uint16 cur, .num .int w, x, .num .uint16 s.current, .num .int p, y', z', j4, j5] else .ret moreVal env
            else if is v (_OLetter ||| _Upper ||| _Lower ||| _ParaSep ||| _SATerm) then .brk 0 env
            else .next [.bytes data, .bool eof, .num .int 0, .nil, .nil, .nil, .num .int pos, .num .uint16 l, .num .uint16 ll, .num .uint16 sp, .num .uint16 cl, .num .uint16 spc, .num .uint16 ps, .num .uint16 cur, .num .int w, x, .num .uint16 s.current, .num .int (p + n : Nat), y', z', j4, j5]
        else .brk 0 env) := by
  by_cases c : p < data.length
  · have kc : decide (p < data.length) = true := by simpa
    cases e : trie.lookupAt data p with
    | error f =>
      refine ⟨y, z, ?_⟩
      unfold scanPass loopPass Code.splitFunc_s31 Code.splitFunc_s32 Code.splitFunc_s33 Code.splitFunc_s34
      go_run [kc, decide_natCast_lt, h.at, e, lookupRes]
      simp [Out.ofBody, c]
    | ok r =>
      obtain ⟨v, n⟩ := r
      refine ⟨.num .uint16 v, .num .int n, ?_⟩
      unfold scanPass loopPass Code.splitFunc_s31 Code.splitFunc_s32 Code.splitFunc_s33 Code.splitFunc_s34
      by_cases w0 : n = 0
      · subst w0
        cases eof <;> go_run [kc, decide_natCast_lt, h.at, e, lookupRes] <;> simp [Out.ofBody, c, moreVal]
      have kw : decide (n = 0) = false := by simpa
      have ek : (_OLetter ||| _Upper ||| _Lower ||| _ParaSep ||| _SATerm) = 11619 := rfl
      rw [ek]
      have ei : (Int.toNat 11619) = 11619 := rfl
      cases m : is v 11619 <;>
        go_run [kc, decide_natCast_lt, h.at, e, lookupRes, h.is, Int.toNat_natCast, kw, decide_natCast_zero, ei, m] <;>
        simp [Out.ofBody, c, w0, exec_skip, m]
  · refine ⟨y, z, ?_⟩
    have kc : decide (p < data.length) = false := by simpa using c
    unfold scanPass loopPass
    go_run [kc, decide_natCast_lt]
    simp [c]

theorem scan8_agrees (pos : Nat) : ∀ (fuel p : Nat) (y z : Val), ScanAgrees data
      (fun pos (p : Nat) y z => [.bytes data, .bool eof, .num .int 0, .nil, .nil, .nil, .num .int pos, .num .uint16 l, .num .uint16 ll, .num .uint16 sp, .num .uint16 cl, .num .uint16 spc, .num .uint16 ps, .num .uint16 cur, .num .int w, x, .num .uint16 s.current, .num .int p, y, z, j4, j5]) pos (scan8 data eof fuel p)
      (passes (scanPass W g) fuel
        [.bytes data, .bool eof, .num .int 0, .nil, .nil, .nil, .num .int pos, .num .uint16 l, .num .uint16 ll, .num .uint16 sp, .num .uint16 cl, .num .uint16 spc, .num .uint16 ps, .num .uint16 cur, .num .int w, x, .num .uint16 s.current, .num .int p, y, z, j4, j5]).ofLoop := by
  intro fuel
  induction fuel with
  | zero => intro p y z; exact ⟨_, rfl⟩
  | succ fuel ih =>
    intro p y z
    obtain ⟨y', z', e⟩ := scan8_pass (g := g) h eof s cur w l ll sp cl spc ps x j4 j5 pos p y z
    simp only [passes, scan8]
    rw [e]
    by_cases c : p < data.length
    · simp only [c, if_true]
      cases trie.lookupAt data p with
      | error f => exact ⟨_, rfl⟩
      | ok r =>
        obtain ⟨v, n⟩ := r
        simp only
        by_cases w0 : n = 0
        · cases eof
          · simp only [w0, if_true]; exact ⟨_, rfl⟩
          · simp only [w0, if_true]; exact ⟨_, _, _, rfl⟩
        · simp only [w0, if_false]
          cases m : is v (_OLetter ||| _Upper ||| _Lower ||| _ParaSep ||| _SATerm)
          · simp only [Bool.false_eq_true, if_false, andThen_next]
            exact ih _ _ _
          · simp only [if_true]; exact ⟨_, _, rfl⟩
    · simp only [c, if_false]; exact ⟨_, _, rfl⟩

set_option maxRecDepth 10000 in
theorem rest_agrees : Agrees (Rep data eof) (Fin data)
      (stepRest s
        { pos := s.pos + w, current := cur, lastExIgnore := l, lastLastExIgnore := ll, lastExIgnoreSp := sp, lastExIgnoreClose := cl, lastExIgnoreSpClose := spc, lastExIgnoreParaSepSpClose := ps })
      (exec W g (.seq Code.splitFunc_s37 (.seq Code.splitFunc_s38 (.seq Code.splitFunc_s39 (.seq Code.splitFunc_s40 Code.splitFunc_s41))))
        [.bytes data, .bool eof, .num .int 0, .nil, .nil, .nil, .num .int s.pos, .num .uint16 l, .num .uint16 ll, .num .uint16 sp, .num .uint16 cl,
          .num .uint16 spc, .num .uint16 ps, .num .uint16 cur, .num .int w, x, .num .uint16 s.current, j1, j2, j3, j4, j5]) := by
  unfold stepRest
  unfold Code.splitFunc_s37
  go_run [h.is, Int.toNat_natCast, ← Int.natCast_add, decide_natCast_zero, decide_eq_true_eq]
  refine agrees_ite rfl (fun _ => ⟨_, ⟨_, _, _, _, _, _, _, _, rfl⟩, .inr rfl⟩) (fun _ => ?_)
  unfold Code.splitFunc_s38
  go_run [h.is, Int.toNat_natCast, ← Int.natCast_add, decide_natCast_zero, decide_eq_true_eq]
  refine agrees_ite rfl (fun _ => ⟨_, ⟨_, _, _, _, _, _, _, _, rfl⟩, .inr rfl⟩) (fun _ => ?_)
  unfold Code.splitFunc_s39
  go_run [h.is, Int.toNat_natCast, ← Int.natCast_add, decide_natCast_zero, decide_eq_true_eq]
  refine agrees_ite rfl (fun _ => ⟨_, ⟨_, _, _, _, _, _, _, _, rfl⟩, .inr rfl⟩) (fun _ => ?_)
  unfold Code.splitFunc_s40 Code.splitFunc_s41
  go_run [h.is, Int.toNat_natCast, ← Int.natCast_add]
  exact agrees_ite rfl (fun _ => ⟨_, ⟨rfl, rfl⟩, .inl rfl⟩) (fun _ => ⟨_, ⟨_, _, _, _, _, _, _, _, rfl⟩, .inl rfl⟩)

include hs in
set_option maxRecDepth 10000 in
theorem rules_agrees (hg : data.length < g) : Agrees (Rep data eof) (Fin data)
      (rules data eof s
        { pos := s.pos + w, current := cur, lastExIgnore := l, lastLastExIgnore := ll, lastExIgnoreSp := sp, lastExIgnoreClose := cl, lastExIgnoreSpClose := spc, lastExIgnoreParaSepSpClose := ps })
      (exec W g (.seq Code.splitFunc_s25 (.seq Code.splitFunc_s26 (.seq Code.splitFunc_s27 (.seq Code.splitFunc_s28 (.seq Code.splitFunc_s29 (.seq Code.splitFunc_s30 (.seq Code.splitFunc_s36 (.seq Code.splitFunc_s37 (.seq Code.splitFunc_s38 (.seq Code.splitFunc_s39 (.seq Code.splitFunc_s40 Code.splitFunc_s41)))))))))))
        [.bytes data, .bool eof, .num .int 0, .nil, .nil, .nil, .num .int s.pos, .num .uint16 l, .num .uint16 ll, .num .uint16 sp, .num .uint16 cl,
          .num .uint16 spc, .num .uint16 ps, .num .uint16 cur, .num .int w, x, .num .uint16 s.current, j1, j2, j3, j4, j5]) := by
  unfold rules
  unfold Code.splitFunc_s25
  go_run [h.is, Int.toNat_natCast, ← Int.natCast_add, decide_natCast_zero, decide_eq_true_eq]
  refine agrees_ite rfl (fun _ => ⟨_, ⟨_, _, _, _, _, _, _, _, rfl⟩, .inr rfl⟩) (fun _ => ?_)
  unfold Code.splitFunc_s26
  go_run [h.is, Int.toNat_natCast, ← Int.natCast_add, decide_natCast_zero, decide_eq_true_eq]
  refine agrees_ite rfl (fun _ => ⟨_, ⟨_, _, _, _, _, _, _, _, rfl⟩, .inr rfl⟩) (fun _ => ?_)
  unfold Code.splitFunc_s27
  go_run [h.is, Int.toNat_natCast, ← Int.natCast_add, decide_natCast_zero, decide_eq_true_eq]
  refine agrees_ite rfl (fun _ => ⟨_, ⟨rfl, rfl⟩, .inl rfl⟩) (fun _ => ?_)
  unfold Code.splitFunc_s28
  go_run [h.is, Int.toNat_natCast, ← Int.natCast_add, decide_natCast_zero, decide_eq_true_eq]
  refine agrees_ite rfl (fun _ => ⟨_, ⟨_, _, _, _, _, _, _, _, rfl⟩, .inr rfl⟩) (fun _ => ?_)
  unfold Code.splitFunc_s29
  go_run [h.is, Int.toNat_natCast, ← Int.natCast_add, decide_natCast_zero, decide_eq_true_eq]
  refine agrees_ite rfl (fun _ => ⟨_, ⟨_, _, _, _, _, _, _, _, rfl⟩, .inr rfl⟩) (fun _ => ?_)
  unfold Code.splitFunc_s30
  go_run [h.is, Int.toNat_natCast, ← Int.natCast_add, decide_natCast_zero, decide_eq_true_eq]
  refine agrees_ite rfl (fun _ => ⟨_, ⟨_, _, _, _, _, _, _, _, rfl⟩, .inr rfl⟩) (fun _ => ?_)
  unfold Code.splitFunc_s36
  go_run [h.is, Int.toNat_natCast]
  refine agrees_ite rfl (fun _ => ?_) (fun _ => by rw [← exec_seq]; exact rest_agrees h eof s cur w l ll sp cl spc ps _ _ _ _ _ _)
  unfold Code.splitFunc_s35
  rw [exec_loop, ← scan8_fuel eof s.pos hg]
  have h8 := scan8_agrees (g := g) (data := data) h eof s cur w l ll sp cl spc ps x j4 j5 s.pos g s.pos j2 j3
  revert h8
  generalize scan8 data eof g s.pos = r
  change ScanAgrees _ _ _ _ (passes (scanPass W g) _ _).ofLoop → Agrees _ _ _ (((passes (scanPass W g) _ _).ofLoop.andThen _).andThen _)
  generalize (passes _ _ _).ofLoop = o
  intro h8
  cases r with
  | fault f => obtain ⟨_, rfl⟩ := h8; exact ⟨_, rfl⟩
  | more => obtain ⟨_, rfl⟩ := h8; exact ⟨_, rfl⟩
  | breakMain => obtain ⟨_, _, _, rfl⟩ := h8; exact ⟨_, ⟨rfl, rfl⟩, .inr rfl⟩
  | stop p =>
    obtain ⟨_, _, rfl⟩ := h8
    go_run [hs.at]
    have e : subsequentFrom trie _Ignore (Int.toNat 64) data p eof = subsequentFrom trie _Ignore _Lower data p eof := rfl
    rw [e]
    generalize hr : subsequentFrom trie _Ignore _Lower data p eof = r
    rcases r with f | ⟨a, m⟩
    · go_run [subRes]; exact ⟨_, rfl⟩
    · rcases subsequentFrom_cases hr with rfl | ⟨j, rfl⟩
      · go_run [subRes, notfound_ne]
        exact agrees_ite rfl (fun _ => ⟨_, rfl⟩) (fun _ => by rw [← exec_seq]; exact rest_agrees h eof s cur w l ll sp cl spc ps _ _ _ _ _ _)
      · go_run [subRes, natCast_ne_notfound, ← Int.natCast_add, Int.toNat_natCast]
        refine agrees_ite rfl (fun _ => ⟨_, rfl⟩) (fun _ => ?_)
        rw [if_pos (by unfold notfound; omega)]
        exact ⟨_, ⟨_, _, _, _, _, _, _, _, rfl⟩, .inr rfl⟩
end

set_option maxRecDepth 10000 in
theorem step_agrees {W : World} {g : Nat} {data : Bytes} (h : Calls W trie .uint16 2)
    (hs : SubCalls W trie .uint16 4 _Ignore data.length) (hg : data.length < g) (eof : Bool) (s : State) (env : Env)
    (hr : Rep data eof s env) : Agrees (Rep data eof) (Fin data) (step data eof s)
      (exec W g (.seq Code.splitFunc_s15 (.seq Code.splitFunc_s16 (.seq Code.splitFunc_s17 (.seq Code.splitFunc_s18 (.seq Code.splitFunc_s19 (.seq Code.splitFunc_s20 (.seq Code.splitFunc_s21 (.seq Code.splitFunc_s22 (.seq Code.splitFunc_s23 (.seq Code.splitFunc_s24 (.seq Code.splitFunc_s25 (.seq Code.splitFunc_s26 (.seq Code.splitFunc_s27 (.seq Code.splitFunc_s28 (.seq Code.splitFunc_s29 (.seq Code.splitFunc_s30 (.seq Code.splitFunc_s36 (.seq Code.splitFunc_s37 (.seq Code.splitFunc_s38 (.seq Code.splitFunc_s39 (.seq Code.splitFunc_s40 Code.splitFunc_s41))))))))))))))))))))) env) := by
  obtain ⟨w, x, y, j1, j2, j3, j4, j5, rfl⟩ := hr
  unfold step Code.splitFunc_s15 Code.splitFunc_s16
  go_run [decide_natCast_eq, decide_eq_true_eq]
  refine agrees_ite rfl (fun hp => ?_) (fun hp => ?_)
  · exact agrees_ite rfl (fun _ => ⟨_, rfl⟩) (fun _ => ⟨_, ⟨rfl, rfl⟩, .inl rfl⟩)
  unfold Code.splitFunc_s17 Code.splitFunc_s18
  go_run [h.is, Int.toNat_natCast, next_ite, cons_ite, ite_self, natCast_ite]
  unfold Code.splitFunc_s19
  go_run [h.is, Int.toNat_natCast, next_ite, cons_ite, ite_self, natCast_ite]
  unfold Code.splitFunc_s20
  go_run [h.is, Int.toNat_natCast, next_ite, cons_ite, ite_self, natCast_ite]
  unfold Code.splitFunc_s21
  go_run [h.is, Int.toNat_natCast, next_ite, cons_ite, ite_self, natCast_ite]
  unfold Code.splitFunc_s22
  go_run [h.is, Int.toNat_natCast, next_ite, cons_ite, ite_self, natCast_ite]
  unfold Code.splitFunc_s23
  go_run [h.at]
  cases trie.lookupAt data s.pos with
  | error f => go_run [lookupRes]; exact ⟨_, rfl⟩
  | ok r =>
    obtain ⟨current, w⟩ := r
    unfold Code.splitFunc_s24
    go_run [lookupRes, decide_natCast_zero, decide_eq_true_eq]
    refine agrees_ite rfl (fun hw => ?_) (fun hw => ?_)
    · exact agrees_ite rfl (fun _ => ⟨_, ⟨rfl, rfl⟩, .inl rfl⟩) (fun _ => ⟨_, rfl⟩)
    exact rules_agrees h hs eof s current w _ _ _ _ _ _ _ _ _ _ _ _ hg

set_option maxRecDepth 10000 in
theorem splitFunc_loop {W : World} {g : Nat} {data : Bytes} (h : Calls W trie .uint16 2)
    (hs : SubCalls W trie .uint16 4 _Ignore data.length) (hg : data.length < g) (eof : Bool) :
    (Code.splitFunc.run W g (.pair (.bytes data) (.bool eof))).2 = splitRes (
      if data.length = 0 then .ok .requestMore
      else
        match trie.lookupAt data 0 with
        | .error f => .error f
        | .ok (current, w) =>
          if w = 0 then
            if !eof then .ok .requestMore
            else finish data (.brk data.length)
          else
            finish data (runLoop (step data eof) g
              { pos := w, current, lastExIgnore := 0, lastLastExIgnore := 0, lastExIgnoreSp := 0,
                lastExIgnoreClose := 0, lastExIgnoreSpClose := 0, lastExIgnoreParaSepSpClose := 0 })) := by
  rw [run_eq (vs := [.bytes data, .bool eof]) rfl]
  show ((exec W g Code.splitFunc.body [.bytes data, .bool eof, .nil, .nil, .nil, .nil, .nil, .nil, .nil, .nil, .nil, .nil, .nil,
    .nil, .nil, .nil, .nil, .nil, .nil, .nil, .nil, .nil]).result [some .int, none, none]).2 = _
  unfold Code.splitFunc Code.splitFunc_s0 Code.splitFunc_s1 Code.splitFunc_s2 Code.splitFunc_s3 Code.splitFunc_s4
  go_run [decide_natCast_zero, decide_eq_true_eq]
  by_cases h0 : data.length = 0
  · rw [if_pos h0, if_pos h0]; rfl
  rw [if_neg h0, if_neg h0]
  unfold Code.splitFunc_s5 Code.splitFunc_s6 Code.splitFunc_s7 Code.splitFunc_s8 Code.splitFunc_s9 Code.splitFunc_s10 Code.splitFunc_s11 Code.splitFunc_s12
  have h1 := h.at data .int 0
  simp only [Int.natCast_zero] at h1
  go_run [h1]
  cases trie.lookupAt data 0 with
  | error f => rfl
  | ok r =>
    obtain ⟨current, w⟩ := r
    unfold Code.splitFunc_s13
    go_run [lookupRes, decide_natCast_zero, decide_eq_true_eq]
    by_cases hw : w = 0
    · rw [if_pos hw, if_pos hw]
      cases eof
      · rfl
      · go_run [take_nat]
        simp only [finish]
        cases sliceTo data data.length <;> rfl
    · rw [if_neg hw, if_neg hw]
      unfold Code.splitFunc_s14 Code.splitFunc_s42 Code.splitFunc_s43
      go_run [exec_loop]
      refine finish_agrees (fun p env he => he) (loop_agrees (step_agrees h hs hg eof) g _ _ ?_)
      exact ⟨w, .nil, .nil, .nil, .nil, .nil, .nil, .nil, by simp⟩

end Uax29.Sentences
