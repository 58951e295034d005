import Verif.Proofs.GoSplit
import Verif.Model.Words
import Verif.Table.WordsCode
/-! # The code of words/splitfunc.go and words/joiners.go and the model -/
namespace Uax29.Words
open Source

/-- The variables of `splitFunc` with those of the model. -/
def Rep (jv : Val) (data : Bytes) (eof : Bool) (s : State) (env : Env) : Prop :=
  ∃ (w : Int) (x x' y j1 j2 j3 j4 j5 j6 j7 j8 j9 j10 : Val),
    env = [jv, .bytes data, .bool eof, .num .int 0, .nil, .nil, .nil, .num .int s.pos, .num .uint32 s.lastExIgnore, .num .uint32 s.lastLastExIgnore, .num .int s.regionalIndicatorCount,
          .num .uint32 s.current, .num .int w, x, x', y, j1, j2, j3, j4, j5, j6, j7, j8, j9, j10]

/-- The end of the loop at `p`. -/
def Fin (data : Bytes) (p : Nat) (env : Env) : Prop := env.get 1 = .bytes data ∧ env.get 7 = .num .int p

/-- One pass of the loop of `runesContain`. -/
def containPass (W : World) (g : Nat) : Env → Out :=
  loopPass W g 1 (.bin .lt (.var 3) (.len (.var 2))) (.assign [some 3] (.bin .add (.var 3) (.lit (.num .untyped 1))))
    (.seq Code.runesContain_s2 Code.runesContain_s3)

theorem contain_loop {W : World} {g : Nat} (rs : List Int) (r : Int) : ∀ (l pre : List Int) (fuel : Nat) (x : Val), pre ++ l = rs →
    l.length < fuel →
    (((passes (containPass W g) fuel [.runes rs, .num .int32 r, .runes rs, .num .int pre.length, x]).ofLoop.andThen
      (exec W g (.ret (.lit (.bool false))))).result [none]).2 = .ok (.bool (runesContain l r)) := by
  intro l
  induction l with
  | nil =>
    intro pre fuel x hp hf
    obtain ⟨fuel, rfl⟩ : ∃ k, fuel = k + 1 := ⟨fuel - 1, by simp at hf; omega⟩
    have kc : decide (pre.length < rs.length) = false := by subst hp; simp
    simp only [passes]
    have : containPass W g [.runes rs, .num .int32 r, .runes rs, .num .int pre.length, x]
        = .brk 0 [.runes rs, .num .int32 r, .runes rs, .num .int pre.length, x] := by
      unfold containPass loopPass
      go_run [decide_natCast_lt, kc]
    rw [this]; rfl
  | cons a l ih =>
    intro pre fuel x hp hf
    obtain ⟨fuel, rfl⟩ : ∃ k, fuel = k + 1 := ⟨fuel - 1, by simp at hf; omega⟩
    have kc : decide (pre.length < rs.length) = true := by subst hp; simp
    have ki : Val.index (.runes rs) (.num .int pre.length) = .ok (.num .int32 a) := by
      subst hp; simp [Val.index]
    simp only [passes]
    by_cases c : a = r
    · have : containPass W g [.runes rs, .num .int32 r, .runes rs, .num .int pre.length, x]
          = .ret (.bool true) [.runes rs, .num .int32 r, .runes rs, .num .int pre.length, .num .int32 a] := by
        unfold containPass loopPass Code.runesContain_s2 Code.runesContain_s3
        go_run [decide_natCast_lt, kc, ki, c, decide_true]
        rfl
      rw [this]
      simp [runesContain, c]; rfl
    · have : containPass W g [.runes rs, .num .int32 r, .runes rs, .num .int pre.length, x]
          = .next [.runes rs, .num .int32 r, .runes rs, .num .int (pre ++ [a]).length, .num .int32 a] := by
        unfold containPass loopPass Code.runesContain_s2 Code.runesContain_s3
        have c' : decide (a = r) = false := by simpa
        go_run [decide_natCast_lt, kc, ki, c']
        simp only [Out.ofBody]
        go_run []
        simp
      rw [this]
      simp only [andThen_next, runesContain, c, if_false]
      exact ih (pre ++ [a]) fuel _ (by simp [hp]) (by simp at hf; omega)

theorem runesContain_run {W : World} {g : Nat} (l : List Int) (r : Int) (hg : l.length < g) :
    (Code.runesContain.run W g (.pair (.runes l) (.num .int32 r))).2 = .ok (.bool (runesContain l r)) := by
  rw [run_eq (vs := [.runes l, .num .int32 r]) rfl, ← contain_loop (W := W) (g := g) l r l [] g .nil (by simp) hg]
  show ((exec W g Code.runesContain.body [.runes l, .num .int32 r, .nil, .nil, .nil]).result [none]).2 = _
  unfold Code.runesContain Code.runesContain_s5 Code.runesContain_s0 Code.runesContain_s1 Code.runesContain_s4 Code.runesContain_s6
  go_run [exec_loop]
  rfl

theorem decodeRune_run {W : World} {g : Nat} (b : Bytes) :
    (Code.decodeRune.run W g (.bytes b)).2 = .ok (.pair (.num .int32 (Utf8.decodeRune b).1) (.num .int (Utf8.decodeRune b).2)) := by
  rw [run_eq (vs := [.bytes b]) rfl]
  show ((exec W g Code.decodeRune.body [.bytes b, .nil]).result [some .int32, some .int]).2 = _
  unfold Code.decodeRune Code.decodeRune_s0 Code.decodeRune_s1
  rcases W with ⟨c, t, i⟩
  cases i <;> go_run [exec_byType] <;> rfl

/-- The calls of `runesContain` for the slices of `j`, and of `decodeRune`. -/
structure JoinCalls (W : World) (j : Option Joiners) : Prop where
  contain : ∀ l, j.bind Joiners.middle = some l ∨ j.bind Joiners.leading = some l → ∀ r : Int,
    (W.call 3 (.pair (.runes l) (.num .int32 r))).2 = .ok (.bool (runesContain l r))
  decode : ∀ b, (W.call 5 (.bytes b)).2 = .ok (.pair (.num .int32 (Utf8.decodeRune b).1) (.num .int (Utf8.decodeRune b).2))

set_option maxRecDepth 10000 in
theorem middle_run {W : World} {g : Nat} {j : Option Joiners} (hj : JoinCalls W j) (data : Bytes) (pos cur : Nat)
    (x2 x3 x4 x5 x6 x8 x9 x10 x12 x13 x14 x15 j1 j2 j3 j4 j5 j6 j7 j8 j9 j10 : Val) :
    ∃ j1', exec W g Code.msplitFunc_s19 [joinersVal j, .bytes data, x2, x3, x4, x5, x6, .num .int pos, x8, x9, x10, .num .uint32 cur, x12, x13, x14,
        x15, j1, j2, j3, j4, j5, j6, j7, j8, j9, j10]
      = match applyJoiner (j.bind Joiners.middle) _MidNumLet data pos cur with
        | .error f => .fault f [joinersVal j, .bytes data, x2, x3, x4, x5, x6, .num .int pos, x8, x9, x10, .num .uint32 cur, x12, x13, x14,
            x15, j1, j2, j3, j4, j5, j6, j7, j8, j9, j10]
        | .ok c => .next [joinersVal j, .bytes data, x2, x3, x4, x5, x6, .num .int pos, x8, x9, x10, .num .uint32 c, x12, x13, x14,
            x15, j1', j2, j3, j4, j5, j6, j7, j8, j9, j10] := by
  have hb : (_MidNumLet : Nat) = 8192 := rfl
  rcases j with _ | ⟨m, l⟩
  · refine ⟨j1, ?_⟩
    unfold Code.msplitFunc_s19 joinersVal
    go_run [Op.apply]
    rfl
  · rcases m with _ | m
    · refine ⟨j1, ?_⟩
      unfold Code.msplitFunc_s19 joinersVal runesVal
      go_run [Op.apply, Val.field]
      rfl
    · refine ⟨.num .int32 (match runeAt data pos with | .ok r => r | .error _ => 0), ?_⟩
      unfold Code.msplitFunc_s19 joinersVal runesVal
      simp only [applyJoiner, runeAt, Option.bind, hb]
      cases e : sliceFrom data pos with
      | error f => go_run [Op.apply, Val.field, drop_nat, e]; rfl
      | ok d =>
        go_run [Op.apply, Val.field, drop_nat, e, hj.decode, hj.contain m (.inl rfl), Int.toNat_natCast]
        cases runesContain m (Utf8.decodeRune d).1 <;> rfl

set_option maxRecDepth 10000 in
theorem leading_run {W : World} {g : Nat} {j : Option Joiners} (hj : JoinCalls W j) (data : Bytes) (pos cur : Nat)
    (x2 x3 x4 x5 x6 x8 x9 x10 x12 x13 x14 x15 j1 j2 j3 j4 j5 j6 j7 j8 j9 j10 : Val) :
    ∃ x13', exec W g Code.msplitFunc_s11 [joinersVal j, .bytes data, x2, x3, x4, x5, x6, .num .int pos, x8, x9, x10, .num .uint32 cur, x12, x13, x14,
        x15, j1, j2, j3, j4, j5, j6, j7, j8, j9, j10]
      = match applyJoiner (j.bind Joiners.leading) _AHLetter data pos cur with
        | .error f => .fault f [joinersVal j, .bytes data, x2, x3, x4, x5, x6, .num .int pos, x8, x9, x10, .num .uint32 cur, x12, x13, x14,
            x15, j1, j2, j3, j4, j5, j6, j7, j8, j9, j10]
        | .ok c => .next [joinersVal j, .bytes data, x2, x3, x4, x5, x6, .num .int pos, x8, x9, x10, .num .uint32 c, x12, x13', x14,
            x15, j1, j2, j3, j4, j5, j6, j7, j8, j9, j10] := by
  have hb : (_AHLetter : Nat) = 257 := rfl
  rcases j with _ | ⟨m, l⟩
  · refine ⟨x13, ?_⟩
    unfold Code.msplitFunc_s11 joinersVal
    go_run [Op.apply]
    rfl
  · rcases l with _ | l
    · refine ⟨x13, ?_⟩
      unfold Code.msplitFunc_s11 joinersVal runesVal
      go_run [Op.apply, Val.field]
      rfl
    · refine ⟨.num .int32 (match runeAt data pos with | .ok r => r | .error _ => 0), ?_⟩
      unfold Code.msplitFunc_s11 joinersVal runesVal
      simp only [applyJoiner, runeAt, Option.bind, hb]
      cases e : sliceFrom data pos with
      | error f => go_run [Op.apply, Val.field, drop_nat, e]; rfl
      | ok d =>
        go_run [Op.apply, Val.field, drop_nat, e, hj.decode, hj.contain l (.inr rfl), Int.toNat_natCast]
        cases runesContain l (Utf8.decodeRune d).1 <;> rfl

section
variable {W : World} {g : Nat} {data : Bytes} (h : Calls W trie .uint32 4) (hs : SubCalls W trie .uint32 8 _Ignore data.length)
  (jv : Val) (eof : Bool) (s : State) (cur w l ll : Nat) (x x' j1 j2 j3 j4 j5 j6 j7 j8 j9 j10 : Val)
include h

set_option maxRecDepth 10000 in
theorem rest3_agrees : Agrees (Rep jv data eof) (Fin data)
      (stepRest3 s
        { pos := s.pos + w, current := cur, lastExIgnore := l, lastLastExIgnore := ll, regionalIndicatorCount := s.regionalIndicatorCount })
      (exec W g (.seq Code.msplitFunc_s33 (.seq Code.msplitFunc_s34 (.seq Code.msplitFunc_s35 (.seq Code.msplitFunc_s36 (.brk 0)))))
        [jv, .bytes data, .bool eof, .num .int 0, .nil, .nil, .nil, .num .int s.pos, .num .uint32 l, .num .uint32 ll, .num .int s.regionalIndicatorCount,
          .num .uint32 cur, .num .int w, x, x', .num .uint32 s.current, j1, j2, j3, j4, j5, j6, j7, j8, j9, j10]) := by
  unfold stepRest3
  unfold Code.msplitFunc_s33
  go_run [h.is, Int.toNat_natCast, ← Int.natCast_add]
  refine agrees_ite rfl (fun _ => ⟨_, ⟨_, _, _, _, _, _, _, _, _, _, _, _, _, _, rfl⟩, .inr rfl⟩) (fun _ => ?_)
  unfold Code.msplitFunc_s34
  go_run [h.is, Int.toNat_natCast, ← Int.natCast_add]
  refine agrees_ite rfl (fun _ => ⟨_, ⟨_, _, _, _, _, _, _, _, _, _, _, _, _, _, rfl⟩, .inr rfl⟩) (fun _ => ?_)
  unfold Code.msplitFunc_s35
  go_run [h.is, Int.toNat_natCast, ← Int.natCast_add]
  refine agrees_ite rfl (fun _ => ⟨_, ⟨_, _, _, _, _, _, _, _, _, _, _, _, _, _, rfl⟩, .inr rfl⟩) (fun _ => ?_)
  unfold Code.msplitFunc_s36
  go_run [h.is, Int.toNat_natCast, ← Int.natCast_add, two_eq_zero, decide_odd, decide_eq_true_eq]
  refine agrees_ite rfl (fun _ => ?_) (fun _ => ⟨_, ⟨rfl, rfl⟩, .inl rfl⟩)
  exact agrees_ite rfl (fun _ => ⟨_, ⟨_, _, _, _, _, _, _, _, _, _, _, _, _, _, rfl⟩, .inr rfl⟩) (fun _ => ⟨_, ⟨rfl, rfl⟩, .inl rfl⟩)

include hs in
set_option maxRecDepth 10000 in
theorem rest2_agrees : Agrees (Rep jv data eof) (Fin data)
      (stepRest2 data eof s
        { pos := s.pos + w, current := cur, lastExIgnore := l, lastLastExIgnore := ll, regionalIndicatorCount := s.regionalIndicatorCount })
      (exec W g (.seq Code.msplitFunc_s30 (.seq Code.msplitFunc_s31 (.seq Code.msplitFunc_s32 (.seq Code.msplitFunc_s33 (.seq Code.msplitFunc_s34 (.seq Code.msplitFunc_s35 (.seq Code.msplitFunc_s36 (.brk 0))))))))
        [jv, .bytes data, .bool eof, .num .int 0, .nil, .nil, .nil, .num .int s.pos, .num .uint32 l, .num .uint32 ll, .num .int s.regionalIndicatorCount,
          .num .uint32 cur, .num .int w, x, x', .num .uint32 s.current, j1, j2, j3, j4, j5, j6, j7, j8, j9, j10]) := by
  unfold stepRest2
  unfold Code.msplitFunc_s30
  go_run [h.is, Int.toNat_natCast, ← Int.natCast_add]
  refine agrees_ite rfl (fun _ => ⟨_, ⟨_, _, _, _, _, _, _, _, _, _, _, _, _, _, rfl⟩, .inr rfl⟩) (fun _ => ?_)
  unfold Code.msplitFunc_s31
  go_run [h.is, Int.toNat_natCast, ← Int.natCast_add]
  refine agrees_ite rfl (fun _ => ⟨_, ⟨_, _, _, _, _, _, _, _, _, _, _, _, _, _, rfl⟩, .inr rfl⟩) (fun _ => ?_)
  unfold Code.msplitFunc_s32
  go_run [h.is, Int.toNat_natCast, ← Int.natCast_add, hs.at]
  refine agrees_ite rfl (fun _ => ?_) (fun _ => by rw [← exec_seq]; exact rest3_agrees h jv eof s cur w l ll _ _ _ _ _ _ _ _ _ _ _ _)
  have e : subsequentFrom trie _Ignore (Int.toNat 32768) data (s.pos + w) eof = subsequentFrom trie _Ignore _Numeric data (s.pos + w) eof := rfl
  rw [e]
  unfold lookAhead
  generalize hr : subsequentFrom trie _Ignore _Numeric data (s.pos + w) eof = r
  rcases r with f | ⟨a, m⟩
  · go_run [subRes]; exact ⟨_, rfl⟩
  · rcases subsequentFrom_cases hr with rfl | ⟨j, rfl⟩
    · go_run [subRes, notfound_ne]
      exact agrees_ite rfl (fun _ => ⟨_, rfl⟩) (fun _ => by rw [← exec_seq]; exact rest3_agrees h jv eof s cur w l ll _ _ _ _ _ _ _ _ _ _ _ _)
    · go_run [subRes, natCast_ne_notfound, ← Int.natCast_add, ← Nat.add_assoc, Int.toNat_natCast]
      exact agrees_ite rfl (fun _ => ⟨_, rfl⟩) (fun _ => ⟨_, ⟨_, _, _, _, _, _, _, _, _, _, _, _, _, _, rfl⟩, .inr rfl⟩)

include hs in
set_option maxRecDepth 10000 in
theorem rest1_agrees : Agrees (Rep jv data eof) (Fin data)
      (stepRest1 data eof s
        { pos := s.pos + w, current := cur, lastExIgnore := l, lastLastExIgnore := ll, regionalIndicatorCount := s.regionalIndicatorCount })
      (exec W g (.seq Code.msplitFunc_s27 (.seq Code.msplitFunc_s28 (.seq Code.msplitFunc_s29 (.seq Code.msplitFunc_s30 (.seq Code.msplitFunc_s31 (.seq Code.msplitFunc_s32 (.seq Code.msplitFunc_s33 (.seq Code.msplitFunc_s34 (.seq Code.msplitFunc_s35 (.seq Code.msplitFunc_s36 (.brk 0)))))))))))
        [jv, .bytes data, .bool eof, .num .int 0, .nil, .nil, .nil, .num .int s.pos, .num .uint32 l, .num .uint32 ll, .num .int s.regionalIndicatorCount,
          .num .uint32 cur, .num .int w, x, x', .num .uint32 s.current, j1, j2, j3, j4, j5, j6, j7, j8, j9, j10]) := by
  unfold stepRest1
  unfold Code.msplitFunc_s27
  go_run [h.is, Int.toNat_natCast, ← Int.natCast_add]
  refine agrees_ite rfl (fun _ => ⟨_, ⟨_, _, _, _, _, _, _, _, _, _, _, _, _, _, rfl⟩, .inr rfl⟩) (fun _ => ?_)
  unfold Code.msplitFunc_s28
  go_run [h.is, Int.toNat_natCast, ← Int.natCast_add]
  refine agrees_ite rfl (fun _ => ⟨_, ⟨_, _, _, _, _, _, _, _, _, _, _, _, _, _, rfl⟩, .inr rfl⟩) (fun _ => ?_)
  unfold Code.msplitFunc_s29
  go_run [h.is, Int.toNat_natCast, ← Int.natCast_add, hs.at]
  refine agrees_ite rfl (fun _ => ?_) (fun _ => by rw [← exec_seq]; exact rest2_agrees h hs jv eof s cur w l ll _ _ _ _ _ _ _ _ _ _ _ _)
  have e : subsequentFrom trie _Ignore (Int.toNat 256) data (s.pos + w) eof = subsequentFrom trie _Ignore _HebrewLetter data (s.pos + w) eof := rfl
  rw [e]
  unfold lookAhead
  generalize hr : subsequentFrom trie _Ignore _HebrewLetter data (s.pos + w) eof = r
  rcases r with f | ⟨a, m⟩
  · go_run [subRes]; exact ⟨_, rfl⟩
  · rcases subsequentFrom_cases hr with rfl | ⟨j, rfl⟩
    · go_run [subRes, notfound_ne]
      exact agrees_ite rfl (fun _ => ⟨_, rfl⟩) (fun _ => by rw [← exec_seq]; exact rest2_agrees h hs jv eof s cur w l ll _ _ _ _ _ _ _ _ _ _ _ _)
    · go_run [subRes, natCast_ne_notfound, ← Int.natCast_add, ← Nat.add_assoc, Int.toNat_natCast]
      exact agrees_ite rfl (fun _ => ⟨_, rfl⟩) (fun _ => ⟨_, ⟨_, _, _, _, _, _, _, _, _, _, _, _, _, _, rfl⟩, .inr rfl⟩)

include hs in
set_option maxRecDepth 10000 in
theorem rules_agrees : Agrees (Rep jv data eof) (Fin data)
      (rules data eof s
        { pos := s.pos + w, current := cur, lastExIgnore := l, lastLastExIgnore := ll, regionalIndicatorCount := s.regionalIndicatorCount })
      (exec W g (.seq Code.msplitFunc_s20 (.seq Code.msplitFunc_s21 (.seq Code.msplitFunc_s22 (.seq Code.msplitFunc_s23 (.seq Code.msplitFunc_s24 (.seq Code.msplitFunc_s25 (.seq Code.msplitFunc_s26 (.seq Code.msplitFunc_s27 (.seq Code.msplitFunc_s28 (.seq Code.msplitFunc_s29 (.seq Code.msplitFunc_s30 (.seq Code.msplitFunc_s31 (.seq Code.msplitFunc_s32 (.seq Code.msplitFunc_s33 (.seq Code.msplitFunc_s34 (.seq Code.msplitFunc_s35 (.seq Code.msplitFunc_s36 (.brk 0))))))))))))))))))
        [jv, .bytes data, .bool eof, .num .int 0, .nil, .nil, .nil, .num .int s.pos, .num .uint32 l, .num .uint32 ll, .num .int s.regionalIndicatorCount,
          .num .uint32 cur, .num .int w, x, x', .num .uint32 s.current, j1, j2, j3, j4, j5, j6, j7, j8, j9, j10]) := by
  unfold rules
  unfold Code.msplitFunc_s20
  go_run [h.is, Int.toNat_natCast, ← Int.natCast_add]
  refine agrees_ite rfl (fun _ => ⟨_, ⟨_, _, _, _, _, _, _, _, _, _, _, _, _, _, rfl⟩, .inr rfl⟩) (fun _ => ?_)
  unfold Code.msplitFunc_s21
  go_run [h.is, Int.toNat_natCast, ← Int.natCast_add]
  refine agrees_ite rfl (fun _ => ⟨_, ⟨_, _, _, _, _, _, _, _, _, _, _, _, _, _, rfl⟩, .inr rfl⟩) (fun _ => ?_)
  unfold Code.msplitFunc_s22
  go_run [h.is, Int.toNat_natCast, ← Int.natCast_add]
  refine agrees_ite rfl (fun _ => ⟨_, ⟨_, _, _, _, _, _, _, _, _, _, _, _, _, _, rfl⟩, .inr rfl⟩) (fun _ => ?_)
  unfold Code.msplitFunc_s23
  go_run [h.is, Int.toNat_natCast, ← Int.natCast_add]
  refine agrees_ite rfl (fun _ => ⟨_, ⟨rfl, rfl⟩, .inl rfl⟩) (fun _ => ?_)
  unfold Code.msplitFunc_s24
  go_run [h.is, Int.toNat_natCast, ← Int.natCast_add]
  refine agrees_ite rfl (fun _ => ⟨_, ⟨_, _, _, _, _, _, _, _, _, _, _, _, _, _, rfl⟩, .inr rfl⟩) (fun _ => ?_)
  unfold Code.msplitFunc_s25
  go_run [h.is, Int.toNat_natCast, ← Int.natCast_add]
  refine agrees_ite rfl (fun _ => ⟨_, ⟨_, _, _, _, _, _, _, _, _, _, _, _, _, _, rfl⟩, .inr rfl⟩) (fun _ => ?_)
  unfold Code.msplitFunc_s26
  go_run [h.is, Int.toNat_natCast, ← Int.natCast_add, hs.at]
  refine agrees_ite rfl (fun _ => ?_) (fun _ => by rw [← exec_seq]; exact rest1_agrees h hs jv eof s cur w l ll _ _ _ _ _ _ _ _ _ _ _ _)
  have e : subsequentFrom trie _Ignore (Int.toNat 257) data (s.pos + w) eof = subsequentFrom trie _Ignore _AHLetter data (s.pos + w) eof := rfl
  rw [e]
  unfold lookAhead
  generalize hr : subsequentFrom trie _Ignore _AHLetter data (s.pos + w) eof = r
  rcases r with f | ⟨a, m⟩
  · go_run [subRes]; exact ⟨_, rfl⟩
  · rcases subsequentFrom_cases hr with rfl | ⟨j, rfl⟩
    · go_run [subRes, notfound_ne]
      exact agrees_ite rfl (fun _ => ⟨_, rfl⟩) (fun _ => by rw [← exec_seq]; exact rest1_agrees h hs jv eof s cur w l ll _ _ _ _ _ _ _ _ _ _ _ _)
    · go_run [subRes, natCast_ne_notfound, ← Int.natCast_add, ← Nat.add_assoc, Int.toNat_natCast]
      exact agrees_ite rfl (fun _ => ⟨_, rfl⟩) (fun _ => ⟨_, ⟨_, _, _, _, _, _, _, _, _, _, _, _, _, _, rfl⟩, .inr rfl⟩)

end

set_option maxRecDepth 10000 in
theorem step_agrees {W : World} {g : Nat} {data : Bytes} {j : Option Joiners} (h : Calls W trie .uint32 4)
    (hs : SubCalls W trie .uint32 8 _Ignore data.length) (hj : JoinCalls W j) (eof : Bool) (s : State) (env : Env)
    (hr : Rep (joinersVal j) data eof s env) : Agrees (Rep (joinersVal j) data eof) (Fin data) (step (j.bind Joiners.middle) data eof s)
      (exec W g (.seq Code.msplitFunc_s13 (.seq Code.msplitFunc_s14 (.seq Code.msplitFunc_s15 (.seq Code.msplitFunc_s16 (.seq Code.msplitFunc_s17 (.seq Code.msplitFunc_s18 (.seq Code.msplitFunc_s19 (.seq Code.msplitFunc_s20 (.seq Code.msplitFunc_s21 (.seq Code.msplitFunc_s22 (.seq Code.msplitFunc_s23 (.seq Code.msplitFunc_s24 (.seq Code.msplitFunc_s25 (.seq Code.msplitFunc_s26 (.seq Code.msplitFunc_s27 (.seq Code.msplitFunc_s28 (.seq Code.msplitFunc_s29 (.seq Code.msplitFunc_s30 (.seq Code.msplitFunc_s31 (.seq Code.msplitFunc_s32 (.seq Code.msplitFunc_s33 (.seq Code.msplitFunc_s34 (.seq Code.msplitFunc_s35 (.seq Code.msplitFunc_s36 (.brk 0))))))))))))))))))))))))) env) := by
  obtain ⟨w, x, x', y, j1, j2, j3, j4, j5, j6, j7, j8, j9, j10, rfl⟩ := hr
  unfold step Code.msplitFunc_s13 Code.msplitFunc_s14
  go_run [decide_natCast_eq, decide_eq_true_eq]
  refine agrees_ite rfl (fun hp => ?_) (fun hp => ?_)
  · exact agrees_ite rfl (fun _ => ⟨_, rfl⟩) (fun _ => ⟨_, ⟨rfl, rfl⟩, .inl rfl⟩)
  unfold Code.msplitFunc_s15 Code.msplitFunc_s16
  go_run [h.is, Int.toNat_natCast, next_ite, cons_ite, ite_self, natCast_ite]
  unfold Code.msplitFunc_s17
  go_run [h.at]
  cases trie.lookupAt data s.pos with
  | error f => go_run [lookupRes]; exact ⟨_, rfl⟩
  | ok r =>
    obtain ⟨current, w⟩ := r
    unfold Code.msplitFunc_s18
    go_run [lookupRes, decide_natCast_zero, decide_eq_true_eq]
    refine agrees_ite rfl (fun hw => ?_) (fun hw => ?_)
    · exact agrees_ite rfl (fun _ => ⟨_, ⟨rfl, rfl⟩, .inl rfl⟩) (fun _ => ⟨_, rfl⟩)
    obtain ⟨y', e⟩ := middle_run (g := g) hj data s.pos current (.bool eof) (.num .int 0) .nil .nil .nil
      (.num .uint32 ((if (!is s.current (Int.toNat 524432)) = true then s.current else s.lastExIgnore : Nat) : Int))
      (.num .uint32 ((if (!is s.current (Int.toNat 524432)) = true then s.lastExIgnore else s.lastLastExIgnore : Nat) : Int))
      (.num .int s.regionalIndicatorCount) (.num .int w) x (.bool (decide (s.pos = data.length))) (.num .uint32 s.current)
      j1 j2 j3 j4 j5 j6 j7 j8 j9 j10
    rw [e]
    cases applyJoiner (j.bind Joiners.middle) _MidNumLet data s.pos current with
    | error f => exact ⟨_, rfl⟩
    | ok c =>
      simp only [andThen_next]
      exact rules_agrees h hs _ eof s c w _ _ _ _ _ _ _ _ _ _ _ _ _ _ 

set_option maxRecDepth 10000 in
theorem joinersSplitFunc_loop {W : World} {g : Nat} {data : Bytes} {j : Option Joiners} (h : Calls W trie .uint32 4)
    (hs : SubCalls W trie .uint32 8 _Ignore data.length) (hj : JoinCalls W j) (eof : Bool) :
    (Code.msplitFunc.run W g (.pair (joinersVal j) (.pair (.bytes data) (.bool eof)))).2 = splitRes (
      if data.length = 0 then .ok .requestMore
      else
        match trie.lookupAt data 0 with
        | .error f => .error f
        | .ok (current, w) =>
          if w = 0 then
            if !eof then .ok .requestMore
            else finish data (.brk data.length)
          else
            match applyJoiner (j.bind Joiners.leading) _AHLetter data 0 current with
            | .error f => .error f
            | .ok current =>
              finish data (runLoop (step (j.bind Joiners.middle) data eof) g
                { pos := w, current, lastExIgnore := 0, lastLastExIgnore := 0, regionalIndicatorCount := 0 })) := by
  rw [run_eq (vs := [joinersVal j, .bytes data, .bool eof]) rfl]
  show ((exec W g Code.msplitFunc.body [joinersVal j, .bytes data, .bool eof, .nil, .nil, .nil, .nil, .nil, .nil, .nil, .nil, .nil, .nil, .nil,
    .nil, .nil, .nil, .nil, .nil, .nil, .nil, .nil, .nil, .nil, .nil, .nil]).result [some .int, none, none]).2 = _
  unfold Code.msplitFunc Code.msplitFunc_s0 Code.msplitFunc_s1 Code.msplitFunc_s2 Code.msplitFunc_s3 Code.msplitFunc_s4
  go_run [decide_natCast_zero, decide_eq_true_eq]
  by_cases h0 : data.length = 0
  · rw [if_pos h0, if_pos h0]; rfl
  rw [if_neg h0, if_neg h0]
  unfold Code.msplitFunc_s5 Code.msplitFunc_s6 Code.msplitFunc_s7 Code.msplitFunc_s8 Code.msplitFunc_s9
  have h1 := h.at data .int 0
  simp only [Int.natCast_zero] at h1
  go_run [h1]
  cases trie.lookupAt data 0 with
  | error f => rfl
  | ok r =>
    obtain ⟨current, w⟩ := r
    unfold Code.msplitFunc_s10
    go_run [lookupRes, decide_natCast_zero, decide_eq_true_eq]
    by_cases hw : w = 0
    · rw [if_pos hw, if_pos hw]
      cases eof
      · rfl
      · go_run [take_nat]
        simp only [finish]
        cases sliceTo data data.length <;> rfl
    · rw [if_neg hw, if_neg hw]
      obtain ⟨y', e⟩ := leading_run (g := g) hj data 0 current (.bool eof) (.num .int 0) .nil .nil .nil (.num .uint32 0) (.num .uint32 0)
        (.num .int 0) (.num .int w) .nil .nil .nil .nil .nil .nil .nil .nil .nil .nil .nil .nil .nil
      simp only [Int.natCast_zero] at e
      rw [e]
      cases applyJoiner (j.bind Joiners.leading) _AHLetter data 0 current with
      | error f => rfl
      | ok c =>
        unfold Code.msplitFunc_s12 Code.msplitFunc_s37 Code.msplitFunc_s38
        go_run [exec_loop]
        refine finish_agrees (fun p env he => he) (loop_agrees (step_agrees h hs hj eof) g _ _ ?_)
        exact ⟨w, y', .nil, .nil, .nil, .nil, .nil, .nil, .nil, .nil, .nil, .nil, .nil, .nil, by simp⟩

end Uax29.Words
