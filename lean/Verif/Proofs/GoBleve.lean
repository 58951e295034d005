import Verif.Proofs.GoWords
import Verif.Proofs.Bleve
/-! # The code of words/bleve_compat.go and the model -/
namespace Uax29.Words
open Source

/-- One pass of the model and the body of a loop that returns false, goes on or panics. -/
def Says {σ : Type} (Rep : σ → Env → Prop) : Res (Option σ) → Out → Prop
  | .error f, o => ∃ env, o = .fault f env
  | .ok none, o => ∃ env, o = .ret (.bool false) env
  | .ok (some s), o => ∃ env, Rep s env ∧ o = .cont 0 env

theorem says_ite {σ : Type} {Rep : σ → Env → Prop} {c d : Prop} [Decidable c] [Decidable d] {s s' : Res (Option σ)} {o o' : Out}
    (h : c = d) (h1 : c → Says Rep s o) (h2 : ¬ c → Says Rep s' o') : Says Rep (if c then s else s') (if d then o else o') := by
  subst h
  by_cases hc : c
  · rw [if_pos hc, if_pos hc]; exact h1 hc
  · rw [if_neg hc, if_neg hc]; exact h2 hc

/-- The variables of `BleveNumeric`. -/
def NumRep (token : Bytes) (s : NumState) (env : Env) : Prop :=
  ∃ (w : Int) (x y : Val), env = [.bytes token, .num .int s.pos, .num .int w, .num .uint32 s.current, .num .uint32 s.lastExIgnore,
    .num .uint32 s.lastLastExIgnore, x, y]

/-- The body of the loop of `BleveNumeric`. -/
def numBody : Stmt := .seq Code.BleveNumeric_s6 (.seq Code.BleveNumeric_s7 (.seq Code.BleveNumeric_s8
    (.seq Code.BleveNumeric_s9 (.seq Code.BleveNumeric_s10 (.seq Code.BleveNumeric_s11 (.seq Code.BleveNumeric_s12 (.seq Code.BleveNumeric_s13
    (.seq Code.BleveNumeric_s14 Code.BleveNumeric_s15))))))))

section
variable {W : World} {g : Nat} {token : Bytes} (h : Calls W trie .uint32 4) (hs : SubCalls W trie .uint32 8 _Ignore token.length)
include h

theorem numRest_says (pos w cur le lle : Nat) (x y : Val) :
    Says (NumRep token) (.ok (numRest ⟨pos + w, cur, le, lle⟩))
      (exec W g (.seq Code.BleveNumeric_s13 (.seq Code.BleveNumeric_s14 Code.BleveNumeric_s15))
        [.bytes token, .num .int pos, .num .int w, .num .uint32 cur, .num .uint32 le, .num .uint32 lle, x, y]) := by
  unfold numRest Code.BleveNumeric_s13 Code.BleveNumeric_s14 Code.BleveNumeric_s15
  go_run [h.is, Int.toNat_natCast, ← Int.natCast_add]
  rw [apply_ite (f := Except.ok (ε := Fault)), apply_ite (f := Except.ok (ε := Fault))]
  refine says_ite rfl (fun _ => ⟨_, ⟨_, _, _, rfl⟩, rfl⟩) (fun _ => ?_)
  exact says_ite rfl (fun _ => ⟨_, ⟨_, _, _, rfl⟩, rfl⟩) (fun _ => ⟨_, rfl⟩)

include hs
set_option maxRecDepth 10000 in
theorem numStep_says (s : NumState) (env : Env) (hr : NumRep token s env) : Says (NumRep token) (numStep token s) (exec W g numBody env) := by
  obtain ⟨w, x, y, rfl⟩ := hr
  unfold numStep numBody Code.BleveNumeric_s6 Code.BleveNumeric_s7
  go_run [h.is, Int.toNat_natCast, next_ite, cons_ite, ite_self, natCast_ite]
  unfold Code.BleveNumeric_s8
  go_run [h.at]
  cases trie.lookupAt token s.pos with
  | error f => go_run [lookupRes]; exact ⟨_, rfl⟩
  | ok r =>
    obtain ⟨current, w⟩ := r
    unfold Code.BleveNumeric_s9
    go_run [lookupRes, h.is, decide_natCast_zero, decide_eq_true_eq, Int.toNat_natCast, ← Int.natCast_add]
    refine says_ite rfl (fun _ => ?_) (fun _ => ?_)
    · rw [apply_ite (f := Except.ok (ε := Fault))]
      exact says_ite rfl (fun _ => ⟨_, ⟨_, _, _, rfl⟩, rfl⟩) (fun _ => ⟨_, rfl⟩)
    unfold Code.BleveNumeric_s10
    go_run [h.is, Int.toNat_natCast, ← Int.natCast_add]
    refine says_ite rfl (fun _ => ⟨_, ⟨_, _, _, rfl⟩, rfl⟩) (fun _ => ?_)
    unfold Code.BleveNumeric_s11
    go_run [h.is, Int.toNat_natCast, ← Int.natCast_add]
    refine says_ite rfl (fun _ => ⟨_, ⟨_, _, _, rfl⟩, rfl⟩) (fun _ => ?_)
    unfold Code.BleveNumeric_s12
    go_run [h.is, Int.toNat_natCast, ← Int.natCast_add, hs.at]
    refine says_ite rfl (fun _ => ?_) (fun _ => numRest_says h _ _ _ _ _ _ _)
    have e : subsequentFrom trie _Ignore (Int.toNat 32768) token (s.pos + w) true = subsequentFrom trie _Ignore _Numeric token (s.pos + w) true := rfl
    rw [e]
    generalize hr : subsequentFrom trie _Ignore _Numeric token (s.pos + w) true = r
    rcases r with f | ⟨a, m⟩
    · go_run [subRes]; exact ⟨_, rfl⟩
    · rcases subsequentFrom_cases hr with rfl | ⟨j, rfl⟩
      · go_run [subRes, notfound_ne]
        simp only [ne_eq, not_true_eq_false, if_false]
        exact numRest_says h _ _ _ _ _ _ _
      · go_run [subRes, natCast_ne_notfound, ← Int.natCast_add, ← Nat.add_assoc, Int.toNat_natCast]
        rw [if_pos (by unfold notfound; omega)]
        exact ⟨_, ⟨_, _, _, rfl⟩, rfl⟩

theorem num_loop : ∀ (fuel : Nat) (s : NumState) (env : Env), NumRep token s env →
    (((passes (loopPass W g 1 (.bin .lt (.var 1) (.len (.var 0))) .skip numBody) fuel env).ofLoop.andThen
      (exec W g Code.BleveNumeric_s17)).result [none]).2
      = match numLoop token fuel s with | .ok b => .ok (.bool b) | .error f => .error f := by
  intro fuel
  induction fuel with
  | zero => intro s env _; rfl
  | succ fuel ih =>
    intro s env hr
    have hb := numStep_says (g := g) h hs s env hr
    have e : eval W env (.bin .lt (.var 1) (.len (.var 0))) = .ok (.bool (decide (s.pos < token.length))) := by
      obtain ⟨w, x, y, rfl⟩ := hr
      go_run [decide_natCast_lt]
    simp only [passes, numLoop, loopPass, e, asBool_ok, decide_eq_true_eq]
    by_cases c : s.pos < token.length
    · rw [if_pos c, if_pos c]
      revert hb
      cases hn : numStep token s with
      | error f => rintro ⟨env, e⟩; rw [e]; rfl
      | ok r =>
        cases r with
        | none => rintro ⟨env, e⟩; rw [e]; rfl
        | some s' => rintro ⟨env, hr', e⟩; rw [e]; exact ih s' env hr'
    · rw [if_neg c, if_neg c]; rfl

theorem BleveNumeric_run : (Code.BleveNumeric.run W g (.bytes token)).2
    = match numLoop token g ⟨0, 0, 0, 0⟩ with | .ok b => .ok (.bool b) | .error f => .error f := by
  rw [run_eq (vs := [.bytes token]) rfl]
  show ((exec W g Code.BleveNumeric.body [.bytes token, .nil, .nil, .nil, .nil, .nil, .nil, .nil]).result [none]).2 = _
  rw [← num_loop (g := g) h hs g ⟨0, 0, 0, 0⟩ _ ⟨0, .nil, .nil, rfl⟩]
  unfold Code.BleveNumeric Code.BleveNumeric_s2 Code.BleveNumeric_s0 Code.BleveNumeric_s1 Code.BleveNumeric_s3 Code.BleveNumeric_s4
    Code.BleveNumeric_s5 Code.BleveNumeric_s16
  go_run [exec_loop]
  rfl
end

theorem ideo_loop {W : World} {g : Nat} {token : Bytes} (h : Calls W trie .uint32 4) : ∀ (fuel pos : Nat) (x y : Val),
    (((passes (loopPass W g 1 (.bin .lt (.var 1) (.len (.var 0))) .skip (.seq Code.BleveIdeographic_s1 (.seq Code.BleveIdeographic_s2
      (.seq Code.BleveIdeographic_s3 Code.BleveIdeographic_s4)))) fuel [.bytes token, .num .int pos, x, y]).ofLoop.andThen
      (exec W g Code.BleveIdeographic_s6)).result [none]).2
      = match ideoLoop token fuel pos with | .ok b => .ok (.bool b) | .error f => .error f := by
  intro fuel
  induction fuel with
  | zero => intro pos x y; rfl
  | succ fuel ih =>
    intro pos x y
    have e : eval W [.bytes token, .num .int pos, x, y] (.bin .lt (.var 1) (.len (.var 0))) = .ok (.bool (decide (pos < token.length))) := by
      go_run [decide_natCast_lt]
    simp only [passes, ideoLoop, loopPass, e, asBool_ok, decide_eq_true_eq]
    by_cases c : pos < token.length
    · rw [if_pos c, if_pos c]
      unfold Code.BleveIdeographic_s1
      go_run [h.at]
      cases trie.lookupAt token pos with
      | error f => rfl
      | ok r =>
        obtain ⟨current, w⟩ := r
        unfold Code.BleveIdeographic_s2 Code.BleveIdeographic_s3 Code.BleveIdeographic_s4
        go_run [lookupRes, h.is, decide_natCast_zero, decide_eq_true_eq, Int.toNat_natCast, ← Int.natCast_add]
        have ih := ih (pos + w) (.num .uint32 current) (.num .int w)
        by_cases c0 : pos = 0
        · rw [if_pos c0, if_pos c0, show Int.toNat 2 = _BleveIdeographic from rfl]
          by_cases c1 : is current _BleveIdeographic = true
          · rw [if_pos c1, if_pos c1]; exact ih
          · rw [if_neg c1, if_neg c1]; rfl
        · rw [if_neg c0, if_neg c0,
            show Int.toNat 2 ||| Int.toNat 32 ||| Int.toNat 524432 = _BleveIdeographic ||| _ExtendNumLet ||| _Ignore from rfl]
          by_cases c1 : is current (_BleveIdeographic ||| _ExtendNumLet ||| _Ignore) = true
          · rw [if_pos c1, if_pos c1]; exact ih
          · rw [if_neg c1, if_neg c1]; rfl
    · rw [if_neg c, if_neg c]; rfl

theorem BleveIdeographic_run {W : World} {g : Nat} {token : Bytes} (h : Calls W trie .uint32 4) :
    (Code.BleveIdeographic.run W g (.bytes token)).2
      = match ideoLoop token g 0 with | .ok b => .ok (.bool b) | .error f => .error f := by
  rw [run_eq (vs := [.bytes token]) rfl]
  show ((exec W g Code.BleveIdeographic.body [.bytes token, .nil, .nil, .nil]).result [none]).2 = _
  rw [← ideo_loop (g := g) h g 0 .nil .nil]
  unfold Code.BleveIdeographic Code.BleveIdeographic_s0 Code.BleveIdeographic_s5
  go_run [exec_loop]
  rfl

theorem numLoop_mono {token : Bytes} {b : Bool} : ∀ {fuel : Nat} {s : NumState}, numLoop token fuel s = .ok b → ∀ k, fuel ≤ k →
    numLoop token k s = .ok b := by
  intro fuel
  induction fuel with
  | zero => intro s h; cases h
  | succ fuel ih =>
    intro s h k hk
    obtain ⟨k, rfl⟩ : ∃ k', k = k' + 1 := ⟨k - 1, by omega⟩
    simp only [numLoop] at h ⊢
    split at h
    · rename_i c
      rw [if_pos c]
      revert h
      cases numStep token s with
      | error f => intro h; cases h
      | ok r =>
        cases r with
        | none => exact id
        | some s' => exact fun h => ih h k (by omega)
    · rename_i c; rw [if_neg c]; exact h

theorem ideoLoop_mono {token : Bytes} {b : Bool} : ∀ {fuel pos : Nat}, ideoLoop token fuel pos = .ok b → ∀ k, fuel ≤ k →
    ideoLoop token k pos = .ok b := by
  intro fuel
  induction fuel with
  | zero => intro s h; cases h
  | succ fuel ih =>
    intro pos h k hk
    obtain ⟨k, rfl⟩ : ∃ k', k = k' + 1 := ⟨k - 1, by omega⟩
    simp only [ideoLoop] at h ⊢
    split at h
    · rename_i c
      rw [if_pos c]
      revert h
      cases trie.lookupAt token pos with
      | error f => intro h; cases h
      | ok r =>
        obtain ⟨current, w⟩ := r
        simp only
        intro h
        repeat' split at h
        all_goals simp_all
    · rename_i c; rw [if_neg c]; exact h

end Uax29.Words
