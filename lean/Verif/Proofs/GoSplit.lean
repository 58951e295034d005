import Verif.Proofs.GoLoops
/-! # The main loop of a split function, in code and in the model -/
namespace Uax29.Source

/-- `return 0, empty, nil`. -/
def moreVal : Val := .pair (.num .untyped 0) (.pair .nil .nil)

/-- One pass of the model and the body of the loop end in the same way. -/
def Agrees {σ : Type} (Rep : σ → Env → Prop) (Fin : Nat → Env → Prop) : Step σ → Out → Prop
  | .cont s, o => ∃ env, Rep s env ∧ (o = .next env ∨ o = .cont 0 env)
  | .brk p, o => ∃ env, Fin p env ∧ (o = .brk 0 env ∨ o = .brk 1 env)
  | .more, o => ∃ env, o = .ret moreVal env
  | .fault f, o => ∃ env, o = .fault f env

theorem agrees_ite {σ : Type} {Rep : σ → Env → Prop} {Fin : Nat → Env → Prop} {c d : Prop} [Decidable c] [Decidable d] {s s' : Step σ} {o o' : Out}
    (h : c = d) (h1 : c → Agrees Rep Fin s o) (h2 : ¬ c → Agrees Rep Fin s' o') :
    Agrees Rep Fin (if c then s else s') (if d then o else o') := by
  subst h
  by_cases hc : c
  · rw [if_pos hc, if_pos hc]; exact h1 hc
  · rw [if_neg hc, if_neg hc]; exact h2 hc

/-- The same of the whole loop. -/
def LoopAgrees (Fin : Nat → Env → Prop) : LoopOut → Out → Prop
  | .brk p, o => ∃ env, Fin p env ∧ o = .next env
  | .more, o => ∃ env, o = .ret moreVal env
  | .fault f, o => ∃ env, o = .fault f env

theorem loop_agrees {σ : Type} {Rep : σ → Env → Prop} {Fin : Nat → Env → Prop} {step : σ → Step σ} {W : World} {g : Nat} {body : Stmt}
    (h : ∀ s env, Rep s env → Agrees Rep Fin (step s) (exec W g body env)) :
    ∀ fuel s env, Rep s env →
      LoopAgrees Fin (runLoop step fuel s) (passes (loopPass W g 1 (.lit (.bool true)) .skip body) fuel env).ofLoop := by
  intro fuel
  induction fuel with
  | zero => intro s env _; exact ⟨env, rfl⟩
  | succ fuel ih =>
    intro s env hr
    have := h s env hr
    have e : loopPass W g 1 (.lit (.bool true)) .skip body env = (exec W g body env).ofBody 1 (exec W g .skip) := rfl
    simp only [runLoop, passes, e]
    cases hs : step s with
    | cont s' =>
      rw [hs] at this
      obtain ⟨env', hr', he⟩ := this
      rcases he with he | he <;> rw [he] <;> exact ih s' env' hr'
    | brk p =>
      rw [hs] at this
      obtain ⟨env', hf, he⟩ := this
      rcases he with he | he <;> rw [he] <;> exact ⟨env', hf, rfl⟩
    | more =>
      rw [hs] at this
      obtain ⟨env', he⟩ := this
      rw [he]; exact ⟨env', rfl⟩
    | fault f =>
      rw [hs] at this
      obtain ⟨env', he⟩ := this
      rw [he]; exact ⟨env', rfl⟩

/-- More passes do not change how a loop ends. -/
theorem runLoop_mono {σ : Type} {step : σ → Step σ} : ∀ {fuel : Nat} {s : σ}, runLoop step fuel s ≠ .fault .diverge → ∀ k, fuel ≤ k →
    runLoop step k s = runLoop step fuel s := by
  intro fuel
  induction fuel with
  | zero => intro s h; exact absurd rfl h
  | succ fuel ih =>
    intro s h k hk
    obtain ⟨k, rfl⟩ : ∃ k', k = k' + 1 := ⟨k - 1, by omega⟩
    simp only [runLoop] at h ⊢
    cases e : step s <;> simp only [e] at h ⊢
    exact ih h k (by omega)

theorem drop_nat (d : Bytes) (u : IntTy) (n : Nat) : Val.drop (.bytes d) (.num u n)
    = (match sliceFrom d n with | .ok c => .ok (.bytes c) | .error f => .error f) := by
  simp [Val.drop]; rfl

theorem take_nat (d : Bytes) (u : IntTy) (n : Nat) : Val.take (.bytes d) (.num u n)
    = (match sliceTo d n with | .ok c => .ok (.bytes c) | .error f => .error f) := by
  simp [Val.take]; rfl

theorem finish_agrees {W : World} {g : Nat} {Fin : Nat → Env → Prop} {i j : Nat} {data : Bytes} {l : LoopOut} {o : Out}
    (hf : ∀ p env, Fin p env → env.get i = .bytes data ∧ env.get j = .num .int p) (h : LoopAgrees Fin l o) :
    ((o.andThen (exec W g (.ret (.pair (.var j) (.pair (.take (.var i) (.var j)) (.lit .nil)))))).result [some .int, none, none]).2
      = splitRes (finish data l) := by
  cases l with
  | fault f => obtain ⟨env, rfl⟩ := h; rfl
  | more => obtain ⟨env, rfl⟩ := h; rfl
  | brk p =>
    obtain ⟨env, hp, rfl⟩ := h
    obtain ⟨h1, h2⟩ := hf p env hp
    go_run [h1, h2, take_nat]
    simp only [finish]
    cases sliceTo data p <;> rfl

theorem natCast_ite (p : Prop) [Decidable p] (t : IntTy) (a b : Nat) :
    (if p then Val.num t (a : Int) else Val.num t (b : Int)) = Val.num t ((if p then a else b : Nat) : Int) := by split <;> rfl
theorem next_ite (p : Prop) [Decidable p] (a b : Env) : (if p then Out.next a else Out.next b) = .next (if p then a else b) := by split <;> rfl
theorem cons_ite (p : Prop) [Decidable p] (x y : Val) (a b : Env) :
    (if p then x :: a else y :: b) = (if p then x else y) :: (if p then a else b) := by split <;> rfl

theorem two_eq_zero : ((2 : Int) = 0) = False := by simp
theorem decide_odd (n : Nat) : decide (((n : Int) + 1).tmod 2 = 1) = decide ((n + 1) % 2 = 1) := by
  congr 1
  rw [show ((n : Int) + 1).tmod 2 = (((n + 1) % 2 : Nat) : Int) by
    rw [Int.tmod_eq_emod_of_nonneg (by omega)]; simp]
  simp only [eq_iff_iff]; omega

theorem notfound_ne : decide (notfound ≠ (-1 : Int)) = false := rfl
theorem natCast_ne_notfound (j : Nat) : decide ((j : Int) ≠ -1) = true := by
  simp only [decide_eq_true_eq]; omega

end Uax29.Source
