import Verif.Spec.GoCode
/-! # Executing known code: the equations of `eval` and `exec`, in a form for `simp` -/
namespace Uax29.Source

/-- What `eval` and `exec` do with the value of a condition. -/
def asBool {α : Type} (bad : Fault → α) (k : Bool → α) : Res Val → α
  | .ok (.bool b) => k b
  | .ok _ => bad Fault.stuck
  | .error f => bad f

@[simp] theorem asBool_ok {α : Type} (bad : Fault → α) (k : Bool → α) (b : Bool) : asBool bad k (.ok (.bool b)) = k b := (rfl)

/-- What `eval` and `exec` do with a value. -/
def bind {α : Type} (bad : Fault → α) (k : Val → α) : Res Val → α
  | .ok v => k v
  | .error f => bad f

@[simp] theorem bind_ok {α : Type} (bad : Fault → α) (k : Val → α) (v : Val) : bind bad k (.ok v) = k v := (rfl)
@[simp] theorem bind_error {α : Type} (bad : Fault → α) (k : Val → α) (f : Fault) : bind bad k (.error f) = bad f := (rfl)
@[simp] theorem asBool_error {α : Type} (bad : Fault → α) (k : Bool → α) (f : Fault) : asBool bad k (.error f) = bad f := (rfl)

section
variable (W : World) (env : Env) (fuel : Nat)

theorem eval_lit (v : Val) : eval W env (.lit v) = .ok v := (rfl)
theorem eval_var (k : Nat) : eval W env (.var k) = .ok (env.get k) := (rfl)
theorem eval_bin (op : Op) (a b : Expr) : eval W env (.bin op a b)
    = bind .error (fun x => bind .error (fun y => op.apply x y) (eval W env b)) (eval W env a) := by
  rw [eval]; cases eval W env a <;> simp [bind] <;> cases eval W env b <;> rfl
theorem eval_and (a b : Expr) : eval W env (.and a b)
    = asBool .error (fun p => if p then eval W env b else .ok (.bool false)) (eval W env a) := by
  rw [eval]; rcases eval W env a with f | v
  · rfl
  · cases v <;> try rfl
    rename_i b; cases b <;> rfl
theorem eval_or (a b : Expr) : eval W env (.or a b)
    = asBool .error (fun p => if p then .ok (.bool true) else eval W env b) (eval W env a) := by
  rw [eval]; rcases eval W env a with f | v
  · rfl
  · cases v <;> try rfl
    rename_i b; cases b <;> rfl
theorem eval_not (a : Expr) : eval W env (.not a) = asBool .error (fun p => .ok (.bool (!p))) (eval W env a) := by
  rw [eval]; rcases eval W env a with f | v
  · rfl
  · cases v <;> rfl
theorem eval_len (a : Expr) : eval W env (.len a) = bind .error Val.len (eval W env a) := by
  rw [eval]; cases eval W env a <;> rfl
theorem eval_index (a i : Expr) : eval W env (.index a i)
    = bind .error (fun x => bind .error (fun y => x.index y) (eval W env i)) (eval W env a) := by
  rw [eval]; cases eval W env a <;> simp [bind] <;> cases eval W env i <;> rfl
theorem eval_drop (a i : Expr) : eval W env (.drop a i)
    = bind .error (fun x => bind .error (fun y => x.drop y) (eval W env i)) (eval W env a) := by
  rw [eval]; cases eval W env a <;> simp [bind] <;> cases eval W env i <;> rfl
theorem eval_take (a i : Expr) : eval W env (.take a i)
    = bind .error (fun x => bind .error (fun y => x.take y) (eval W env i)) (eval W env a) := by
  rw [eval]; cases eval W env a <;> simp [bind] <;> cases eval W env i <;> rfl
theorem eval_slice (a i j : Expr) : eval W env (.slice a i j)
    = bind .error (fun x => bind .error (fun y => bind .error (fun z => x.slice y z) (eval W env j)) (eval W env i))
      (eval W env a) := by
  rw [eval]; cases eval W env a <;> simp [bind] <;> cases eval W env i <;> simp <;> cases eval W env j <;> rfl
/-- The entry of a table. -/
def tableOf (W : World) (k : Nat) : Val → Res Val
  | .num _ n => W.table k n
  | _ => .error Fault.stuck
theorem eval_table (k : Nat) (i : Expr) : eval W env (.table k i) = bind .error (tableOf W k) (eval W env i) := by
  rw [eval]; rcases eval W env i with f | v
  · rfl
  · cases v <;> rfl
/-- A conversion. -/
def convOf (t : IntTy) : Val → Res Val
  | .num _ n => .ok (.num t (wrap t n))
  | _ => .error Fault.stuck
theorem eval_conv (t : IntTy) (a : Expr) : eval W env (.conv t a) = bind .error (convOf t) (eval W env a) := by
  rw [eval]; rcases eval W env a with f | v
  · rfl
  · cases v <;> rfl
theorem eval_field (k : Nat) (a : Expr) : eval W env (.field k a) = bind .error (Val.field k) (eval W env a) := by
  rw [eval]; cases eval W env a <;> rfl
theorem eval_pair (a b : Expr) : eval W env (.pair a b)
    = bind .error (fun x => bind .error (fun y => .ok (.pair x y)) (eval W env b)) (eval W env a) := by
  rw [eval]; cases eval W env a <;> simp [bind] <;> cases eval W env b <;> rfl
theorem eval_call (f : Nat) (a : Expr) : eval W env (.call f a) = bind .error (fun v => (W.call f v).2) (eval W env a) := by
  rw [eval]; cases eval W env a <;> rfl
/-- The call of a function that is a value. -/
def fnOf (W : World) (args : Res Val) : Val → Res Val
  | .fn k => bind .error (fun v => (W.call k v).2) args
  | .bound k r => bind .error (fun v => (W.call k (.pair r v)).2) args
  | _ => .error Fault.stuck
theorem eval_apply (g a : Expr) : eval W env (.apply g a) = bind .error (fnOf W (eval W env a)) (eval W env g) := by
  rw [eval]; rcases eval W env g with f | v
  · rfl
  · cases v <;> try rfl
theorem eval_method (k : Nat) (a : Expr) : eval W env (.method k a) = bind .error (fun r => .ok (.bound k r)) (eval W env a) := by
  rw [eval]; cases eval W env a <;> rfl
/-- `decodeRune`. -/
def decodeOf : Val → Res Val
  | .bytes b => .ok (.pair (.num .int32 (Utf8.decodeRune b).1) (.num .int (Utf8.decodeRune b).2))
  | _ => .error Fault.stuck
theorem eval_decode (a : Expr) : eval W env (.decode a) = bind .error decodeOf (eval W env a) := by
  rw [eval]; rcases eval W env a with f | v
  · rfl
  · cases v <;> rfl
/-- `string(a)`. -/
def textVal : Val → Res Val
  | .bytes b => .ok (.bytes b)
  | _ => .error Fault.stuck
theorem eval_text (a : Expr) : eval W env (.text a) = bind .error textVal (eval W env a) := by
  rw [eval]; rcases eval W env a with f | v
  · rfl
  · cases v <;> rfl

theorem exec_skip : exec W fuel .skip env = .next env := (rfl)
theorem exec_seq (a b : Stmt) : exec W fuel (.seq a b) env = (exec W fuel a env).andThen (exec W fuel b) := (rfl)
theorem exec_define (xs : List (Option Nat)) (e : Expr) : exec W fuel (.define xs e) env
    = bind (.fault · env) (puts (fun _ v => v.typed .int) xs · env) (eval W env e) := by
  rw [exec]; cases eval W env e <;> rfl
theorem exec_assign (xs : List (Option Nat)) (e : Expr) : exec W fuel (.assign xs e) env
    = bind (.fault · env) (puts Val.like xs · env) (eval W env e) := by
  rw [exec]; cases eval W env e <;> rfl
theorem exec_ite (c : Expr) (a b : Stmt) : exec W fuel (.ite c a b) env
    = asBool (.fault · env) (fun p => if p then exec W fuel a env else exec W fuel b env) (eval W env c) := by
  rw [exec]; rcases eval W env c with f | v
  · rfl
  · cases v <;> try rfl
    rename_i b; cases b <;> rfl
/-- One pass through a loop. -/
def loopPass (l : Nat) (c : Expr) (post body : Stmt) (env : Env) : Out :=
  asBool (.fault · env) (fun p => if p then (exec W fuel body env).ofBody l (exec W fuel post) else .brk 0 env) (eval W env c)
theorem exec_loop (l : Nat) (c : Expr) (post body : Stmt) : exec W fuel (.loop l c post body) env
    = (passes (loopPass W fuel l c post body) fuel env).ofLoop := by
  rw [exec]
  congr 2
  funext env
  rw [loopPass]
  rcases eval W env c with f | v
  · rfl
  · cases v <;> try rfl
    rename_i b; cases b <;> rfl
theorem exec_brk (l : Nat) : exec W fuel (.brk l) env = .brk l env := (rfl)
theorem exec_cont (l : Nat) : exec W fuel (.cont l) env = .cont l env := (rfl)
theorem exec_ret (e : Expr) : exec W fuel (.ret e) env = bind (.fault · env) (.ret · env) (eval W env e) := by
  rw [exec]; cases eval W env e <;> rfl
theorem exec_setField (x k : Nat) (e : Expr) : exec W fuel (.setField x k e) env
    = bind (.fault · env) (fun v => bind (.fault · env) (fun s => .next (env.set x s)) ((env.get x).setField k v))
      (eval W env e) := by
  rw [exec]; rcases eval W env e with f | v
  · rfl
  · simp only [bind]; cases (env.get x).setField k v <;> rfl
/-- A message, in a panic. -/
def panicOf (env : Env) : Val → Out
  | .str s => .fault (.panic (String.ofList s)) env
  | _ => .fault Fault.stuck env
theorem exec_panic (e : Expr) : exec W fuel (.panic e) env = bind (.fault · env) (panicOf env) (eval W env e) := by
  rw [exec]; rcases eval W env e with f | v
  · rfl
  · cases v <;> rfl
theorem exec_byType (a b c : Stmt) : exec W fuel (.byType a b c) env
    = match W.inst with
      | .string => exec W fuel a env
      | .bytes => exec W fuel b env
      | .named => exec W fuel c env := (rfl)
end

/-! ## Outcomes -/

@[simp] theorem andThen_next (env : Env) (k : Env → Out) : (Out.next env).andThen k = k env := (rfl)
@[simp] theorem andThen_brk (l : Nat) (env : Env) (k : Env → Out) : (Out.brk l env).andThen k = .brk l env := (rfl)
@[simp] theorem andThen_cont (l : Nat) (env : Env) (k : Env → Out) : (Out.cont l env).andThen k = .cont l env := (rfl)
@[simp] theorem andThen_ret (v : Val) (env : Env) (k : Env → Out) : (Out.ret v env).andThen k = .ret v env := (rfl)
@[simp] theorem andThen_fault (f : Fault) (env : Env) (k : Env → Out) : (Out.fault f env).andThen k = .fault f env := (rfl)
@[simp] theorem andThen_ite (p : Prop) [Decidable p] (a b : Out) (k : Env → Out) :
    (if p then a else b).andThen k = if p then a.andThen k else b.andThen k := by split <;> rfl

@[simp] theorem and_ite (p q : Bool) :
    (if p = true then Except.ok (Val.bool q) else .ok (.bool false) : Res Val) = .ok (.bool (p && q)) := by cases p <;> rfl
@[simp] theorem or_ite (p q : Bool) :
    (if p = true then Except.ok (Val.bool true) else .ok (.bool q) : Res Val) = .ok (.bool (p || q)) := by cases p <;> rfl

@[simp] theorem get_zero (v : Val) (vs : Env) : Env.get (v :: vs) 0 = v := (rfl)
@[simp] theorem get_succ (v : Val) (vs : Env) (k : Nat) : Env.get (v :: vs) (k + 1) = Env.get vs k := (rfl)
@[simp] theorem set_zero (u v : Val) (vs : Env) : Env.set (u :: vs) 0 v = v :: vs := (rfl)
@[simp] theorem set_succ (u v : Val) (vs : Env) (k : Nat) : Env.set (u :: vs) (k + 1) v = u :: Env.set vs k v := (rfl)

@[simp] theorem puts_one (how : Val → Val → Val) (x : Option Nat) (v : Val) (env : Env) :
    puts how [x] v env = .next (put how x v env) := by cases v <;> rfl
@[simp] theorem puts_cons (how : Val → Val → Val) (x y : Option Nat) (xs : List (Option Nat)) (a b : Val) (env : Env) :
    puts how (x :: y :: xs) (.pair a b) env = puts how (y :: xs) b (put how x a env) := (rfl)
@[simp] theorem put_none (how : Val → Val → Val) (v : Val) (env : Env) : put how none v env = env := (rfl)
@[simp] theorem put_some (how : Val → Val → Val) (k : Nat) (v : Val) (env : Env) :
    put how (some k) v env = env.set k (how (env.get k) v) := (rfl)

@[simp] theorem typed_num (t u : IntTy) (n : Int) : (Val.num u n).typed t = .num (if u = .untyped then t else u) n := by
  cases u <;> rfl
@[simp] theorem typed_bool (t : IntTy) (b : Bool) : (Val.bool b).typed t = .bool b := (rfl)
@[simp] theorem typed_bytes (t : IntTy) (b : Bytes) : (Val.bytes b).typed t = .bytes b := (rfl)
@[simp] theorem typed_nil (t : IntTy) : Val.nil.typed t = .nil := (rfl)
@[simp] theorem typed_pair (t : IntTy) (a b : Val) : (Val.pair a b).typed t = .pair a b := (rfl)
@[simp] theorem typed_str (t : IntTy) (s : List Char) : (Val.str s).typed t = .str s := (rfl)
@[simp] theorem typed_runes (t : IntTy) (s : List Int) : (Val.runes s).typed t = .runes s := (rfl)
@[simp] theorem like_num (t : IntTy) (n : Int) (v : Val) : Val.like (.num t n) v = v.typed t := (rfl)
@[simp] theorem like_bool (b : Bool) (v : Val) : Val.like (.bool b) v = v := (rfl)
@[simp] theorem like_bytes (b : Bytes) (v : Val) : Val.like (.bytes b) v = v := (rfl)
@[simp] theorem like_nil (v : Val) : Val.like .nil v = v := (rfl)

@[simp] theorem apply_nums (op : Op) (t u : IntTy) (a b : Int) : op.apply (.num t a) (.num u b) = op.ints t u a b := (rfl)

theorem run_eq {F : Func} {W : World} {fuel : Nat} {args : Val} {vs : List Val} (h : args.typedAs F.params = some vs) :
    F.run W fuel args
      = (if F.pointer then ((exec W fuel F.body (vs ++ List.replicate (F.slots - vs.length) .nil)).result F.results).1 else vs.headD .nil,
        ((exec W fuel F.body (vs ++ List.replicate (F.slots - vs.length) .nil)).result F.results).2) := by
  rw [Func.run, h]

@[simp] theorem result_fault (results : List (Option IntTy)) (f : Fault) (env : Env) :
    (Out.fault f env).result results = (env.get 0, .error f) := (rfl)
@[simp] theorem result_ite (results : List (Option IntTy)) (p : Prop) [Decidable p] (a b : Out) :
    (if p then a else b).result results = if p then a.result results else b.result results := by split <;> rfl

/-- One step after another through known code. -/
macro "go_run" "[" ts:Lean.Parser.Tactic.simpLemma,* "]" : tactic =>
  `(tactic| simp only [exec_seq, exec_define, exec_assign, exec_ite, exec_ret, exec_skip, exec_brk, exec_cont, exec_setField, exec_panic,
    eval_lit, eval_var, eval_bin, eval_and, eval_or, eval_not, eval_len, eval_index, eval_drop, eval_take, eval_slice, eval_table,
    eval_conv, eval_field, eval_pair, eval_call, eval_apply, eval_method, eval_decode, eval_text, bind_ok, bind_error, asBool_ok, asBool_error,
    andThen_next, andThen_brk, andThen_cont, andThen_ret, andThen_fault, andThen_ite, and_ite, or_ite,
    get_zero, get_succ, set_zero, set_succ, puts_one, puts_cons, put_none, put_some, apply_nums, like_num, like_bool, like_bytes,
    like_nil, typed_num, typed_bool, typed_bytes, typed_nil, typed_pair, typed_str, typed_runes, Op.ints, common, wrap, Val.len,
    tableOf, convOf, decodeOf, textVal, panicOf, reduceCtorEq, if_true, if_false, ite_true, ite_false, reduceIte, Bool.false_eq_true,
    Bool.not_true, Bool.not_false, $ts,*])

end Uax29.Source
