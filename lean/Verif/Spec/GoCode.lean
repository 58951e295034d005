import Verif.Model.Go
import Verif.Model.Utf8
/-!
# What a part of Go means

Expressions and statements with numbered variables, and how they are executed, after the Go specification. `Spec/GoRead.lean`
reads the text of a file into this form. Nothing here knows of the library.

Values carry the type of an integer while they run, so that sums and shifts drop what does not fit (`wrap`); an `int` is not bounded.
A `string` and a `[]byte` are both `Val.bytes`; the type argument of a generic function is known apart from the values (`Inst`). A
pointer to a struct is the struct: there is only one pointer to a struct at a time, the reader leaves out what would make a second one.
A value of the type parameter `T` that was declared and not assigned is `Val.nil`.
-/
namespace Uax29.Source

/-- The integer types in use; `untyped` is the type of a constant such as `0`. -/
inductive IntTy where
  | int | int32 | uint8 | uint16 | uint32 | untyped
  deriving DecidableEq, Repr

/-- Values. A `str` is a message: a constant text or an error. A `fn` is a function as a value, `bound k r` the method `k` as a value,
with the receiver `r`. `pair` makes tuples: the results of a function, its arguments, and structs, which end with `nil`. -/
inductive Val where
  | num (t : IntTy) (n : Int)
  | bool (b : Bool)
  | bytes (b : Bytes)
  | runes (l : List Int)
  | str (s : List Char)
  | fn (k : Nat)
  | bound (k : Nat) (r : Val)
  | nil
  | pair (a b : Val)
  deriving DecidableEq, Repr

/-- The program does something this part of Go has no meaning for. -/
def Fault.stuck : Fault := .panic "not in this part of Go"

/-- "Integer overflow": the low bits of the result. -/
def wrap : IntTy → Int → Int
  | .uint8, n => n % 2 ^ 8
  | .uint16, n => n % 2 ^ 16
  | .uint32, n => n % 2 ^ 32
  | _, n => n

/-- The common type of two operands: an untyped constant takes the type of the other. -/
def common : IntTy → IntTy → Option IntTy
  | .untyped, u => some u
  | t, .untyped => some t
  | t, u => if t = u then some t else none

/-- The binary operators. -/
inductive Op where
  | add | sub | rem | shl | and | or | eq | ne | lt | le | gt | ge
  deriving DecidableEq, Repr

/-- A binary operator on two integers. -/
def Op.ints (op : Op) (t u : IntTy) (a b : Int) : Res Val :=
  match op with
  | .shl => .ok (.num t (wrap t (a * 2 ^ b.toNat)))
  | _ =>
    match common t u with
    | none => .error Fault.stuck
    | some w =>
      match op with
      | .add => .ok (.num w (wrap w (a + b)))
      | .sub => .ok (.num w (wrap w (a - b)))
      | .rem => if b = 0 then .error (.panic "integer divide by zero") else .ok (.num w (wrap w (a.tmod b)))
      | .and => .ok (.num w ((a.toNat &&& b.toNat : Nat) : Int))
      | .or => .ok (.num w ((a.toNat ||| b.toNat : Nat) : Int))
      | .eq => .ok (.bool (decide (a = b)))
      | .ne => .ok (.bool (decide (a ≠ b)))
      | .lt => .ok (.bool (decide (a < b)))
      | .le => .ok (.bool (decide (a ≤ b)))
      | .gt => .ok (.bool (decide (b < a)))
      | .ge => .ok (.bool (decide (b ≤ a)))
      | .shl => .error Fault.stuck

/-- A binary operator. Beside integers, only the comparison with `nil`. -/
def Op.apply (op : Op) : Val → Val → Res Val
  | .num t a, .num u b => op.ints t u a b
  | x, .nil =>
    match op with
    | .eq => .ok (.bool (decide (x = .nil)))
    | .ne => .ok (.bool (decide (x ≠ .nil)))
    | _ => .error Fault.stuck
  | _, _ => .error Fault.stuck

/-- Expressions. Variables are numbered within their function, functions and tables within the program. `method f a` is `a.m` as a
value, with `m` the function number `f`. `text a` is `string(a)`, of a string or a slice of bytes. -/
inductive Expr where
  | lit (v : Val)
  | var (k : Nat)
  | bin (op : Op) (a b : Expr)
  | and (a b : Expr)
  | or (a b : Expr)
  | not (a : Expr)
  | len (a : Expr)
  | index (a i : Expr)
  | table (k : Nat) (i : Expr)
  | drop (a i : Expr)
  | take (a j : Expr)
  | slice (a i j : Expr)
  | conv (t : IntTy) (a : Expr)
  | field (k : Nat) (a : Expr)
  | pair (a b : Expr)
  | call (f : Nat) (args : Expr)
  | apply (f args : Expr)
  | method (f : Nat) (a : Expr)
  | decode (a : Expr)
  | text (a : Expr)
  deriving DecidableEq, Repr

/-- Statements. A label is a number, 0 for none. `setField x k e` is `x.f = e`, with `f` the field number `k`. `invoke x f args` is
`x.m(args)` as a statement, with `m` the function number `f`; it may change `x`. `byType a b c` is a type switch on a value of type
`T`: with `a` if this is `string`, with `b` if it is `[]byte`, with `c` if it is another type. -/
inductive Stmt where
  | skip
  | seq (a b : Stmt)
  | define (xs : List (Option Nat)) (e : Expr)
  | assign (xs : List (Option Nat)) (e : Expr)
  | ite (c : Expr) (a b : Stmt)
  | loop (label : Nat) (c : Expr) (post body : Stmt)
  | brk (label : Nat)
  | cont (label : Nat)
  | ret (e : Expr)
  | setField (x k : Nat) (e : Expr)
  | invoke (x f : Nat) (args : Expr)
  | panic (e : Expr)
  | byType (a b c : Stmt)
  deriving DecidableEq, Repr

/-- The type argument of a generic function: `string`, `[]byte`, or a named type that has one of these under it. -/
inductive Inst where
  | string | bytes | named
  deriving DecidableEq, Repr

/-- A function: whether its first parameter is a pointer, the integer types of its parameters and results, where these are integers,
and its body. -/
structure Func where
  pointer : Bool
  params : List (Option IntTy)
  results : List (Option IntTy)
  slots : Nat
  body : Stmt
  deriving DecidableEq, Repr

/-- The values of the variables. -/
abbrev Env := List Val

/-- The value of variable `k`. -/
def Env.get : Env → Nat → Val
  | [], _ => .nil
  | v :: _, 0 => v
  | _ :: vs, k + 1 => Env.get vs k

/-- Variable `k` becomes `v`. -/
def Env.set : Env → Nat → Val → Env
  | [], _, _ => []
  | _ :: vs, 0, v => v :: vs
  | u :: vs, k + 1, v => u :: Env.set vs k v

/-- An untyped constant becomes a value of type `t`. -/
def Val.typed (t : IntTy) : Val → Val
  | .num .untyped n => .num t n
  | v => v

/-- An untyped constant that is put where `old` was takes its type. -/
def Val.like (old v : Val) : Val :=
  match old with
  | .num t _ => v.typed t
  | _ => v

/-- The length of a string or slice. -/
def Val.len : Val → Res Val
  | .bytes b => .ok (.num .int b.length)
  | .runes l => .ok (.num .int l.length)
  | .nil => .ok (.num .int 0)
  | _ => .error Fault.stuck

/-- `a[i]`. -/
def Val.index (a i : Val) : Res Val :=
  match a, i with
  | .bytes b, .num _ n =>
    if 0 ≤ n then
      match b[n.toNat]? with
      | some x => .ok (.num .uint8 x.toNat)
      | none => .error .bounds
    else .error .bounds
  | .runes l, .num _ n =>
    if 0 ≤ n then
      match l[n.toNat]? with
      | some x => .ok (.num .int32 x)
      | none => .error .bounds
    else .error .bounds
  | _, _ => .error Fault.stuck

/-- `a[i:]`. -/
def Val.drop (a i : Val) : Res Val :=
  match a, i with
  | .bytes b, .num _ n =>
    if 0 ≤ n then
      match sliceFrom b n.toNat with
      | .ok c => .ok (.bytes c)
      | .error f => .error f
    else .error .bounds
  | _, _ => .error Fault.stuck

/-- `a[:j]`. -/
def Val.take (a j : Val) : Res Val :=
  match a, j with
  | .bytes b, .num _ n =>
    if 0 ≤ n then
      match sliceTo b n.toNat with
      | .ok c => .ok (.bytes c)
      | .error f => .error f
    else .error .bounds
  | _, _ => .error Fault.stuck

/-- `a[i:j]`. -/
def Val.slice (a i j : Val) : Res Val :=
  match a, i, j with
  | .bytes b, .num _ m, .num _ n =>
    if 0 ≤ m ∧ 0 ≤ n then
      match sliceFromTo b m.toNat n.toNat with
      | .ok c => .ok (.bytes c)
      | .error f => .error f
    else .error .bounds
  | _, _, _ => .error Fault.stuck

/-- Field number `k` of a struct. -/
def Val.field : Nat → Val → Res Val
  | 0, .pair a _ => .ok a
  | k + 1, .pair _ b => Val.field k b
  | _, .nil => .error (.panic "invalid memory address or nil pointer dereference")
  | _, _ => .error Fault.stuck

/-- Put `v` into field number `k` of a struct. -/
def Val.setField : Nat → Val → Val → Res Val
  | 0, .pair a b, v => .ok (.pair (a.like v) b)
  | k + 1, .pair a b, v =>
    match Val.setField k b v with
    | .ok b => .ok (.pair a b)
    | .error f => .error f
  | _, .nil, _ => .error (.panic "invalid memory address or nil pointer dereference")
  | _, _, _ => .error Fault.stuck

/-- What the statements of a function can use: its calls, the tables of the program, and the type argument. A call gives its result and
the first argument as it is then; this is the receiver of a method, which may be a pointer. -/
structure World where
  call : Nat → Val → Val × Res Val
  table : Nat → Int → Res Val
  inst : Inst

/-- The value of an expression. -/
def eval (W : World) (env : Env) : Expr → Res Val
  | .lit v => .ok v
  | .var k => .ok (env.get k)
  | .bin op a b =>
    match eval W env a with
    | .error f => .error f
    | .ok x =>
      match eval W env b with
      | .error f => .error f
      | .ok y => op.apply x y
  | .and a b =>
    match eval W env a with
    | .ok (.bool true) => eval W env b
    | .ok (.bool false) => .ok (.bool false)
    | .ok _ => .error Fault.stuck
    | .error f => .error f
  | .or a b =>
    match eval W env a with
    | .ok (.bool true) => .ok (.bool true)
    | .ok (.bool false) => eval W env b
    | .ok _ => .error Fault.stuck
    | .error f => .error f
  | .not a =>
    match eval W env a with
    | .ok (.bool b) => .ok (.bool (!b))
    | .ok _ => .error Fault.stuck
    | .error f => .error f
  | .len a =>
    match eval W env a with
    | .ok v => v.len
    | .error f => .error f
  | .index a i =>
    match eval W env a with
    | .error f => .error f
    | .ok x =>
      match eval W env i with
      | .error f => .error f
      | .ok y => x.index y
  | .table k i =>
    match eval W env i with
    | .ok (.num _ n) => W.table k n
    | .ok _ => .error Fault.stuck
    | .error f => .error f
  | .drop a i =>
    match eval W env a with
    | .error f => .error f
    | .ok x =>
      match eval W env i with
      | .error f => .error f
      | .ok y => x.drop y
  | .take a j =>
    match eval W env a with
    | .error f => .error f
    | .ok x =>
      match eval W env j with
      | .error f => .error f
      | .ok y => x.take y
  | .slice a i j =>
    match eval W env a with
    | .error f => .error f
    | .ok x =>
      match eval W env i with
      | .error f => .error f
      | .ok y =>
        match eval W env j with
        | .error f => .error f
        | .ok z => x.slice y z
  | .conv t a =>
    match eval W env a with
    | .ok (.num _ n) => .ok (.num t (wrap t n))
    | .ok _ => .error Fault.stuck
    | .error f => .error f
  | .field k a =>
    match eval W env a with
    | .ok v => v.field k
    | .error f => .error f
  | .pair a b =>
    match eval W env a with
    | .error f => .error f
    | .ok x =>
      match eval W env b with
      | .error f => .error f
      | .ok y => .ok (.pair x y)
  | .call f args =>
    match eval W env args with
    | .ok v => (W.call f v).2
    | .error f => .error f
  | .apply g args =>
    match eval W env g with
    | .error f => .error f
    | .ok (.fn k) =>
      match eval W env args with
      | .ok v => (W.call k v).2
      | .error f => .error f
    | .ok (.bound k r) =>
      match eval W env args with
      | .ok v => (W.call k (.pair r v)).2
      | .error f => .error f
    | .ok _ => .error Fault.stuck
  | .method k a =>
    match eval W env a with
    | .ok r => .ok (.bound k r)
    | .error f => .error f
  | .decode a =>
    match eval W env a with
    | .ok (.bytes b) => .ok (.pair (.num .int32 (Utf8.decodeRune b).1) (.num .int (Utf8.decodeRune b).2))
    | .ok _ => .error Fault.stuck
    | .error f => .error f
  | .text a =>
    match eval W env a with
    | .ok (.bytes b) => .ok (.bytes b)
    | .ok _ => .error Fault.stuck
    | .error f => .error f

/-- How a statement ends: with the next one, with a `break` or `continue`, with a `return`, or with a fault. -/
inductive Out where
  | next (env : Env)
  | brk (label : Nat) (env : Env)
  | cont (label : Nat) (env : Env)
  | ret (v : Val) (env : Env)
  | fault (f : Fault) (env : Env)
  deriving DecidableEq, Repr

/-- The statement after one that ended so. -/
def Out.andThen (o : Out) (k : Env → Out) : Out :=
  match o with
  | .next env => k env
  | o => o

/-- One value to one variable; `none` is `_`. -/
def put (how : Val → Val → Val) (x : Option Nat) (v : Val) (env : Env) : Env :=
  match x with
  | none => env
  | some k => env.set k (how (env.get k) v)

/-- The parts of a tuple to the variables. -/
def puts (how : Val → Val → Val) : List (Option Nat) → Val → Env → Out
  | [], _, env => .fault Fault.stuck env
  | [x], v, env => .next (put how x v env)
  | x :: xs, .pair a b, env => puts how xs b (put how x a env)
  | _, _, env => .fault Fault.stuck env

/-- Passes through a loop: `pass` says how one ends, `next` being the wish for another. -/
def passes (pass : Env → Out) : Nat → Env → Out
  | 0, env => .fault .diverge env
  | fuel + 1, env => (pass env).andThen (passes pass fuel)

/-- How one pass with body `o` ends in the loop named `label`; leaving the loop is `brk`. -/
def Out.ofBody (label : Nat) (post : Env → Out) : Out → Out
  | .next env => post env
  | .cont l env => if l = 0 ∨ l = label then post env else .cont l env
  | .brk l env => if l = 0 ∨ l = label then .brk 0 env else .brk l env
  | o => o

/-- How a loop ends, after its passes: `break` leaves it. A label that is not 0 is that of a loop around it. -/
def Out.ofLoop : Out → Out
  | .brk 0 env => .next env
  | o => o

/-- The execution of a statement; `fuel` bounds the passes of each loop. -/
def exec (W : World) (fuel : Nat) : Stmt → Env → Out
  | .skip, env => .next env
  | .seq a b, env => (exec W fuel a env).andThen (exec W fuel b)
  | .define xs e, env =>
    match eval W env e with
    | .ok v => puts (fun _ v => v.typed .int) xs v env
    | .error f => .fault f env
  | .assign xs e, env =>
    match eval W env e with
    | .ok v => puts Val.like xs v env
    | .error f => .fault f env
  | .ite c a b, env =>
    match eval W env c with
    | .ok (.bool true) => exec W fuel a env
    | .ok (.bool false) => exec W fuel b env
    | .ok _ => .fault Fault.stuck env
    | .error f => .fault f env
  | .loop label c post body, env =>
    (passes (fun env =>
      match eval W env c with
      | .ok (.bool true) => (exec W fuel body env).ofBody label (exec W fuel post)
      | .ok (.bool false) => .brk 0 env
      | .ok _ => .fault Fault.stuck env
      | .error f => .fault f env) fuel env).ofLoop
  | .brk l, env => .brk l env
  | .cont l, env => .cont l env
  | .ret e, env =>
    match eval W env e with
    | .ok v => .ret v env
    | .error f => .fault f env
  | .setField x k e, env =>
    match eval W env e with
    | .ok v =>
      match (env.get x).setField k v with
      | .ok s => .next (env.set x s)
      | .error f => .fault f env
    | .error f => .fault f env
  | .invoke x f args, env =>
    match eval W env args with
    | .ok v =>
      match W.call f (match v with | .nil => env.get x | v => .pair (env.get x) v) with
      | (r, .ok _) => .next (env.set x r)
      | (r, .error f) => .fault f (env.set x r)
    | .error f => .fault f env
  | .panic e, env =>
    match eval W env e with
    | .ok (.str s) => .fault (.panic (String.ofList s)) env
    | .ok _ => .fault Fault.stuck env
    | .error f => .fault f env
  | .byType a b c, env =>
    match W.inst with
    | .string => exec W fuel a env
    | .bytes => exec W fuel b env
    | .named => exec W fuel c env

/-- Arguments to the types of the parameters, and results to those of the results. -/
def Val.typedAs : List (Option IntTy) → Val → Option (List Val)
  | [], .nil => some []
  | [t], v => some [match t with | some t => v.typed t | none => v]
  | t :: ts, .pair a b =>
    match Val.typedAs ts b with
    | some vs => some ((match t with | some t => a.typed t | none => a) :: vs)
    | none => none
  | _, _ => none

/-- The tuple of some values. -/
def Val.tuple : List Val → Val
  | [] => .nil
  | [v] => v
  | v :: vs => .pair v (Val.tuple vs)

/-- What a call gives, from how the body ended. -/
def Out.result (results : List (Option IntTy)) : Out → Val × Res Val
  | .ret v env =>
    match v.typedAs results with
    | some vs => (env.get 0, .ok (.tuple vs))
    | none => (env.get 0, .error Fault.stuck)
  | .next env => (env.get 0, if results = [] then .ok .nil else .error Fault.stuck)
  | .fault f env => (env.get 0, .error f)
  | .brk _ env => (env.get 0, .error Fault.stuck)
  | .cont _ env => (env.get 0, .error Fault.stuck)

/-- A call of a function: its result, and what its first argument is then. The function has a copy of an argument that is not a
pointer. -/
def Func.run (F : Func) (W : World) (fuel : Nat) (args : Val) : Val × Res Val :=
  match args.typedAs F.params with
  | none => (args, .error Fault.stuck)
  | some vs =>
    match (exec W fuel F.body (vs ++ List.replicate (F.slots - vs.length) .nil)).result F.results with
    | (v, r) => (if F.pointer then v else vs.headD .nil, r)

/-- What a program has from outside: its tables, functions it is given as values, and the type argument of its generic functions. -/
structure Outside where
  table : Nat → Int → Res Val
  call : Nat → Val → Val × Res Val
  inst : Inst

/-- Calls of the functions of a program, `none` for one that is not read; the numbers after these are for the functions from outside.
`depth` bounds the nesting of calls, `fuel` the passes of each loop. -/
def callAt (funcs : List (Option Func)) (O : Outside) (fuel : Nat) : Nat → Nat → Val → Val × Res Val
  | 0, _, args => (args, .error .diverge)
  | depth + 1, k, args =>
    match funcs[k]? with
    | some (some F) => F.run ⟨callAt funcs O fuel depth, O.table, O.inst⟩ fuel args
    | some none => (args, .error Fault.stuck)
    | none => O.call (k - funcs.length) args

end Uax29.Source
