import Verif.Spec.GoRead
import Verif.Table.GraphemesText
import Verif.Table.GraphemesSource
import Verif.Table.WordsText
import Verif.Table.WordsSource
import Verif.Table.PhrasesText
import Verif.Table.PhrasesSource
import Verif.Table.SentencesText
import Verif.Table.SentencesSource
import Verif.Table.GenericSource
import Verif.Table.FilterSource
/-! Print what `Source.read` makes of the files, as Lean. Run by tools/gen_code.py; `read_eq` in the files it writes is checked by
the kernel, so nothing is taken from here on trust. -/
open Uax29 Source

def ty : IntTy → String
  | .int => ".int" | .int32 => ".int32" | .uint8 => ".uint8" | .uint16 => ".uint16" | .uint32 => ".uint32" | .untyped => ".untyped"

def emitVal : Val → String
  | .num t n => s!"(.num {ty t} {if n < 0 then s!"({n})" else s!"{n}"})"
  | .bool b => s!"(.bool {b})"
  | .bytes [] => "(.bytes [])"
  | .bytes _ => "BYTES"
  | .runes _ => "RUNES"
  | .str s => s!"(.str (chars {(String.ofList s).quote}))"
  | .fn k => s!"(.fn {k})"
  | .bound k v => s!"(.bound {k} {emitVal v})"
  | .nil => ".nil"
  | .pair a b => s!"(.pair {emitVal a} {emitVal b})"

def op : Op → String
  | .add => ".add" | .sub => ".sub" | .rem => ".rem" | .shl => ".shl" | .and => ".and" | .or => ".or" | .eq => ".eq" | .ne => ".ne"
  | .lt => ".lt" | .le => ".le" | .gt => ".gt" | .ge => ".ge"

def emitExpr : Expr → String
  | .lit v => s!"(.lit {emitVal v})"
  | .var k => s!"(.var {k})"
  | .bin o a b => s!"(.bin {op o} {emitExpr a} {emitExpr b})"
  | .and a b => s!"(.and {emitExpr a} {emitExpr b})"
  | .or a b => s!"(.or {emitExpr a} {emitExpr b})"
  | .not a => s!"(.not {emitExpr a})"
  | .len a => s!"(.len {emitExpr a})"
  | .index a i => s!"(.index {emitExpr a} {emitExpr i})"
  | .table k i => s!"(.table {k} {emitExpr i})"
  | .drop a i => s!"(.drop {emitExpr a} {emitExpr i})"
  | .take a i => s!"(.take {emitExpr a} {emitExpr i})"
  | .slice a i j => s!"(.slice {emitExpr a} {emitExpr i} {emitExpr j})"
  | .conv t a => s!"(.conv {ty t} {emitExpr a})"
  | .field k a => s!"(.field {k} {emitExpr a})"
  | .pair a b => s!"(.pair {emitExpr a} {emitExpr b})"
  | .call f a => s!"(.call {f} {emitExpr a})"
  | .apply f a => s!"(.apply {emitExpr f} {emitExpr a})"
  | .method k a => s!"(.method {k} {emitExpr a})"
  | .decode a => s!"(.decode {emitExpr a})"
  | .text a => s!"(.text {emitExpr a})"

def opt {α : Type} (f : α → String) : Option α → String
  | some a => s!"some {f a}"
  | none => "none"

def targets (xs : List (Option Nat)) : String := "[" ++ ", ".intercalate (xs.map (opt toString)) ++ "]"

/-- The definitions printed so far, and the number of the next. -/
abbrev M := StateM (List String × Nat)

mutual
/-- The statements of a block, each with a name if there are several. -/
partial def emitBlock (pre : String) : Stmt → M String
  | .seq a b => do
    let n ← name pre a
    return s!"(.seq {n} {← emitBlock pre b})"
  | s => name pre s

partial def name (pre : String) (s : Stmt) : M String := do
  match s with
  | .skip => return ".skip"
  | .brk l => return s!"(.brk {l})"
  | .cont l => return s!"(.cont {l})"
  | _ =>
    let e ← emitStmt pre s
    let (ds, k) ← get
    let n := s!"{pre}{k}"
    set (s!"def {n} : Stmt :=\n  {e}" :: ds, k + 1)
    return n

partial def emitStmt (pre : String) : Stmt → M String
  | .skip => return ".skip"
  | .seq a b => emitBlock pre (.seq a b)
  | .define xs e => return s!"(.define {targets xs} {emitExpr e})"
  | .assign xs e => return s!"(.assign {targets xs} {emitExpr e})"
  | .ite c a b => return s!"(.ite {emitExpr c} {← small pre a} {← small pre b})"
  | .loop l c p b => return s!"(.loop {l} {emitExpr c} {← small pre p} {← emitBlock pre b})"
  | .brk l => return s!"(.brk {l})"
  | .cont l => return s!"(.cont {l})"
  | .ret e => return s!"(.ret {emitExpr e})"
  | .setField x k e => return s!"(.setField {x} {k} {emitExpr e})"
  | .invoke x k e => return s!"(.invoke {x} {k} {emitExpr e})"
  | .panic e => return s!"(.panic {emitExpr e})"
  | .byType a b c => return s!"(.byType {← small pre a} {← small pre b} {← small pre c})"

/-- A block inside of an `if`: without names, unless it has a loop. -/
partial def small (pre : String) : Stmt → M String
  | .seq a b => return s!"(.seq {← small pre a} {← small pre b})"
  | .loop l c p b => name pre (.loop l c p b)
  | s => emitStmt pre s
end

def ident (n : Name) : String := match n with
  | '.' :: n => "m" ++ String.ofList (n.map fun c => if c = '.' then '_' else c)
  | n => String.ofList n

def types (ts : List (Option IntTy)) : String := "[" ++ ", ".intercalate (ts.map (opt ty)) ++ "]"

def emitFunc (n : Name) (F : Func) : String :=
  let (b, ds, _) := (emitBlock (ident n ++ "_s") F.body).run ([], 0)
  "\n".intercalate ds.reverse ++ s!"\ndef {ident n} : Func :=\n  ⟨{F.pointer}, {types F.params}, {types F.results}, {F.slots},\n   {b}⟩\n"

def emit (files : List (List (List Char))) : IO Unit := do
  match read (files.map textOf) with
  | none => throw (IO.userError "not read")
  | some P =>
    for (n, F) in P.names.zip P.funcs do
      match F with
      | some F => IO.println (emitFunc n F)
      | none => pure ()
    let ns := ", ".intercalate (P.names.map fun n => s!"chars {(String.ofList n).quote}")
    let fs := ", ".intercalate ((P.names.zip P.funcs).map fun (n, F) => if F.isSome then s!"some {ident n}" else "none")
    let st := ", ".intercalate (P.structs.map fun (n, l) =>
      s!"(chars {(String.ofList n).quote}, [{", ".intercalate (l.map fun n => s!"chars {(String.ofList n).quote}")}])")
    let vs := ", ".intercalate (P.variables.map fun (n, k) => s!"(chars {(String.ofList n).quote}, {k})")
    IO.println s!"def program : Program :=\n  ⟨[{ns}],\n   [{fs}],\n   [{st}],\n   [{vs}]⟩"

def main (args : List String) : IO Unit :=
  match args with
  | ["graphemes"] => emit [Graphemes.Text.headChars ++ Graphemes.Text.midChars ++ Graphemes.Text.tailChars, Graphemes.Text.splitfunc,
      Graphemes.Text.iterator, Graphemes.Text.ansi, Graphemes.Text.ansi8,
      Graphemes.Text.reader]
  | ["words"] => emit [Words.Text.headChars ++ Words.Text.midChars ++ Words.Text.tailChars, Words.Text.joiners, Words.Text.splitfunc,
      Words.Text.seek, Words.Text.iterator, Words.Text.bleve_compat, Words.Text.reader]
  | ["phrases"] => emit [Phrases.Text.headChars ++ Phrases.Text.midChars ++ Phrases.Text.tailChars, Phrases.Text.splitfunc,
      Phrases.Text.seek, Phrases.Text.iterator, Phrases.Text.reader]
  | ["sentences"] => emit [Sentences.Text.headChars ++ Sentences.Text.midChars ++ Sentences.Text.tailChars, Sentences.Text.splitfunc,
      Sentences.Text.seek, Sentences.Text.iterator, Sentences.Text.reader]
  | ["internal/iterators"] => emit [Generic.Text.iterator]
  | ["internal/iterators/filter"] => emit [Filter.Text.filter]
  | _ => throw (IO.userError "which package?")
