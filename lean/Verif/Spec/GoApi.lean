import Verif.Spec.GoPackage
import Verif.Spec.GoRead
import Verif.Model.History
/-!
# A user of a package, on the code of the package

The calls of `Model/History.lean`, made on the functions that were read from the text of a package.
-/
namespace Uax29.Source

/-- What the caller sees of a call, as a value or a panic of Go. -/
def obsVal : Obs → Res Val
  | .unit => .ok .nil
  | .bool b => .ok (.bool b)
  | .nat n => .ok (.num .int n)
  | .bytes b => .ok (.bytes b)
  | .fault f => .error f

/-- A call on the iterator `it`: the iterator after it, and the result. Options are fields that the user sets. -/
def Program.call (P : Program) (O : Outside) (depth fuel : Nat) (it : Val) : {p : Pkg} → Uax29.Op p → Val × Res Val
  | _, .next => P.run O depth fuel (chars ".Next") it
  | _, .value => P.run O depth fuel (chars ".Value") it
  | _, .start => P.run O depth fuel (chars ".Start") it
  | _, .end => P.run O depth fuel (chars ".End") it
  | _, .first => P.run O depth fuel (chars ".First") it
  | _, .reset => P.run O depth fuel (chars ".Reset") it
  | _, .setText t => P.run O depth fuel (chars ".SetText") (.pair it (.bytes t))
  | .graphemes, .config o =>
    match P.setField (chars "Iterator") (chars "AnsiEscapeSequences") it (.bool o.ansi7) with
    | (it, .ok _) => P.setField (chars "Iterator") (chars "AnsiEscapeSequences8Bit") it (.bool o.ansi8)
    | r => r
  | .words, .config j => P.run O depth fuel (chars ".Joiners") (.pair it (joinersVal j))
  | .phrases, .config _ => (it, .ok .nil)
  | .sentences, .config _ => (it, .ok .nil)

/-- A sequence of calls on an iterator: what the user sees of each. After a panic the user goes on with the iterator as it is. -/
def Program.calls (P : Program) (O : Outside) (depth fuel : Nat) {p : Pkg} : Val → List (Uax29.Op p) → List (Res Val)
  | _, [] => []
  | it, op :: ops => (P.call O depth fuel it op).2 :: P.calls O depth fuel (P.call O depth fuel it op).1 ops

/-- `for it.Next() { use(it.Value()) }`, with at most `n` passes: the values. -/
def Program.values (P : Program) (O : Outside) (depth fuel : Nat) : Nat → Val → Res (List Bytes)
  | 0, _ => .error .diverge
  | n + 1, it =>
    match P.run O depth fuel (chars ".Next") it with
    | (it, .ok (.bool true)) =>
      match P.run O depth fuel (chars ".Value") it with
      | (it, .ok (.bytes v)) =>
        match P.values O depth fuel n it with
        | .ok vs => .ok (v :: vs)
        | .error f => .error f
      | (_, .ok _) => .error Fault.stuck
      | (_, .error f) => .error f
    | (_, .ok (.bool false)) => .ok []
    | (_, .ok _) => .error Fault.stuck
    | (_, .error f) => .error f

/-- The texts and joiners of a call fit `fuel`: twice the length of a text, and the number of the joiners, are below it. -/
def FitsOp (fuel : Nat) : {p : Pkg} → Uax29.Op p → Prop
  | _, .setText t => 2 * t.length + 2 ≤ fuel
  | .words, .config j => ∀ l, Option.bind j Words.Joiners.middle = some l ∨ Option.bind j Words.Joiners.leading = some l → l.length < fuel
  | _, _ => True

end Uax29.Source
