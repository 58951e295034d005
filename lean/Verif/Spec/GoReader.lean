import Verif.Spec.GoPackage
import Verif.Spec.GoRead
/-!
# A scanner that the code of a package makes

`bufio.Scanner` is the scanner of `Model/Scanner.lean`. The code of a package makes one and sets its split function.
-/
namespace Uax29.Source

/-- The struct `Scanner` of a package: a pointer to a `bufio.Scanner` with the reader `r` and the split function `f`. -/
def scannerVal (r f : Val) : Val := .pair (.pair r (.pair f .nil)) .nil

/-- What a split function returned. -/
def splitOut : Res Val → Res SplitRes
  | .ok (.pair (.num .int n) (.pair tok err)) =>
    match tok, err with
    | .nil, .nil => .ok ⟨n, none, none⟩
    | .nil, .str e => .ok ⟨n, none, some (String.ofList e)⟩
    | .bytes b, .nil => .ok ⟨n, some b, none⟩
    | .bytes b, .str e => .ok ⟨n, some b, some (String.ofList e)⟩
    | _, _ => .error Fault.stuck
  | .ok _ => .error Fault.stuck
  | .error f => .error f

/-- The split function that the value `f` is. Its loops have enough passes for the bytes it is called with, and `more`. -/
def Program.splitFn (P : Program) (O : Outside) (depth more : Nat) (f : Val) : SplitFn := fun data atEOF =>
  splitOut (P.apply O depth (2 * data.length + 2 + more) (.pair (.bytes data) (.bool atEOF)) f)

end Uax29.Source
