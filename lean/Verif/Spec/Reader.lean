import Verif.Model.Scanner
/-! # Specification of what a reader delivers -/
namespace Uax29.Spec
open Scanner

/-- The bytes a reader delivers before its first error, and that error; `io.EOF` at the end of the
script. More than a hundred reads in a row without bytes or error count as the error
`io.ErrNoProgress`; `k` is the number of such reads just before. -/
def deliver (k : Nat) : Reader → Bytes × Err
  | [] => ([], .eof)
  | (bs, some e) :: _ => (bs, e)
  | (bs, none) :: rest =>
    if bs = [] then
      if k = 100 then ([], .noProgress) else deliver (k + 1) rest
    else (bs ++ (deliver 0 rest).1, (deliver 0 rest).2)

/-- What `Err` shows of an error: `io.EOF` is not an error. -/
def shownErr : Err → Option Err
  | .eof => none
  | e => some e

/-- A reader that reports an error only when it has no more bytes, as those of `strings`, `bytes` and `os`
do. (An `io.Reader` may also report it together with the last bytes.) -/
def Late (r : Reader) : Prop := ∀ p ∈ r, p.2 ≠ none → p.1 = []

/-- `N` bytes are there, and the split function asks for more. -/
def Undecided (split : SplitFn) (N : Nat) (rem : Bytes) : Prop :=
  N ≤ rem.length ∧ split (rem.take N) false = .ok ⟨0, none, none⟩

/-- What a scanner gives of the tokens `ts`: all of them and then the error `e`, unless it stops with
`ErrTooLong` before a token. It may stop if `stop` holds for all that is still to come, and it may go on if
`mustStop` does not. -/
inductive Scanned (stop mustStop : Bytes → Prop) (e : Option Err) : List Bytes → List Bytes → Option Err → Prop
  | full : ¬ stop [] → Scanned stop mustStop e [] [] e
  | tooLong {ts} : stop ts.flatten → Scanned stop mustStop e ts [] (some .tooLong)
  | next {t ts out r} : ¬ mustStop (t :: ts).flatten → Scanned stop mustStop e ts out r →
      Scanned stop mustStop e (t :: ts) (t :: out) r

end Uax29.Spec
