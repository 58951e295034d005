import Verif.Props.Split
import Verif.Proofs.Scanner
/-! # Properties of the scanners: C16 -/
namespace Uax29
open Spec Scanner

/-- A scanner of package `p` (`FromReader`, and `Joiners` for words) with a buffer of `n` bytes and
maximum token size `max`. -/
def scanner (p : Pkg) (c : Config p) (r : Reader) (n max : Nat) : Scanner.State :=
  (new (splitOf p c) r).buffer n max

/-- **C16** The scan always ends. Either it yields the tokens of exactly the bytes the reader
delivered before its first error, and `Err` is that error (none for `io.EOF`); or `Err` is
`ErrTooLong`, the tokens yielded are the first ones of the delivered bytes, and the input is at
least as long as the maximum token size. -/
theorem C16_errors (p : Pkg) (c : Config p) (r : Reader) (n max : Nat) :
    ∃ ts err, Scanner.tokens (scanner p c r n max) = .ok (ts, err) ∧
      ((Splits (splitOf p c) (deliver 0 r).1 ts ∧ err = shownErr (deliver 0 r).2)
      ∨ (err = some .tooLong ∧ max ≤ (deliver 0 r).1.length
        ∧ ∃ ts', Splits (splitOf p c) (deliver 0 r).1 (ts ++ ts'))) := by
  obtain ⟨ts, err, h1, h2⟩ := Scanner.tokens_ok (splitOf p c) (splitOf_good p c) (splitOf_stable p c) r n max
  refine ⟨ts, err, h1, ?_⟩
  rcases h2 with ⟨h2, h3⟩ | ⟨h2, h3, ts', h4⟩
  · exact .inl ⟨(splits_iff (splitOf_good p c)).2 h2, h3⟩
  · exact .inr ⟨h2, h3, ts', (splits_iff (splitOf_good p c)).2 h4.symm⟩

-- the reader fails after "a b": both words and the space are there, and so is the error
example : Scanner.tokens (scanner .words none [([0x61], none), ([], none), ([0x20, 0x62], some (.other "x"))] 2 10)
    = .ok ([[0x61], [0x20], [0x62]], some (.other "x")) := by decide +kernel
-- "abc" does not fit in two bytes
example : Scanner.tokens (scanner .words none [([0x20, 0x61, 0x62, 0x63], none)] 0 2)
    = .ok ([[0x20]], some .tooLong) := by decide +kernel

end Uax29
