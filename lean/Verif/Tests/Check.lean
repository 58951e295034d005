import Verif.Model.History
import Verif.Model.Bleve
/-!
# Checks of the model against the tests of /repo

The tables of cases in `/repo/*/*_test.go` are transcribed by `tools/gen_tests.py`. That the model
passes them says nothing about other inputs; it is a check of the transcription from Go to Lean.
-/
namespace Uax29.Tests

/-- Bytes as numbers. -/
def bytes (l : List Nat) : Bytes := l.map UInt8.ofNat

/-- The loop `for it.Next() { … it.Value() … }` gives these tokens for the text made of them. -/
def tokensAre (p : Pkg) (ts : List (List Nat)) : Bool :=
  defaultTokens p (bytes ts.flatten) == .ok (ts.map bytes)

/-- The same with options for escape sequences. -/
def ansiTokensAre (o : Graphemes.Options) (ts : List (List Nat)) : Bool :=
  tokens .graphemes o (bytes ts.flatten) == .ok (ts.map bytes)

/-- `First` gives the token. -/
def firstIs (p : Pkg) (t : List Nat × List Nat) : Bool :=
  (Iterator.fromBytes p (bytes t.1)).first == .ok (bytes t.2)

/-- `subsequent` gives the result. -/
def subsequentIs (T : Trie) (ignore : Nat) (t : Nat × List Nat × Bool × Int × Bool) : Bool :=
  subsequent T ignore t.1 (bytes t.2.1) t.2.2.1 == .ok t.2.2.2

/-- The joiners of words/joiners_test.go:10-13. -/
def joiners : Words.Joiners := ⟨some ['@'.toNat, '-'.toNat, '/'.toNat], some ['#'.toNat, '.'.toNat]⟩

/-- The word is or is not among the tokens without and with joiners. -/
def joinersFind (input : List Nat) (t : List Nat × Bool × Bool) : Bool :=
  (match defaultTokens .words (bytes input) with
    | .ok ts => ts.contains (bytes t.1) == t.2.1
    | .error _ => false) &&
  (match tokens .words (some joiners) (bytes input) with
    | .ok ts => ts.contains (bytes t.1) == t.2.2
    | .error _ => false)

/-- `BleveNumeric` and `BleveIdeographic` give these results. -/
def bleveKind (t : List Nat × Bool × Bool) : Bool :=
  Words.bleveNumeric (bytes t.1) == .ok t.2.1 && Words.bleveIdeographic (bytes t.1) == .ok t.2.2

end Uax29.Tests
