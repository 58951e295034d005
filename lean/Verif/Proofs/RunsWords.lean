import Verif.Table.WordsRuns
import Verif.Proofs.Runs
import Verif.Spec.WordClasses
/-! # The runs of the table of package words, and the ranges of each property value -/
set_option maxRecDepth 20000
namespace Uax29
open Spec

theorem Words.runs_all : Words.trie.takeAll Words.runs = some [] := by decide +kernel

theorem Words.ranges (g : WB) :
    sameRanges (fun v => is v (wbBit g)) Words.runs (Ucd.wb g) (Ucd.wbChanged g) = true := by
  cases g <;> decide +kernel

/-- The ranges of `Ucd.ideographic` in order. -/
def ideographicRanges : List (Nat × Nat) :=
  mergeRanges 1000 (mergeRanges 1000 (Ucd.wb .Katakana) Ucd.han) Ucd.hiragana

theorem Words.ideographic_ranges :
    sameRanges (fun v => is v Words._BleveIdeographic) Words.runs ideographicRanges [] = true := by decide +kernel

end Uax29
