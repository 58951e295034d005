import Verif.Table.GraphemesRuns
import Verif.Proofs.Runs
import Verif.Spec.GraphemeClasses
/-! # The runs of the table of package graphemes, and the ranges of each property value -/
set_option maxRecDepth 20000
namespace Uax29
open Spec

theorem Graphemes.runs_all : Graphemes.trie.takeAll Graphemes.runs = some [] := by decide +kernel

theorem Graphemes.ranges (g : GB) :
    sameRanges (fun v => is v (gbBit g)) Graphemes.runs (Ucd.gcb g) (Ucd.gcbChanged g) = true := by
  cases g <;> decide +kernel

end Uax29
