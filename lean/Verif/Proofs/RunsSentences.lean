import Verif.Table.SentencesRuns
import Verif.Proofs.Runs
import Verif.Spec.SentenceClasses
/-! # The runs of the table of package sentences, and the ranges of each property value -/
set_option maxRecDepth 20000
namespace Uax29
open Spec

theorem Sentences.runs_all : Sentences.trie.takeAll Sentences.runs = some [] := by decide +kernel

theorem Sentences.ranges (g : SB) (hg : g ≠ .Other) :
    sameRanges (fun v => is v (sbBit g)) Sentences.runs (Ucd.sb g) (Ucd.sbChanged g) = true := by
  cases g <;> first | exact absurd rfl hg | decide +kernel

end Uax29
