import Verif.Proofs.Crc64
import Verif.Table.WordsHashes
/-! # The checks of the table of package words -/
namespace Uax29.Words
open Gen Hashes
set_option maxRecDepth 10000

theorem checks_vhash : (trie.values.drop 3).map fastCrc = vh.drop 1 := by decide +kernel

theorem checks_ihash : ∀ i ∈ List.range' 2 (ih.length - 2),
    fastCrc ((List.range 64).map fun j => hashAt (nth vh) (nth ih) (nth lv i - 1) (ent trie i j)) = nth ih i := by
  decide +kernel

theorem checks_walk : walkKids (fun q => walk trie (nth lv) (rootLevel q)) (ent trie 1) 64 (0, 0)
    = some (trie.values.length - 3, trie.index.length - 4) := by decide +kernel

theorem checks_sum : fastCrc ((List.range 64).map (fun q => hashAt (nth vh) (nth ih) (rootLevel q) (ent trie 1 q))
    ++ (trie.block 0 ++ trie.block 1)) = 0x15f1c04c89caf743 := by decide +kernel

theorem checks_vnodup : vh.Nodup := by decide +kernel

theorem checks_inodup : ih.Nodup := by decide +kernel

theorem checks_values : ∀ b ∈ trie.values.drop 3, ∃ x ∈ b, x ≠ 0 := by decide +kernel

theorem checks_index : ∀ b ∈ trie.index.drop 3, ∃ x ∈ b, x ≠ 0 := by decide +kernel

/-- All checks; the checksum is the one in words/trie.go:94. -/
theorem checks : Checks trie vh ih lv 0x15f1c04c89caf743 where
  wf := wf
  v2 := by decide +kernel
  i0 := by decide +kernel
  i1 := by decide +kernel
  i2 := by decide +kernel
  nv := by decide +kernel
  ni := by decide +kernel
  vzero := by decide +kernel
  izero := by decide +kernel
  vnodup := checks_vnodup
  inodup := checks_inodup
  vhash := checks_vhash
  ihash := checks_ihash
  walk := checks_walk
  sum := checks_sum
  values := checks_values
  index := checks_index
  two := by decide +kernel
  three := by decide +kernel
  surr := by decide +kernel
  four := by decide +kernel
  high := by decide +kernel
  rest := by decide +kernel

end Uax29.Words
