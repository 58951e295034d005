import Verif.Proofs.Pages
import Verif.Proofs.Tables
import Verif.Proofs.WordsConf
import Verif.Proofs.PhrasesConf
/-! # The tables of words and phrases give the same properties

The table of package words has one more property, `_BleveIdeographic`, and its blocks are numbered
differently. The lists below say which block of the table of phrases goes with which block of the
table of words; they are checked, not trusted. -/
namespace Uax29
open Spec

/-- A table entry of package words without `_BleveIdeographic`, in the numbering of package phrases. -/
def strip (v : Nat) : Nat := v % 2 + v / 4 * 2

/-- The block of values of phrases for each block of values of words. -/
def valueBlocks : List Nat :=
  [0, 1, 2, 3, 4, 5, 6, 7, 8, 9, 10, 11, 12, 13, 14, 15, 16, 17, 18, 19, 20, 21, 22, 23, 24, 25, 26, 27,
   28, 29, 30, 31, 32, 33, 34, 35, 36, 37, 38, 39, 40, 41, 42, 43, 44, 45, 46, 47, 48, 49, 50, 51, 52, 53,
   54, 55, 56, 57, 58, 59, 60, 61, 62, 63, 64, 65, 66, 67, 68, 69, 70, 71, 72, 73, 74, 75, 76, 77, 78, 79,
   80, 81, 82, 83, 84, 85, 86, 87, 88, 89, 90, 91, 92, 93, 94, 95, 96, 97, 98, 99, 100, 101, 102, 103, 104,
   105, 106, 107, 108, 109, 110, 111, 112, 113, 114, 115, 116, 117, 118, 119, 120, 121, 122, 123, 0, 0, 0,
   0, 124, 0, 125, 126, 127, 128, 129, 130, 131, 132, 133, 134, 135, 136, 137, 138, 139, 140, 141, 142,
   143, 144, 145, 146, 147, 148, 149, 150, 151, 152, 153, 154, 155, 156, 157, 158, 0, 0, 159, 160, 161,
   162, 163, 164, 165, 166, 167, 168, 169, 170, 171, 172, 173, 174, 175, 176, 177, 178, 179, 180, 181, 182,
   183, 184, 185, 186, 187, 188, 189, 190, 191, 192, 193, 194, 195, 196, 197, 198, 199, 200, 201, 202, 203,
   204, 205, 206, 207, 208, 209, 210, 211, 212, 213, 214, 215, 216, 217, 218, 219, 220, 221, 222, 223, 224,
   225, 226, 227, 228, 229, 230, 231, 232, 233, 234, 235, 236, 237, 238, 239, 240, 241, 242, 243, 244, 245,
   246, 247, 248, 249, 250, 251, 252, 253, 254, 255, 256, 257, 258, 259, 260, 261, 262, 263, 264, 265, 266,
   267, 268, 269, 270, 271, 272, 273, 274, 275, 276, 277, 278, 279, 280, 281, 282, 283, 284, 285, 286, 287,
   288, 289, 290, 291, 292, 293, 294, 295, 296, 297, 298, 299, 300, 301, 302, 303, 304, 305, 306, 307, 308,
   309, 310, 311, 312, 313, 314, 315, 316, 317, 318, 319, 320, 321, 322, 323, 324, 325, 326, 327, 328, 329,
   330, 331, 332, 333, 334, 335, 336, 337, 338, 339, 340, 341, 342, 343, 344, 345, 346, 347, 348, 349, 350,
   351, 352, 353, 354, 355, 0, 0, 0, 0, 0, 0, 0, 0, 356, 357]

/-- The index block of phrases for each index block of words. -/
def indexBlocks : List Nat :=
  [0, 0, 2, 3, 4, 5, 0, 0, 6, 7, 8, 9, 10, 11, 12, 13, 14, 15, 16, 17, 18, 19, 20, 21, 0, 0, 0, 0, 0, 0, 0,
   22, 23, 24]

/-- The index blocks of words whose entries are numbers of blocks of values. -/
def lastIndexBlocks : List Nat :=
  [0, 2, 3, 4, 5, 6, 7, 8, 9, 10, 11, 12, 13, 14, 15, 16, 17, 18, 19, 20, 21, 22, 23, 24, 25, 26, 27, 28,
   29, 30, 32]

/-- The index blocks of words whose entries are numbers of index blocks. -/
def firstIndexBlocks : List Nat :=
  [0, 31, 33]

theorem values_low : ∀ b ∈ List.range 2, (Words.trie.block b).map strip = Phrases.trie.block b := by
  decide +kernel

theorem values_high : ∀ b ∈ List.range 373,
    (Words.trie.block (b + 2)).map strip = Phrases.trie.block (nth valueBlocks b + 2) := by
  decide +kernel

theorem index_two : ∀ c ∈ List.range' 0xC2 30, entry Words.trie.index c < 373
    ∧ entry Phrases.trie.index c = nth valueBlocks (entry Words.trie.index c) := by
  decide +kernel

theorem index_three : ∀ c ∈ List.range' 0xE0 16, entry Words.trie.index c ∈ lastIndexBlocks
    ∧ entry Phrases.trie.index c = nth indexBlocks (entry Words.trie.index c) := by
  decide +kernel

theorem index_four : ∀ c ∈ List.range' 0xF0 8, entry Words.trie.index c ∈ firstIndexBlocks
    ∧ entry Phrases.trie.index c = nth indexBlocks (entry Words.trie.index c) := by
  decide +kernel

theorem index_first : ∀ i ∈ firstIndexBlocks, ∀ k ∈ List.range 64,
    entry Words.trie.index (i * 64 + 0x80 + k) ∈ lastIndexBlocks
    ∧ entry Phrases.trie.index (nth indexBlocks i * 64 + 0x80 + k)
      = nth indexBlocks (entry Words.trie.index (i * 64 + 0x80 + k)) := by
  decide +kernel

theorem index_last : ∀ i ∈ lastIndexBlocks, ∀ k ∈ List.range 64,
    entry Words.trie.index (i * 64 + 0x80 + k) < 373
    ∧ entry Phrases.trie.index (nth indexBlocks i * 64 + 0x80 + k)
      = nth valueBlocks (entry Words.trie.index (i * 64 + 0x80 + k)) := by
  decide +kernel

/-- The pages of the two tables. -/
theorem block_page {p : Nat} (hp : p < 17408) :
    (Words.trie.block (Words.trie.page p)).map strip = Phrases.trie.block (Phrases.trie.page p) := by
  unfold Trie.page
  split
  · rename_i h
    exact values_low p (List.mem_range.mpr h)
  split
  · obtain ⟨h1, h2⟩ := index_two (0xC0 + p) (by rw [List.mem_range'_1]; omega)
    rw [h2]
    exact values_high _ (List.mem_range.mpr h1)
  split
  · obtain ⟨h1, h2⟩ := index_three (0xE0 + p / 64) (by rw [List.mem_range'_1]; omega)
    rw [h2]
    obtain ⟨h3, h4⟩ := index_last _ h1 (p % 64) (by rw [List.mem_range]; omega)
    rw [h4]
    exact values_high _ (List.mem_range.mpr h3)
  · obtain ⟨h1, h2⟩ := index_four (0xF0 + p / 4096) (by rw [List.mem_range'_1]; omega)
    rw [h2]
    obtain ⟨h3, h4⟩ := index_first _ h1 (p / 64 % 64) (by rw [List.mem_range]; omega)
    rw [h4]
    obtain ⟨h5, h6⟩ := index_last _ h3 (p % 64) (by rw [List.mem_range]; omega)
    rw [h6]
    exact values_high _ (List.mem_range.mpr h5)

theorem prop_strip (c : Char) : Phrases.trie.prop c = strip (Words.trie.prop c) := by
  rw [Words.wf.prop_page, Phrases.wf.prop_page, entry_block _ (Nat.mod_lt _ (by decide)),
    entry_block _ (Nat.mod_lt _ (by decide)), ← block_page (by have := toNat_lt c; omega), List.getElem?_map]
  cases (Words.trie.block (Words.trie.page (c.val.toNat / 64)))[c.val.toNat % 64]? <;> rfl

theorem pset_strip {v : Nat} (h : Words.trie.IsValue v) : pset (strip v) = wset v := by
  have := Words.okValue.all (P := fun v => ∀ g ∈ Words.allWB, pset (strip v) g = wset v g) (by decide +kernel)
    (Words.okValue_of h)
  funext g
  exact this g (Words.mem_allWB g)

end Uax29
