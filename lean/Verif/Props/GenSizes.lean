import Verif.Proofs.GenSizes
import Verif.Props.GenFit
/-!
# Property C77: the sizes in the comments of the tables

The claim is that the comments which the generator prints give the sizes of the tables: `Right`, and a total that is the sum of
them. The numbers of blocks and entries are right, but the numbers of bytes are computed with the smallest type for the entries
and not with the type that is declared. They are wrong in three of the four files in the repository (`C77_fails`);
`C77_right_partial` says exactly when they are right.
-/
namespace Uax29
open Spec Gen Spec.GoText

/-- The last value of a rune that is none. -/
theorem lastValue_beyond {l : List (Nat × Nat)} {root : Node} (h : insertAll newTrie l = .ok root) {r : Nat} (hr : 0x110000 ≤ r) :
    lastValue l r = 0 := by
  refine Classical.byContradiction fun h0 => ?_
  have := insertAll_ok_valid h _ (lastValue_mem h0) h0
  rcases this with h | h
  · have : r < 0xd800 := h
    omega
  · have : r < 0x110000 := h.2
    omega

/-- **C77** The comments on the tables, whatever is inserted: the numbers of blocks and of entries are those of the table
below, and the number of bytes is the number of entries times the smallest size of an integer, for the values that are inserted or
for the numbers of the blocks. The total is the sum. -/
theorem C77_sizes (crc : List Nat → Nat) (p : Name) (l : List (Nat × Nat)) (root : Node)
    (h : insertAll newTrie l = .ok root) (hno : NoClash crc root) (m : List (String × List Nat))
    (hm : ∀ e ∈ m, '\n' ∉ e.1.toList) :
    ∃ v i vs is y z, 2 ≤ v ∧ 4 ≤ i
    ∧ array (p.packageName ++ chars "Values") (squeeze (linesOf (writeTrie crc p root m))) = some (v * 64, vs)
    ∧ array (p.packageName ++ chars "Index") (squeeze (linesOf (writeTrie crc p root m))) = some (i * 64, is)
    ∧ tableSizes (p.packageName ++ chars "Values") (squeeze (linesOf (writeTrie crc p root m))) = some (v, v * 64, v * 64 * y)
    ∧ tableSizes (p.packageName ++ chars "Index") (squeeze (linesOf (writeTrie crc p root m))) = some (i, i * 64, i * 64 * z)
    ∧ totalSize p.packageName (squeeze (linesOf (writeTrie crc p root m))) = some (v * 64 * y + i * 64 * z)
    ∧ Smallest (fun n => ∃ r, lastValue l r = n) y ∧ Smallest (fun n => n = v - 2 ∨ n = i - 3) z := by
  obtain ⟨⟨vs, h1, _⟩, is, h2, _⟩ := C56_round_trip crc p l root h hno m hm
  have h0 : ∀ r, 0x110000 ≤ r → lastValue l r = 0 := fun r hr => lastValue_beyond h hr
  have hok := insertAll_newTrie l (insertAll_ok_valid h)
  rw [h] at hok
  cases hok
  have hw := (gen_values hno).1
  have hl : ∀ {bs : List (List Nat)}, (∀ b ∈ bs, b.length = 64) → bs.flatten.length = bs.length * 64 := by
    intro bs
    induction bs with
    | nil => intro _; rfl
    | cons b bs ih =>
      intro hb
      rw [List.flatten_cons, List.length_append, hb b List.mem_cons_self, ih fun b h => hb b (List.mem_cons_of_mem _ h),
        List.length_cons]
      omega
  rw [hl hw.v64] at h1
  rw [hl hw.i64] at h2
  obtain ⟨h3, h4, h5⟩ := sizes_writeTrie crc p (rootOf (lastValue l)) m (names_line hm) _ rfl _ _ rfl rfl
  refine ⟨_, _, vs, is, _, _, hw.nv, hw.ni, h1, h2, h3, h4, ?_, smallest_value _ h0, ?_⟩
  · rw [Nat.add_comm]
    exact h5
  · exact smallest_index _ _

/-- C77, so the comment is right exactly if the declared type is the smallest for the entries. -/
theorem C77_right_partial (crc : List Nat → Nat) (p : Name) (l : List (Nat × Nat)) (root : Node)
    (h : insertAll newTrie l = .ok root) (hno : NoClash crc root) (m : List (String × List Nat))
    (hm : ∀ e ∈ m, '\n' ∉ e.1.toList) :
    ∃ b v i vs is, typeBits (squeeze (linesOf (writeTrie crc p root m))) = some b
    ∧ array (p.packageName ++ chars "Values") (squeeze (linesOf (writeTrie crc p root m))) = some (v * 64, vs)
    ∧ array (p.packageName ++ chars "Index") (squeeze (linesOf (writeTrie crc p root m))) = some (i * 64, is)
    ∧ (Right (p.packageName ++ chars "Values") (squeeze (linesOf (writeTrie crc p root m)))
      ↔ Smallest (fun n => ∃ r, lastValue l r = n) (b / 8))
    ∧ (Right (p.packageName ++ chars "Index") (squeeze (linesOf (writeTrie crc p root m)))
      ↔ Smallest (fun n => n = v - 2 ∨ n = i - 3) (b / 8)) := by
  obtain ⟨b, hb, _⟩ := C56_type crc p root m hm
  obtain ⟨v, i, vs, is, y, z, hv, hi, h1, h2, h3, h4, _, h5, h6⟩ := C77_sizes crc p l root h hno m hm
  have key : ∀ {name : List Char} {k : Nat} {es : List (Nat × Nat)} {x : Nat} {P : Nat → Prop}, 0 < k →
      array name (squeeze (linesOf (writeTrie crc p root m))) = some (k * 64, es) →
      tableSizes name (squeeze (linesOf (writeTrie crc p root m))) = some (k, k * 64, k * 64 * x) → Smallest P x →
      (Right name (squeeze (linesOf (writeTrie crc p root m))) ↔ Smallest P (b / 8)) := by
    intro name k es x P hk ha ht hs
    have hsz : sizeof name (squeeze (linesOf (writeTrie crc p root m))) = some (k * 64 * (b / 8)) := by
      rw [sizeof, ha, hb]
    constructor
    · rintro ⟨_, _, n, h1, h2⟩
      rw [ht] at h1
      rw [hsz] at h2
      have e1 : k * 64 * x = n := by
        have := Option.some.inj h1
        exact (Prod.mk.inj (Prod.mk.inj this).2).2
      have e2 := Option.some.inj h2
      have : x = b / 8 := Nat.eq_of_mul_eq_mul_left (show 0 < k * 64 by omega) (e1.trans e2.symm)
      exact this ▸ hs
    · intro hs'
      exact ⟨_, _, _, ht, by rw [hsz, Smallest.unique hs hs']⟩
  exact ⟨b, v, i, vs, is, hb, h1, h2, key (by omega) h1 h3 h5, key (by omega) h2 h4 h6⟩

/-- The comments of a file that is printed for the values of a table. -/
theorem sizes_shipped {T : Trie} (hw : T.Wf) {sum : Nat} {p : Name} {names : List String} {text : List String}
    (hn : names.Pairwise fun a b => decide (a ≤ b) = true) (hl : ∀ q ∈ names.map String.toList, '\n' ∉ q)
    (hg : ∀ l root, insertAll newTrie l = .ok root → (∀ c : Char, T.lookup (String.utf8EncodeChar c)
      = .ok (lastValue l c.val.toNat, (String.utf8EncodeChar c).length)) → gen crc64 root = (T, sum))
    (h : ∀ m : List (String × List Nat), (m.map (·.1)).Perm names → ∀ l root, insertAll newTrie l = .ok root →
      (∀ c : Char, T.lookup (String.utf8EncodeChar c)
        = .ok (lastValue l c.val.toNat, (String.utf8EncodeChar c).length)) → SameText (writeTrie crc64 p root m) text)
    {vs is : Nat} (hv : ∀ l root, insertAll newTrie l = .ok root → (∀ c : Char, T.lookup (String.utf8EncodeChar c)
      = .ok (lastValue l c.val.toNat, (String.utf8EncodeChar c).length)) → intSize (maxValue root 0) = vs)
    (hi : intSize (imax T) = is) {nv ni : Nat} (hnv : T.values.length = nv) (hni : T.index.length = ni) :
    tableSizes (p.packageName ++ chars "Values") (squeeze (text.map String.toList)) = some (nv, nv * 64, nv * 64 * vs)
    ∧ tableSizes (p.packageName ++ chars "Index") (squeeze (text.map String.toList)) = some (ni, ni * 64, ni * 64 * is)
    ∧ totalSize p.packageName (squeeze (text.map String.toList)) = some (ni * 64 * is + nv * 64 * vs) := by
  obtain ⟨l, h1, h2⟩ := exists_insertions T
  obtain ⟨root, h3⟩ := (C46_insert l).mpr h1
  have h4 : ∀ c : Char, T.lookup (String.utf8EncodeChar c)
      = .ok (lastValue l c.val.toNat, (String.utf8EncodeChar c).length) := fun c => by rw [h2 c, hw.lookup_char c]
  have hm : ((names.map fun n => (n, ([] : List Nat))).map (·.1)) = names := by simp [List.map_map, Function.comp_def]
  have h5 := h (names.map fun n => (n, [])) (.of_eq hm) l root h3 h4
  have h6 := sizes_writeTrie crc64 p root (names.map fun n => (n, [])) (by
    rw [properties_eq (.of_eq hm) hn]; exact hl) T (by rw [hg l root h3 h4]) vs is (hv l root h3 h4) hi
  rw [hnv, hni] at h6
  rw [SameText] at h5
  rw [← h5]
  exact h6

theorem sizeof_declares {lines : List (List Char)} {name : List Char} {a : List Nat} (h : Declares lines name a) {n b : Nat}
    (hn : a.length = n) (hb : typeBits lines = some b) : sizeof name lines = some (n * (b / 8)) := by
  obtain ⟨es, h, _⟩ := h
  rw [sizeof, h, hb, hn]

/-- C77, the comments in graphemes/trie.go, and the true sizes. -/
theorem C77_graphemes :
    let lines := squeeze (Graphemes.text.map String.toList)
    tableSizes (chars "graphemesValues") lines = some (235, 15040, 60160) ∧ sizeof (chars "graphemesValues") lines = some 60160
    ∧ tableSizes (chars "graphemesIndex") lines = some (25, 1600, 1600) ∧ sizeof (chars "graphemesIndex") lines = some 6400
    ∧ totalSize (chars "graphemes") lines = some 61760 := by
  obtain ⟨h1, h2, h3⟩ := sizes_shipped Graphemes.wf (p := .grapheme) (names := graphemeNames) (by decide +kernel) (by decide +kernel)
    C47_graphemes C56_graphemes (vs := 4) (is := 1) (fun l root h hl => by
      have hs := intSize_insertAll Graphemes.wf h hl Graphemes.prop_lt '\u200D' (v := 0x10020) (by decide +kernel)
      exact intSize_four (by omega) (by omega)) (by decide +kernel)
    (nv := 235) (ni := 25) (by decide +kernel) (by decide +kernel)
  exact ⟨h1, sizeof_declares C56_graphemes_tables.1 (n := 15040) (by decide +kernel) C56_graphemes_constants.2.1,
    h2, sizeof_declares C56_graphemes_tables.2 (n := 1600) (by decide +kernel) C56_graphemes_constants.2.1, h3⟩

/-- C77, the comments in words/trie.go. -/
theorem C77_words :
    let lines := squeeze (Words.text.map String.toList)
    tableSizes (chars "wordsValues") lines = some (375, 24000, 96000) ∧ sizeof (chars "wordsValues") lines = some 96000
    ∧ tableSizes (chars "wordsIndex") lines = some (36, 2304, 4608) ∧ sizeof (chars "wordsIndex") lines = some 9216
    ∧ totalSize (chars "words") lines = some 100608 := by
  obtain ⟨h1, h2, h3⟩ := sizes_shipped Words.wf (p := .word) (names := wordNames) (by decide +kernel) (by decide +kernel)
    C47_words C56_words (vs := 4) (is := 2) (fun l root h hl => by
      have hs := intSize_insertAll Words.wf h hl Words.prop_lt ' ' (v := 0x40000) (by decide +kernel)
      exact intSize_four (by omega) (by omega)) (by decide +kernel)
    (nv := 375) (ni := 36) (by decide +kernel) (by decide +kernel)
  exact ⟨h1, sizeof_declares C56_words_tables.1 (n := 24000) (by decide +kernel) C56_words_constants.2.1,
    h2, sizeof_declares C56_words_tables.2 (n := 2304) (by decide +kernel) C56_words_constants.2.1, h3⟩

/-- C77, the comments in phrases/trie.go. -/
theorem C77_phrases :
    let lines := squeeze (Phrases.text.map String.toList)
    tableSizes (chars "phrasesValues") lines = some (360, 23040, 92160) ∧ sizeof (chars "phrasesValues") lines = some 92160
    ∧ tableSizes (chars "phrasesIndex") lines = some (27, 1728, 3456) ∧ sizeof (chars "phrasesIndex") lines = some 6912
    ∧ totalSize (chars "phrases") lines = some 95616 := by
  obtain ⟨h1, h2, h3⟩ := sizes_shipped Phrases.wf (p := .phrase) (names := phraseNames) (by decide +kernel) (by decide +kernel)
    C47_phrases C56_phrases (vs := 4) (is := 2) (fun l root h hl => by
      have hs := intSize_insertAll Phrases.wf h hl Phrases.prop_lt ' ' (v := 0x20000) (by decide +kernel)
      exact intSize_four (by omega) (by omega)) (by decide +kernel)
    (nv := 360) (ni := 27) (by decide +kernel) (by decide +kernel)
  exact ⟨h1, sizeof_declares C56_phrases_tables.1 (n := 23040) (by decide +kernel) C56_phrases_constants.2.1,
    h2, sizeof_declares C56_phrases_tables.2 (n := 1728) (by decide +kernel) C56_phrases_constants.2.1, h3⟩

/-- C77, the comments in sentences/trie.go, which are right. -/
theorem C77_sentences :
    let lines := squeeze (Sentences.text.map String.toList)
    tableSizes (chars "sentencesValues") lines = some (360, 23040, 46080) ∧ sizeof (chars "sentencesValues") lines = some 46080
    ∧ tableSizes (chars "sentencesIndex") lines = some (36, 2304, 4608) ∧ sizeof (chars "sentencesIndex") lines = some 4608
    ∧ totalSize (chars "sentences") lines = some 50688 := by
  obtain ⟨h1, h2, h3⟩ := sizes_shipped Sentences.wf (p := .sentence) (names := sentenceNames) (by decide +kernel) (by decide +kernel)
    C47_sentences C56_sentences (vs := 2) (is := 2) (fun l root h hl => by
      have hs := intSize_insertAll Sentences.wf h hl Sentences.prop_lt 'A' (v := 0x2000) (by decide +kernel)
      exact intSize_two (by omega) (by omega)) (by decide +kernel)
    (nv := 360) (ni := 36) (by decide +kernel) (by decide +kernel)
  exact ⟨h1, sizeof_declares C56_sentences_tables.1 (n := 23040) (by decide +kernel) C56_sentences_constants.2.1,
    h2, sizeof_declares C56_sentences_tables.2 (n := 2304) (by decide +kernel) C56_sentences_constants.2.1, h3⟩

/-- C77, the comments on the index are wrong in three of the files. -/
theorem C77_fails : ¬ Right (chars "graphemesIndex") (squeeze (Graphemes.text.map String.toList))
    ∧ ¬ Right (chars "wordsIndex") (squeeze (Words.text.map String.toList))
    ∧ ¬ Right (chars "phrasesIndex") (squeeze (Phrases.text.map String.toList)) := by
  have key : ∀ {name : List Char} {lines : List (List Char)} {b e n k : Nat}, tableSizes name lines = some (b, e, n) →
      sizeof name lines = some k → n ≠ k → ¬ Right name lines := by
    rintro name lines b e n k h1 h2 hne ⟨_, _, n', h3, h4⟩
    rw [h1] at h3
    rw [h2] at h4
    cases h3
    cases h4
    exact hne rfl
  exact ⟨key C77_graphemes.2.2.1 C77_graphemes.2.2.2.1 (by decide), key C77_words.2.2.1 C77_words.2.2.2.1 (by decide),
    key C77_phrases.2.2.1 C77_phrases.2.2.2.1 (by decide)⟩

/-- The comments as they are read. -/
example : tableSizes (chars "wordsValues") [chars "//wordsValues:3blocks,192entries,192bytes"] = some (3, 192, 192)
    ∧ tableSizes (chars "wordsIndex") [chars "//wordsValues:3blocks,192entries,192bytes"] = none
    ∧ totalSize (chars "words") [chars "//wordsTrie.Totalsize:64bytes(0.06KiB).Checksum:00000abc."] = some 64 := by decide
example : Smallest (fun v => v = 255 ∨ v = 3) 1 ∧ Smallest (fun v => v = 256 ∨ v = 3) 2 ∧ ¬ Smallest (fun v => v = 255) 2 := by
  refine ⟨⟨by decide, .inr fun v hv => by omega, .inl rfl⟩, ⟨by decide, .inr fun v hv => by omega, .inr ⟨256, .inl rfl, by decide⟩⟩, ?_⟩
  rintro ⟨_, _, h | ⟨v, rfl, h⟩⟩
  · exact absurd h (by decide)
  · exact absurd h (by decide)

end Uax29
