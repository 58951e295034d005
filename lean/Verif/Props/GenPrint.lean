import Verif.Proofs.GenShipped
import Verif.Props.GenParse
import Verif.Table.GraphemesText
import Verif.Table.WordsText
import Verif.Table.PhrasesText
import Verif.Table.SentencesText
/-! # Property C56: the text that the generator prints -/
namespace Uax29
open Spec Gen Spec.GoText Spec.PropFile

/-- **C56** Whatever is inserted: read as Go, the printed text declares the two tables that the generator built. -/
theorem C56_round_trip (crc : List Nat → Nat) (p : Name) (l : List (Nat × Nat)) (root : Node)
    (h : insertAll newTrie l = .ok root) (hno : NoClash crc root) (m : List (String × List Nat))
    (hm : ∀ e ∈ m, '\n' ∉ e.1.toList) :
    Declares (squeeze (linesOf (writeTrie crc p root m))) (p.packageName ++ chars "Values") (gen crc root).1.values.flatten
    ∧ Declares (squeeze (linesOf (writeTrie crc p root m))) (p.packageName ++ chars "Index") (gen crc root).1.index.flatten := by
  have hok := insertAll_newTrie l (insertAll_ok_valid h)
  rw [h] at hok
  cases hok
  have hw := (gen_values hno).1
  refine declares_writeTrie crc p _ m ?_ hw.v64 hw.i64
  intro q hq
  obtain ⟨s, hs, rfl⟩ := List.mem_map.mp hq
  obtain ⟨e, he, rfl⟩ := List.mem_map.mp ((properties_perm m).mem_iff.mp hs)
  exact hm e he

/-- C56, the size in the comment: the number of bytes, and in KiB the nearest number with two digits after the point, and of two
equally near ones the even one. -/
theorem C56_psize (n : Nat) : ∃ a b c q, psize n = a ++ chars " bytes (" ++ b ++ '.' :: c ++ chars " KiB)"
    ∧ decimalNumber 0 a = some n ∧ c.length = 2 ∧ decimalNumber 0 (b ++ c) = some q ∧ b ≠ []
    ∧ 1024 * q ≤ 100 * n + 512 ∧ 100 * n ≤ 1024 * q + 512
    ∧ (1024 * q = 100 * n + 512 ∨ 100 * n = 1024 * q + 512 → q % 2 = 0) := by
  obtain ⟨q, hq⟩ : ∃ q, q = if 512 < n * 100 % 1024 ∨ (n * 100 % 1024 = 512 ∧ n * 100 / 1024 % 2 = 1) then n * 100 / 1024 + 1
    else n * 100 / 1024 := ⟨_, rfl⟩
  have h2 : (fmtDigits 10 2 (q % 100)).length = 2 ∧ decimalNumber (q / 100) (fmtDigits 10 2 (q % 100)) = some q := by
    have : ∀ k < 100, (fmtDigits 10 2 k).length = 2 := by decide +kernel
    refine ⟨this _ (Nat.mod_lt _ (by decide)), ?_⟩
    rw [fmtDigits, digitsLoop_decimal _ _ _ (Nat.le_refl _), decimalNumber, ← fmtDigits, this _ (Nat.mod_lt _ (by decide))]
    congr 1
    omega
  refine ⟨decimal n, decimal (q / 100), fmtDigits 10 2 (q % 100), q, by rw [hq]; rfl, decimalNumber_decimal n, h2.1, ?_, ?_, ?_⟩
  · rw [decimal, fmtDigits, ← digitsLoop_append, digitsLoop_decimal _ _ _ (Nat.le_refl _), Nat.zero_mul, Nat.zero_add]
    exact h2.2
  · rw [decimal, fmtDigits, digitsLoop_succ _ _ _ (by omega), digitsLoop_append]
    simp
  · have hd := Nat.div_add_mod (n * 100) 1024
    have hm := Nat.mod_lt (n * 100) (show 0 < 1024 by decide)
    generalize n * 100 / 1024 = d at *
    generalize n * 100 % 1024 = r at *
    split at hq <;> omega

example : psize 1536 = chars "1536 bytes (1.50 KiB)" ∧ psize 50688 = chars "50688 bytes (49.50 KiB)"
    ∧ psize 64 = chars "64 bytes (0.06 KiB)" ∧ psize 128 = chars "128 bytes (0.12 KiB)"
    ∧ psize 384 = chars "384 bytes (0.38 KiB)" := by decide +kernel

theorem digitsLoop_head : ∀ fuel w n, n + w ≤ fuel → w ≤ (digitsLoop 16 fuel w n []).length
    ∧ (w < (digitsLoop 16 fuel w n []).length → (digitsLoop 16 fuel w n []).head? ≠ some '0') := by
  intro fuel
  induction fuel with
  | zero => intro w n h; rw [digitsLoop]; simp; omega
  | succ fuel ih =>
    intro w n h
    by_cases h0 : w = 0 ∧ n = 0
    · obtain ⟨rfl, rfl⟩ := h0
      rw [digitsLoop_zero]; simp
    · rw [digitsLoop_succ _ _ _ (by omega), digitsLoop_append, List.length_append, List.length_singleton]
      obtain ⟨h1, h2⟩ := ih (w - 1) (n / 16) (by omega)
      refine ⟨by omega, fun hl => ?_⟩
      cases hd : digitsLoop 16 fuel (w - 1) (n / 16) [] with
      | nil =>
        rw [hd, List.length_nil] at h1 hl
        have hw : w = 0 := by omega
        subst hw
        have hn : n < 16 := by
          apply Classical.byContradiction
          intro hn
          obtain ⟨k, rfl⟩ : ∃ k, fuel = k + 1 := ⟨fuel - 1, by omega⟩
          rw [digitsLoop_succ _ _ _ (by omega), digitsLoop_append] at hd
          simp at hd
        have : ∀ n < 16, n ≠ 0 → digitChar (n % 16) ≠ '0' := by decide
        simpa using this n hn (by omega)
      | cons d ds =>
        rw [hd] at h2 hl
        have := h2 (by simp only [List.length_cons] at hl ⊢; omega)
        simpa using this

/-- C56, the checksum in the comment: in hexadecimal, with at least eight digits, and without further zeros in front. -/
theorem C56_checksum (name : List Char) (size checksum : Nat) : ∃ pre digits,
    trieComment name size checksum = pre ++ chars "Checksum: " ++ digits ++ chars "." ∧ hexNumber 0 digits = (checksum, [])
    ∧ 8 ≤ digits.length ∧ (8 < digits.length → digits.head? ≠ some '0') := by
  have := digitsLoop_head (checksum + 8) 8 checksum (Nat.le_refl _)
  refine ⟨chars "// " ++ name ++ chars "Trie. Total size: " ++ psize size ++ chars ". ", fmtDigits 16 8 checksum, ?_, ?_, this⟩
  · simp [trieComment]
  · have := digitsLoop_hex (checksum + 8) 8 checksum (Nat.le_refl _) [] 0 []
    simp only [List.append_nil, Nat.zero_mul, Nat.zero_add] at this
    rw [fmtDigits, this]
    rfl

example : trieComment (chars "words") 64 0xABC = chars "// wordsTrie. Total size: 64 bytes (0.06 KiB). Checksum: 00000abc." := by
  decide +kernel

/-- The tree with 5 for "é" alone is printed, and the value is read back. -/
example : ∃ n es, array (chars "wordsValues") (squeeze (linesOf (writeTrie crc64 .word eRoot [("ALetter", [0xE9])])))
    = some (n, es) ∧ 5 ∈ es.map (·.2) := by
  obtain ⟨es, h1, h3, h2⟩ := (C56_round_trip crc64 .word _ _ eRoot_eq eRoot_noClash [("ALetter", [0xE9])] (by decide +kernel)).1
  have hg : (gen crc64 eRoot).1.values.flatten = (gen fastCrc eRoot).1.values.flatten := by
    rw [show crc64 = fastCrc from funext crc64_fast]
  rw [hg] at h1 h2
  have hk := h2 233 (by decide +kernel)
  rw [show (gen fastCrc eRoot).1.values.flatten[233]'(by decide +kernel) = 5 by decide +kernel] at hk
  refine ⟨_, es, h1, ?_⟩
  cases hl : es.lookup 233 with
  | none => rw [Spec.GoText.entry, hl] at hk; cases hk
  | some v =>
    rw [Spec.GoText.entry, hl] at hk
    have : (233, v) ∈ es := by
      clear h1 h2 h3 hk
      induction es with
      | nil => cases hl
      | cons e es ih =>
        rw [List.lookup_cons] at hl
        split at hl
        · rename_i he
          cases hl
          rw [beq_iff_eq] at he
          rw [he]
          exact List.mem_cons_self
        · exact List.mem_cons_of_mem _ (ih hl)
    exact List.mem_map.mpr ⟨_, this, hk⟩

/-- The lines of a block: six values to a line, zeros left out. -/
example : printValues 4 [1, 0, 2, 3, 4, 5, 0x10020] =
    chars "\t// Block 0x4, offset 0x100\n\t0x100:0x0001, \t0x102:0x0002, \t0x103:0x0003, \t0x104:0x0004, \t0x105:0x0005, \n\t0x106:0x10020, " := by
  decide

/-- `replaceAll` as `bytes.ReplaceAll`: from the left, without overlap. -/
example : replaceAll (chars "aa") (chars "b") (chars "aaaxaa") = chars "baxb" := by decide

/-- Keys out of range or twice are no table. -/
example : ¬ Sound 64 [(64, 1)] ∧ ¬ Sound 64 [(3, 1), (3, 1)] ∧ Sound 64 [(3, 1), (63, 2)] := by
  refine ⟨fun h => absurd (h.1 (64, 1) (by simp)) (by decide), fun h => absurd h.2 (by decide), ?_, by decide⟩
  intro e he
  simp at he
  rcases he with rfl | rfl <;> decide

/-- C56, words/trie.go is what the generator prints for any insertions with its values, up to white space. -/
theorem C56_words (m : List (String × List Nat)) (hm : (m.map (·.1)).Perm wordNames)
    (l : List (Nat × Nat)) (root : Node) (h : insertAll newTrie l = .ok root)
    (hl : ∀ c : Char, Words.trie.lookup (String.utf8EncodeChar c)
      = .ok (lastValue l c.val.toNat, (String.utf8EncodeChar c).length)) :
    SameText (writeTrie crc64 .word root m) Words.text := by
  have hs := intSize_insertAll Words.wf h hl Words.prop_lt ' ' (v := 0x40000) (by decide +kernel)
  exact sameText_writeTrie (vs := 4) (is := 2) (properties_eq hm (by decide +kernel)) (by decide +kernel)
    (C47_words l root h hl) (intSize_four (by omega) (by omega)) (by decide +kernel)
    (by rw [toList_lines Words.Text.head_eq]; decide +kernel) Words.Text.values_eq
    (by rw [toList_lines Words.Text.mid_eq]; decide +kernel) Words.Text.index_eq
    (by rw [toList_lines Words.Text.tail_eq]; decide +kernel)

/-- There are such insertions. -/
example : ∃ root, SameText (writeTrie crc64 .word root (wordNames.map fun n => (n, []))) Words.text := by
  obtain ⟨l, h1, h2⟩ := exists_insertions Words.trie
  obtain ⟨root, h3⟩ := (C46_insert l).mpr h1
  exact ⟨root, C56_words _ (.of_eq (by simp [List.map_map, Function.comp_def])) l root h3 fun c => by
    rw [h2 c, Words.wf.lookup_char c]⟩

/-- White space does not matter, all else does. -/
example : SameText (chars "\t0x0a:0x0400, \t0x0b:0x4000, \n\n}") ["\t0x0a: 0x0400, 0x0b: 0x4000,", "}"]
    ∧ ¬ SameText (chars "\t0x0a:0x0400, \t0x0b:0x4000, \n\n}") ["\t0x0a: 0x0400, 0x0b: 0x4001,", "}"]
    ∧ ¬ SameText (chars "// a\nb") ["// a b"] := by
  unfold SameText
  decide +kernel

/-- C56, phrases/trie.go. -/
theorem C56_phrases (m : List (String × List Nat)) (hm : (m.map (·.1)).Perm phraseNames)
    (l : List (Nat × Nat)) (root : Node) (h : insertAll newTrie l = .ok root)
    (hl : ∀ c : Char, Phrases.trie.lookup (String.utf8EncodeChar c)
      = .ok (lastValue l c.val.toNat, (String.utf8EncodeChar c).length)) :
    SameText (writeTrie crc64 .phrase root m) Phrases.text := by
  have hs := intSize_insertAll Phrases.wf h hl Phrases.prop_lt ' ' (v := 0x20000) (by decide +kernel)
  exact sameText_writeTrie (vs := 4) (is := 2) (properties_eq hm (by decide +kernel)) (by decide +kernel)
    (C47_phrases l root h hl) (intSize_four (by omega) (by omega)) (by decide +kernel)
    (by rw [toList_lines Phrases.Text.head_eq]; decide +kernel) Phrases.Text.values_eq
    (by rw [toList_lines Phrases.Text.mid_eq]; decide +kernel) Phrases.Text.index_eq
    (by rw [toList_lines Phrases.Text.tail_eq]; decide +kernel)

/-- C56, graphemes/trie.go. -/
theorem C56_graphemes (m : List (String × List Nat)) (hm : (m.map (·.1)).Perm graphemeNames)
    (l : List (Nat × Nat)) (root : Node) (h : insertAll newTrie l = .ok root)
    (hl : ∀ c : Char, Graphemes.trie.lookup (String.utf8EncodeChar c)
      = .ok (lastValue l c.val.toNat, (String.utf8EncodeChar c).length)) :
    SameText (writeTrie crc64 .grapheme root m) Graphemes.text := by
  have hs := intSize_insertAll Graphemes.wf h hl Graphemes.prop_lt '\u200D' (v := 0x10020) (by decide +kernel)
  exact sameText_writeTrie (vs := 4) (is := 1) (properties_eq hm (by decide +kernel)) (by decide +kernel)
    (C47_graphemes l root h hl) (intSize_four (by omega) (by omega)) (by decide +kernel)
    (by rw [toList_lines Graphemes.Text.head_eq]; decide +kernel) Graphemes.Text.values_eq
    (by rw [toList_lines Graphemes.Text.mid_eq]; decide +kernel) Graphemes.Text.index_eq
    (by rw [toList_lines Graphemes.Text.tail_eq]; decide +kernel)

/-- C56, sentences/trie.go. -/
theorem C56_sentences (m : List (String × List Nat)) (hm : (m.map (·.1)).Perm sentenceNames)
    (l : List (Nat × Nat)) (root : Node) (h : insertAll newTrie l = .ok root)
    (hl : ∀ c : Char, Sentences.trie.lookup (String.utf8EncodeChar c)
      = .ok (lastValue l c.val.toNat, (String.utf8EncodeChar c).length)) :
    SameText (writeTrie crc64 .sentence root m) Sentences.text := by
  have hs := intSize_insertAll Sentences.wf h hl Sentences.prop_lt 'A' (v := 0x2000) (by decide +kernel)
  exact sameText_writeTrie (vs := 2) (is := 2) (properties_eq hm (by decide +kernel)) (by decide +kernel)
    (C47_sentences l root h hl) (intSize_two (by omega) (by omega)) (by decide +kernel)
    (by rw [toList_lines Sentences.Text.head_eq]; decide +kernel) Sentences.Text.values_eq
    (by rw [toList_lines Sentences.Text.mid_eq]; decide +kernel) Sentences.Text.index_eq
    (by rw [toList_lines Sentences.Text.tail_eq]; decide +kernel)

/-- C56, from the files of Unicode to words/trie.go: read, insert in any order, build the tables, print. -/
theorem C56_words_files {text emojiText : List Char} {es emoji : List (List Char × Nat × Nat)} (ht : File text es)
    (he : File emojiText emoji) (hf : WordFiles es emoji) {ideo : List Nat}
    (hi : ∀ c : Char, c.val.toNat ∈ ideo ↔ inRanges Ucd.han c.val.toNat = true ∨ inRanges Ucd.hiragana c.val.toNat = true)
    (incb : InCB) :
    ∃ pict m mm, emojiRunes emojiText = .ok (some pict) ∧ readFile text = .ok (some m)
      ∧ complete .word pict incb ideo m = .ok mm
      ∧ ∀ l root, Visits mm (iotasOf mm) l → insertAll newTrie l = .ok root →
        SameText (writeTrie crc64 .word root mm) Words.text := by
  obtain ⟨pict, m, mm, h1, h2, h3, h⟩ := words_files ht he hf hi incb
  exact ⟨pict, m, mm, h1, h2, h3, fun l root hv hl => C56_words mm (h l hv).1 l root hl (h l hv).2⟩

/-- C56, and to phrases/trie.go. -/
theorem C56_phrases_files {text emojiText : List Char} {es emoji : List (List Char × Nat × Nat)} (ht : File text es)
    (he : File emojiText emoji) (hf : WordFiles es emoji) (ideo : List Nat) (incb : InCB) :
    ∃ pict m mm, emojiRunes emojiText = .ok (some pict) ∧ readFile text = .ok (some m)
      ∧ complete .phrase pict incb ideo m = .ok mm
      ∧ ∀ l root, Visits mm (iotasOf mm) l → insertAll newTrie l = .ok root →
        SameText (writeTrie crc64 .phrase root mm) Phrases.text := by
  obtain ⟨pict, m, mm, h1, h2, h3, h⟩ := phrases_files ht he hf ideo incb
  exact ⟨pict, m, mm, h1, h2, h3, fun l root hv hl => C56_phrases mm (h l hv).1 l root hl (h l hv).2⟩

/-- C56, and to graphemes/trie.go. -/
theorem C56_graphemes_files {text emojiText incbText : List Char} {es emoji incb : List (List Char × Nat × Nat)}
    (ht : File text es) (he : File emojiText emoji) (hc : File incbText incb) (hf : GraphemeFiles es emoji incb)
    (ideo : List Nat) :
    ∃ pict inCB m mm, emojiRunes emojiText = .ok (some pict) ∧ inCBRunes incbText = .ok (some inCB)
      ∧ readFile text = .ok (some m) ∧ complete .grapheme pict inCB ideo m = .ok mm
      ∧ ∀ l root, Visits mm (iotasOf mm) l → insertAll newTrie l = .ok root →
        SameText (writeTrie crc64 .grapheme root mm) Graphemes.text := by
  obtain ⟨pict, inCB, m, mm, h1, h2, h3, h4, h⟩ := graphemes_files ht he hc hf ideo
  exact ⟨pict, inCB, m, mm, h1, h2, h3, h4, fun l root hv hl => C56_graphemes mm (h l hv).1 l root hl (h l hv).2⟩

/-- C56, and to sentences/trie.go. -/
theorem C56_sentences_files {text : List Char} {es : List (List Char × Nat × Nat)} (ht : File text es) (hf : SentenceFile es)
    (pict : List Nat) (incb : InCB) (ideo : List Nat) :
    ∃ m mm, readFile text = .ok (some m) ∧ complete .sentence pict incb ideo m = .ok mm
      ∧ ∀ l root, Visits mm (iotasOf mm) l → insertAll newTrie l = .ok root →
        SameText (writeTrie crc64 .sentence root mm) Sentences.text := by
  obtain ⟨m, mm, h1, h2, h⟩ := sentences_files ht hf pict incb ideo
  exact ⟨m, mm, h1, h2, fun l root hv hl => C56_sentences mm (h l hv).1 l root hl (h l hv).2⟩

/-- A file that is printed for the values of a table declares that table. -/
theorem declares_shipped {T : Trie} (hw : T.Wf) {sum : Nat} {p : Name} {names : List String} {text : List String}
    (hn : names.Pairwise fun a b => decide (a ≤ b) = true) (hl : ∀ q ∈ names.map String.toList, '\n' ∉ q)
    (hg : ∀ l root, insertAll newTrie l = .ok root → (∀ c : Char, T.lookup (String.utf8EncodeChar c)
      = .ok (lastValue l c.val.toNat, (String.utf8EncodeChar c).length)) → gen crc64 root = (T, sum))
    (h : ∀ m : List (String × List Nat), (m.map (·.1)).Perm names → ∀ l root, insertAll newTrie l = .ok root →
      (∀ c : Char, T.lookup (String.utf8EncodeChar c)
        = .ok (lastValue l c.val.toNat, (String.utf8EncodeChar c).length)) → SameText (writeTrie crc64 p root m) text) :
    Declares (squeeze (text.map String.toList)) (p.packageName ++ chars "Values") T.values.flatten
    ∧ Declares (squeeze (text.map String.toList)) (p.packageName ++ chars "Index") T.index.flatten := by
  obtain ⟨l, h1, h2⟩ := exists_insertions T
  obtain ⟨root, h3⟩ := (C46_insert l).mpr h1
  have h4 : ∀ c : Char, T.lookup (String.utf8EncodeChar c)
      = .ok (lastValue l c.val.toNat, (String.utf8EncodeChar c).length) := fun c => by rw [h2 c, hw.lookup_char c]
  have hm : ((names.map fun n => (n, ([] : List Nat))).map (·.1)) = names := by simp [List.map_map, Function.comp_def]
  have h5 := h (names.map fun n => (n, [])) (.of_eq hm) l root h3 h4
  have h6 := declares_writeTrie crc64 p root (names.map fun n => (n, [])) (by
    rw [properties_eq (.of_eq hm) hn]; exact hl) (by rw [hg l root h3 h4]; exact hw.v64) (by rw [hg l root h3 h4]; exact hw.i64)
  rw [hg l root h3 h4] at h6
  rw [SameText] at h5
  rw [← h5]
  exact h6

/-- C56, words/trie.go, read as Go, declares the tables of the model. -/
theorem C56_words_tables :
    Declares (squeeze (Words.text.map String.toList)) (chars "wordsValues") Words.trie.values.flatten
    ∧ Declares (squeeze (Words.text.map String.toList)) (chars "wordsIndex") Words.trie.index.flatten :=
  declares_shipped Words.wf (p := .word) (names := wordNames) (by decide +kernel) (by decide +kernel) C47_words C56_words

/-- C56, and phrases/trie.go. -/
theorem C56_phrases_tables :
    Declares (squeeze (Phrases.text.map String.toList)) (chars "phrasesValues") Phrases.trie.values.flatten
    ∧ Declares (squeeze (Phrases.text.map String.toList)) (chars "phrasesIndex") Phrases.trie.index.flatten :=
  declares_shipped Phrases.wf (p := .phrase) (names := phraseNames) (by decide +kernel) (by decide +kernel) C47_phrases C56_phrases

/-- C56, and graphemes/trie.go. -/
theorem C56_graphemes_tables :
    Declares (squeeze (Graphemes.text.map String.toList)) (chars "graphemesValues") Graphemes.trie.values.flatten
    ∧ Declares (squeeze (Graphemes.text.map String.toList)) (chars "graphemesIndex") Graphemes.trie.index.flatten :=
  declares_shipped Graphemes.wf (p := .grapheme) (names := graphemeNames) (by decide +kernel) (by decide +kernel) C47_graphemes C56_graphemes

/-- C56, and sentences/trie.go. -/
theorem C56_sentences_tables :
    Declares (squeeze (Sentences.text.map String.toList)) (chars "sentencesValues") Sentences.trie.values.flatten
    ∧ Declares (squeeze (Sentences.text.map String.toList)) (chars "sentencesIndex") Sentences.trie.index.flatten :=
  declares_shipped Sentences.wf (p := .sentence) (names := sentenceNames) (by decide +kernel) (by decide +kernel) C47_sentences C56_sentences

/-- C56, the constants and the type of words/trie.go, read as Go: those of the model, and all entries of the tables fit the type. -/
theorem C56_words_constants :
    (∀ e ∈ [(chars "_ALetter", Words._ALetter), (chars "_BleveIdeographic", Words._BleveIdeographic), (chars "_CR",
        Words._CR), (chars "_DoubleQuote", Words._DoubleQuote), (chars "_Extend", Words._Extend), (chars
        "_ExtendNumLet", Words._ExtendNumLet), (chars "_ExtendedPictographic", Words._ExtendedPictographic),
        (chars "_Format", Words._Format), (chars "_HebrewLetter", Words._HebrewLetter), (chars "_Katakana",
        Words._Katakana), (chars "_LF", Words._LF), (chars "_MidLetter", Words._MidLetter), (chars "_MidNum",
        Words._MidNum), (chars "_MidNumLet", Words._MidNumLet), (chars "_Newline", Words._Newline), (chars
        "_Numeric", Words._Numeric), (chars "_RegionalIndicator", Words._RegionalIndicator), (chars
        "_SingleQuote", Words._SingleQuote), (chars "_WSegSpace", Words._WSegSpace), (chars "_ZWJ",
        Words._ZWJ)],
      constant (squeeze (Words.text.map String.toList)) e.1 = some e.2 ∧ e.2 < 2 ^ 32)
    ∧ typeBits (squeeze (Words.text.map String.toList)) = some 32
    ∧ (∀ v ∈ Words.trie.values.flatten, v < 2 ^ 32) ∧ ∀ v ∈ Words.trie.index.flatten, v < 2 ^ 32 := by
  refine ⟨?_, ?_, flatten_lt (by decide +kernel), flatten_lt (by decide +kernel)⟩ <;>
    (rw [Words.text, List.map_append, toList_lines Words.Text.head_eq]; decide +kernel)

/-- C56, and of phrases/trie.go. -/
theorem C56_phrases_constants :
    (∀ e ∈ [(chars "_ALetter", Phrases._ALetter), (chars "_CR", Phrases._CR), (chars "_DoubleQuote",
        Phrases._DoubleQuote), (chars "_Extend", Phrases._Extend), (chars "_ExtendNumLet",
        Phrases._ExtendNumLet), (chars "_ExtendedPictographic", Phrases._ExtendedPictographic), (chars
        "_Format", Phrases._Format), (chars "_HebrewLetter", Phrases._HebrewLetter), (chars "_Katakana",
        Phrases._Katakana), (chars "_LF", Phrases._LF), (chars "_MidLetter", Phrases._MidLetter), (chars
        "_MidNum", Phrases._MidNum), (chars "_MidNumLet", Phrases._MidNumLet), (chars "_Newline",
        Phrases._Newline), (chars "_Numeric", Phrases._Numeric), (chars "_RegionalIndicator",
        Phrases._RegionalIndicator), (chars "_SingleQuote", Phrases._SingleQuote), (chars "_WSegSpace",
        Phrases._WSegSpace), (chars "_ZWJ", Phrases._ZWJ)],
      constant (squeeze (Phrases.text.map String.toList)) e.1 = some e.2 ∧ e.2 < 2 ^ 32)
    ∧ typeBits (squeeze (Phrases.text.map String.toList)) = some 32
    ∧ (∀ v ∈ Phrases.trie.values.flatten, v < 2 ^ 32) ∧ ∀ v ∈ Phrases.trie.index.flatten, v < 2 ^ 32 := by
  refine ⟨?_, ?_, flatten_lt (by decide +kernel), flatten_lt (by decide +kernel)⟩ <;>
    (rw [Phrases.text, List.map_append, toList_lines Phrases.Text.head_eq]; decide +kernel)

/-- C56, and of graphemes/trie.go. -/
theorem C56_graphemes_constants :
    (∀ e ∈ [(chars "_CR", Graphemes._CR), (chars "_Control", Graphemes._Control), (chars "_Extend",
        Graphemes._Extend), (chars "_ExtendedPictographic", Graphemes._ExtendedPictographic), (chars
        "_InCBConsonant", Graphemes._InCBConsonant), (chars "_InCBExtend", Graphemes._InCBExtend), (chars
        "_InCBLinker", Graphemes._InCBLinker), (chars "_L", Graphemes._L), (chars "_LF", Graphemes._LF),
        (chars "_LV", Graphemes._LV), (chars "_LVT", Graphemes._LVT), (chars "_Prepend", Graphemes._Prepend),
        (chars "_RegionalIndicator", Graphemes._RegionalIndicator), (chars "_SpacingMark",
        Graphemes._SpacingMark), (chars "_T", Graphemes._T), (chars "_V", Graphemes._V), (chars "_ZWJ",
        Graphemes._ZWJ)],
      constant (squeeze (Graphemes.text.map String.toList)) e.1 = some e.2 ∧ e.2 < 2 ^ 32)
    ∧ typeBits (squeeze (Graphemes.text.map String.toList)) = some 32
    ∧ (∀ v ∈ Graphemes.trie.values.flatten, v < 2 ^ 32) ∧ ∀ v ∈ Graphemes.trie.index.flatten, v < 2 ^ 32 := by
  refine ⟨?_, ?_, flatten_lt (by decide +kernel), flatten_lt (by decide +kernel)⟩ <;>
    (rw [Graphemes.text, List.map_append, toList_lines Graphemes.Text.head_eq]; decide +kernel)

/-- C56, and of sentences/trie.go. -/
theorem C56_sentences_constants :
    (∀ e ∈ [(chars "_ATerm", Sentences._ATerm), (chars "_CR", Sentences._CR), (chars "_Close", Sentences._Close),
        (chars "_Extend", Sentences._Extend), (chars "_Format", Sentences._Format), (chars "_LF",
        Sentences._LF), (chars "_Lower", Sentences._Lower), (chars "_Numeric", Sentences._Numeric), (chars
        "_OLetter", Sentences._OLetter), (chars "_SContinue", Sentences._SContinue), (chars "_STerm",
        Sentences._STerm), (chars "_Sep", Sentences._Sep), (chars "_Sp", Sentences._Sp), (chars "_Upper",
        Sentences._Upper)],
      constant (squeeze (Sentences.text.map String.toList)) e.1 = some e.2 ∧ e.2 < 2 ^ 16)
    ∧ typeBits (squeeze (Sentences.text.map String.toList)) = some 16
    ∧ (∀ v ∈ Sentences.trie.values.flatten, v < 2 ^ 16) ∧ ∀ v ∈ Sentences.trie.index.flatten, v < 2 ^ 16 := by
  refine ⟨?_, ?_, flatten_lt (by decide +kernel), flatten_lt (by decide +kernel)⟩ <;>
    (rw [Sentences.text, List.map_append, toList_lines Sentences.Text.head_eq]; decide +kernel)

end Uax29
