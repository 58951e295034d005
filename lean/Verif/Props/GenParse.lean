import Verif.Proofs.GenComplete
import Verif.Proofs.GenTests
/-! # Properties C52 and C53: the text files that the generator reads -/
namespace Uax29
open Spec Gen Spec.PropFile

/-- **C52** Reading a file gives, for every name in it, the code points that the file lists for the name. -/
theorem C52_read {text : List Char} {es : List (List Char × Nat × Nat)} (h : File text es) :
    ∃ m, readFile text = .ok (some m) ∧ (m.map (·.1)).Nodup ∧ (∀ p r, Listed m p r ↔ Lists es p r)
      ∧ ∀ p, p ∈ m.map (·.1) ↔ ∃ e ∈ es, String.ofList e.1 = p :=
  readFile_spec h

theorem ne_nil_of_mem {l : List Nat} {r : Nat} (h : r ∈ l) : l ≠ [] := by
  intro h0; subst h0; cases h

/-- What the generator inserts, from files with the property values. -/
theorem words_files {text emojiText : List Char} {es emoji : List (List Char × Nat × Nat)} (ht : File text es)
    (he : File emojiText emoji) (hf : WordFiles es emoji) {ideo : List Nat}
    (hi : ∀ c : Char, c.val.toNat ∈ ideo ↔ inRanges Ucd.han c.val.toNat = true ∨ inRanges Ucd.hiragana c.val.toNat = true)
    (incb : InCB) :
    ∃ pict m mm, emojiRunes emojiText = .ok (some pict) ∧ readFile text = .ok (some m)
      ∧ complete .word pict incb ideo m = .ok mm
      ∧ ∀ l, Visits mm (iotasOf mm) l → (mm.map (·.1)).Perm wordNames ∧ ∀ c : Char,
        Words.trie.lookup (String.utf8EncodeChar c) = .ok (lastValue l c.val.toNat, (String.utf8EncodeChar c).length) := by
  obtain ⟨pict, h1, h2⟩ := emojiRunes_spec he
  obtain ⟨m, h3, h4, h5, h6⟩ := readFile_spec ht
  have hpict : pict ≠ [] := ne_nil_of_mem ((h2 (wbWitness .ExtendedPictographic).val.toNat).mpr (by
    have := (hf.lists .ExtendedPictographic (wbWitness .ExtendedPictographic)).mpr (wbWitness_has _)
    rwa [if_pos rfl] at this))
  refine ⟨pict, m, _, h1, h3, by
    rw [complete, if_neg (fun h => hpict h.2)]
    simp only [ne_eq, reduceCtorEq, not_false_eq_true, if_true, if_false]
    rfl, ?_⟩
  intro l hv
  have hm1 := setRunes_nodup (p := "Extended_Pictographic") (runes := pict) h4
  have hm2 := setRunes_nodup (p := "BleveIdeographic")
    (runes := getRunes "Katakana" (setRunes "Extended_Pictographic" pict m) ++ ideo) hm1
  generalize hmm : setRunes "BleveIdeographic" _ _ = mm at hv hm2
  have hlist : ∀ g (c : Char), Listed mm (wbName g) c.val.toNat ↔ Ucd.word g c = true := by
    intro g c
    rw [← hmm, setRunes_other (wbName_mem g).2.2.symm, ← hf.lists]
    by_cases hg : g = .ExtendedPictographic
    · subst hg
      rw [if_pos rfl]
      show Listed (setRunes "Extended_Pictographic" _ _) "Extended_Pictographic" _ ↔ _
      rw [setRunes_same h4, h2]
      rfl
    · rw [if_neg hg, setRunes_other (fun h => hg ((wbName_pict g).mp h.symm)), h5]
  have hideo : ∀ c : Char, Listed mm "BleveIdeographic" c.val.toNat ↔ Ucd.ideographic c = true := by
    intro c
    rw [← hmm, setRunes_same hm1, List.mem_append, hi, mem_getRunes hm1, setRunes_other (by decide)]
    have h7 := hf.lists .Katakana c
    rw [if_neg (by decide), ← h5] at h7
    rw [show Listed m "Katakana" c.val.toNat ↔ Listed m (wbName .Katakana) c.val.toNat from Iff.rfl, h7]
    have h8 : Ucd.word .Katakana c = inRanges (Ucd.wb .Katakana) c.val.toNat := by
      simp [Ucd.word, Ucd.wbChanged, inRanges]
    rw [h8]
    simp [Ucd.ideographic, or_assoc]
  have hperm : (mm.map (·.1)).Perm wordNames := by
    refine perm_names hm2 (by decide +kernel) fun p => ?_
    rw [← hmm, mem_setRunes_names, mem_setRunes_names, h6]
    constructor
    · rintro (rfl | rfl | ⟨e, he', rfl⟩)
      · decide +kernel
      · decide +kernel
      · obtain ⟨g, hg⟩ := hf.names e he'
        rw [hg]
        exact (wbName_mem g).1
    · intro hp
      rcases mem_wordNames p hp with rfl | ⟨g, rfl⟩
      · exact .inl rfl
      · right
        by_cases hg : g = .ExtendedPictographic
        · subst hg; exact .inl rfl
        · right
          have := (hf.lists g (wbWitness g)).mpr (wbWitness_has g)
          rw [if_neg hg] at this
          exact lists_name this
  refine ⟨hperm, fun c => ?_⟩
  rw [visits_lastValue hv, Words.wf.lookup_char c]
  congr 2
  symm
  refine iotasOf_eq hperm (by decide +kernel) (by decide +kernel) (by decide) (Words.prop_lt c) fun i hi' => ?_
  obtain ⟨o, _, h7, h8⟩ := wordOrder_spec i hi'
  rw [List.getElem?_eq_getElem hi', Option.some.injEq] at h7
  rw [h7, h8]
  cases o with
  | none => rw [Option.elim_none, Option.elim_none, hideo, ← C51_ideographic, ideographic_eq]
  | some g => rw [Option.elim_some, Option.elim_some, hlist, ← C51_words, Words.wordClasses_eq]; rfl

/-- C52, files with the property values of `Spec/Ucd.lean` give words/trie.go, whichever order Go visits its
maps in. -/
theorem C52_words {text emojiText : List Char} {es emoji : List (List Char × Nat × Nat)} (ht : File text es)
    (he : File emojiText emoji) (hf : WordFiles es emoji) {ideo : List Nat}
    (hi : ∀ c : Char, c.val.toNat ∈ ideo ↔ inRanges Ucd.han c.val.toNat = true ∨ inRanges Ucd.hiragana c.val.toNat = true)
    (incb : InCB) :
    ∃ pict m mm, emojiRunes emojiText = .ok (some pict) ∧ readFile text = .ok (some m)
      ∧ complete .word pict incb ideo m = .ok mm
      ∧ ∀ l root, Visits mm (iotasOf mm) l → insertAll newTrie l = .ok root →
        gen crc64 root = (Words.trie, 0x15f1c04c89caf743) := by
  obtain ⟨pict, m, mm, h1, h2, h3, h⟩ := words_files ht he hf hi incb
  exact ⟨pict, m, mm, h1, h2, h3, fun l root hv hl => C47_words l root hl (h l hv).2⟩


/-- What the generator inserts, from files with the property values. -/
theorem phrases_files {text emojiText : List Char} {es emoji : List (List Char × Nat × Nat)} (ht : File text es)
    (he : File emojiText emoji) (hf : WordFiles es emoji) (ideo : List Nat) (incb : InCB) :
    ∃ pict m mm, emojiRunes emojiText = .ok (some pict) ∧ readFile text = .ok (some m)
      ∧ complete .phrase pict incb ideo m = .ok mm
      ∧ ∀ l, Visits mm (iotasOf mm) l → (mm.map (·.1)).Perm phraseNames ∧ ∀ c : Char,
        Phrases.trie.lookup (String.utf8EncodeChar c) = .ok (lastValue l c.val.toNat, (String.utf8EncodeChar c).length) := by
  obtain ⟨pict, h1, h2⟩ := emojiRunes_spec he
  obtain ⟨m, h3, h4, h5, h6⟩ := readFile_spec ht
  have hpict : pict ≠ [] := ne_nil_of_mem ((h2 (wbWitness .ExtendedPictographic).val.toNat).mpr (by
    have := (hf.lists .ExtendedPictographic (wbWitness .ExtendedPictographic)).mpr (wbWitness_has _)
    rwa [if_pos rfl] at this))
  refine ⟨pict, m, _, h1, h3, by
    rw [complete, if_neg (fun h => hpict h.2)]
    simp only [ne_eq, reduceCtorEq, not_false_eq_true, if_true, if_false]
    rfl, ?_⟩
  intro l hv
  have hm1 := setRunes_nodup (p := "Extended_Pictographic") (runes := pict) h4
  generalize hmm : setRunes "Extended_Pictographic" _ _ = mm at hv hm1
  have hlist : ∀ g (c : Char), Listed mm (wbName g) c.val.toNat ↔ Ucd.word g c = true := by
    intro g c
    rw [← hmm, ← hf.lists]
    by_cases hg : g = .ExtendedPictographic
    · subst hg
      rw [if_pos rfl]
      show Listed (setRunes "Extended_Pictographic" _ _) "Extended_Pictographic" _ ↔ _
      rw [setRunes_same h4, h2]
      rfl
    · rw [if_neg hg, setRunes_other (fun h => hg ((wbName_pict g).mp h.symm)), h5]
  have hperm : (mm.map (·.1)).Perm phraseNames := by
    refine perm_names hm1 (by decide +kernel) fun p => ?_
    rw [← hmm, mem_setRunes_names, h6]
    constructor
    · rintro (rfl | ⟨e, he', rfl⟩)
      · decide +kernel
      · obtain ⟨g, hg⟩ := hf.names e he'
        rw [hg]
        exact (wbName_mem g).2.1
    · intro hp
      obtain ⟨g, rfl⟩ := mem_phraseNames p hp
      by_cases hg : g = .ExtendedPictographic
      · subst hg; exact .inl rfl
      · right
        have := (hf.lists g (wbWitness g)).mpr (wbWitness_has g)
        rw [if_neg hg] at this
        exact lists_name this
  refine ⟨hperm, fun c => ?_⟩
  rw [visits_lastValue hv, Phrases.wf.lookup_char c]
  congr 2
  symm
  refine iotasOf_eq hperm (by decide +kernel) (by decide +kernel) (by decide +kernel)
    (show _ < 2 ^ phraseNames.length from Phrases.prop_lt c) fun i hi' => ?_
  obtain ⟨g, _, h7, h8⟩ := phraseOrder_spec i hi'
  rw [List.getElem?_eq_getElem hi', Option.some.injEq] at h7
  rw [h7, h8, hlist, ← C51_phrases, phraseClasses_eq]; rfl

/-- C52, and phrases/trie.go. -/
theorem C52_phrases {text emojiText : List Char} {es emoji : List (List Char × Nat × Nat)} (ht : File text es)
    (he : File emojiText emoji) (hf : WordFiles es emoji) (ideo : List Nat) (incb : InCB) :
    ∃ pict m mm, emojiRunes emojiText = .ok (some pict) ∧ readFile text = .ok (some m)
      ∧ complete .phrase pict incb ideo m = .ok mm
      ∧ ∀ l root, Visits mm (iotasOf mm) l → insertAll newTrie l = .ok root →
        gen crc64 root = (Phrases.trie, 0x71d55844642e4474) := by
  obtain ⟨pict, m, mm, h1, h2, h3, h⟩ := phrases_files ht he hf ideo incb
  exact ⟨pict, m, mm, h1, h2, h3, fun l root hv hl => C47_phrases l root hl (h l hv).2⟩


/-- What the generator inserts, from files with the property values. -/
theorem graphemes_files {text emojiText incbText : List Char} {es emoji incb : List (List Char × Nat × Nat)}
    (ht : File text es) (he : File emojiText emoji) (hc : File incbText incb) (hf : GraphemeFiles es emoji incb)
    (ideo : List Nat) :
    ∃ pict inCB m mm, emojiRunes emojiText = .ok (some pict) ∧ inCBRunes incbText = .ok (some inCB)
      ∧ readFile text = .ok (some m) ∧ complete .grapheme pict inCB ideo m = .ok mm
      ∧ ∀ l, Visits mm (iotasOf mm) l → (mm.map (·.1)).Perm graphemeNames ∧ ∀ c : Char,
        Graphemes.trie.lookup (String.utf8EncodeChar c) = .ok (lastValue l c.val.toNat, (String.utf8EncodeChar c).length) := by
  obtain ⟨pict, h1, h2⟩ := emojiRunes_spec he
  obtain ⟨inCB, i1, i2, i3, i4⟩ := inCBRunes_spec hc
  obtain ⟨m, h3, h4, h5, h6⟩ := readFile_spec ht
  have hpict : pict ≠ [] := ne_nil_of_mem ((h2 (gbWitness .ExtendedPictographic).val.toNat).mpr
    ((hf.lists .ExtendedPictographic (gbWitness .ExtendedPictographic)).mpr (gbWitness_has _)))
  have hcons : inCB.consonant ≠ [] := ne_nil_of_mem ((i2 (gbWitness .InCBConsonant).val.toNat).mpr
    ((hf.lists .InCBConsonant (gbWitness .InCBConsonant)).mpr (gbWitness_has _)))
  refine ⟨pict, inCB, m, _, h1, i1, h3, by
    rw [complete, if_neg (fun h => hpict h.2)]
    simp only [ne_eq, reduceCtorEq, not_false_eq_true, if_true]
    rw [if_neg hcons], ?_⟩
  intro l hv
  have hm1 := setRunes_nodup (p := "Extended_Pictographic") (runes := pict) h4
  have hm2 := setRunes_nodup (p := "InCB_Consonant") (runes := inCB.consonant) hm1
  have hm3 := setRunes_nodup (p := "InCB_Linker") (runes := inCB.linker) hm2
  have hm4 := setRunes_nodup (p := "InCB_Extend") (runes := inCB.ext) hm3
  generalize hmm : setRunes "InCB_Extend" _ _ = mm at hv hm4
  have hlist : ∀ g (c : Char), Listed mm (gbName g) c.val.toNat ↔ Ucd.grapheme g c = true := by
    intro g c
    rw [← hmm, ← hf.lists]
    cases g
    case ExtendedPictographic =>
      rw [setRunes_other (by decide), setRunes_other (by decide), setRunes_other (by decide)]
      exact (setRunes_same h4).trans (h2 _)
    case InCBConsonant =>
      rw [setRunes_other (by decide), setRunes_other (by decide)]
      exact (setRunes_same hm1).trans (i2 _)
    case InCBLinker =>
      rw [setRunes_other (by decide)]
      exact (setRunes_same hm2).trans (i3 _)
    case InCBExtend => exact (setRunes_same hm3).trans (i4 _)
    all_goals
      rw [setRunes_other (by decide), setRunes_other (by decide), setRunes_other (by decide),
        setRunes_other (by decide), h5]
  have hperm : (mm.map (·.1)).Perm graphemeNames := by
    refine perm_names hm4 (by decide +kernel) fun p => ?_
    constructor
    · rw [← hmm, mem_setRunes_names, mem_setRunes_names, mem_setRunes_names, mem_setRunes_names, h6]
      rintro (rfl | rfl | rfl | rfl | ⟨e, he', rfl⟩)
      · decide +kernel
      · decide +kernel
      · decide +kernel
      · decide +kernel
      · obtain ⟨g, hg⟩ := hf.names e he'
        rw [hg]
        exact gbName_mem g
    · intro hp
      obtain ⟨g, rfl⟩ := mem_graphemeNames p hp
      exact listed_name ((hlist g (gbWitness g)).mpr (gbWitness_has g))
  refine ⟨hperm, fun c => ?_⟩
  rw [visits_lastValue hv, Graphemes.wf.lookup_char c]
  congr 2
  symm
  refine iotasOf_eq hperm (by decide +kernel) (by decide +kernel) (by decide) (Graphemes.prop_lt c) fun i hi' => ?_
  obtain ⟨g, _, h7, h8⟩ := graphemeOrder_spec i hi'
  rw [List.getElem?_eq_getElem hi', Option.some.injEq] at h7
  rw [h7, h8, hlist, ← C51_graphemes, graphemeClasses_eq]; rfl

/-- C52, and graphemes/trie.go. -/
theorem C52_graphemes {text emojiText incbText : List Char} {es emoji incb : List (List Char × Nat × Nat)}
    (ht : File text es) (he : File emojiText emoji) (hc : File incbText incb) (hf : GraphemeFiles es emoji incb)
    (ideo : List Nat) :
    ∃ pict inCB m mm, emojiRunes emojiText = .ok (some pict) ∧ inCBRunes incbText = .ok (some inCB)
      ∧ readFile text = .ok (some m) ∧ complete .grapheme pict inCB ideo m = .ok mm
      ∧ ∀ l root, Visits mm (iotasOf mm) l → insertAll newTrie l = .ok root →
        gen crc64 root = (Graphemes.trie, 0xaf733ba94cd94ba6) := by
  obtain ⟨pict, inCB, m, mm, h1, h2, h3, h4, h⟩ := graphemes_files ht he hc hf ideo
  exact ⟨pict, inCB, m, mm, h1, h2, h3, h4, fun l root hv hl => C47_graphemes l root hl (h l hv).2⟩


/-- What the generator inserts, from files with the property values. -/
theorem sentences_files {text : List Char} {es : List (List Char × Nat × Nat)} (ht : File text es) (hf : SentenceFile es)
    (pict : List Nat) (incb : InCB) (ideo : List Nat) :
    ∃ m mm, readFile text = .ok (some m) ∧ complete .sentence pict incb ideo m = .ok mm
      ∧ ∀ l, Visits mm (iotasOf mm) l → (mm.map (·.1)).Perm sentenceNames ∧ ∀ c : Char,
        Sentences.trie.lookup (String.utf8EncodeChar c) = .ok (lastValue l c.val.toNat, (String.utf8EncodeChar c).length) := by
  obtain ⟨m, h3, h4, h5, h6⟩ := readFile_spec ht
  refine ⟨m, m, h3, by
    rw [complete, if_neg (fun h => h.1 rfl)]
    simp only [ne_eq, reduceCtorEq, not_true_eq_false, if_false], ?_⟩
  intro l hv
  have hperm : (m.map (·.1)).Perm sentenceNames := by
    refine perm_names h4 (by decide +kernel) fun p => ?_
    constructor
    · rw [h6]
      rintro ⟨e, he', rfl⟩
      obtain ⟨g, hg, hg'⟩ := hf.names e he'
      rw [hg']
      exact sbName_mem g hg
    · intro hp
      obtain ⟨g, hg, rfl⟩ := mem_sentenceNames p hp
      exact listed_name ((h5 _ _).mpr ((hf.lists g (sbWitness g) hg).mpr (sbWitness_has g)))
  refine ⟨hperm, fun c => ?_⟩
  rw [visits_lastValue hv, Sentences.wf.lookup_char c]
  congr 2
  symm
  refine iotasOf_eq hperm (by decide +kernel) (by decide +kernel) (by decide) (Sentences.prop_lt c) fun i hi' => ?_
  obtain ⟨g, _, h7, h8, h9⟩ := sentenceOrder_spec i hi'
  rw [List.getElem?_eq_getElem hi', Option.some.injEq] at h7
  rw [h7, h8, h5, hf.lists g c h9, ← C51_sentence, Sentences.prop_bit, is_sbBit _ _ h9]

/-- C52, and sentences/trie.go. -/
theorem C52_sentences {text : List Char} {es : List (List Char × Nat × Nat)} (ht : File text es) (hf : SentenceFile es)
    (pict : List Nat) (incb : InCB) (ideo : List Nat) :
    ∃ m mm, readFile text = .ok (some m) ∧ complete .sentence pict incb ideo m = .ok mm
      ∧ ∀ l root, Visits mm (iotasOf mm) l → insertAll newTrie l = .ok root →
        gen crc64 root = (Sentences.trie, 0xcadfb7ac79c3db52) := by
  obtain ⟨m, mm, h1, h2, h⟩ := sentences_files ht hf pict incb ideo
  exact ⟨m, mm, h1, h2, fun l root hv hl => C47_sentences l root hl (h l hv).2⟩


/-- C52, the values fit the type that the generator chooses for them. -/
theorem C52_fit (m : List (String × List Nat)) (h : m.length ≤ 64) (r : Nat) :
    iotasOf m r < 2 ^ propertyBits m.length := by
  refine Nat.lt_of_lt_of_le (iotasOf_lt r) (Nat.pow_le_pow_right (by decide) ?_)
  unfold propertyBits
  repeat' split
  all_goals omega

/-! There are such files. -/

theorem exists_digit : ∀ d < 16, ∃ c, Digit c d := by
  intro d hd
  have : ("0123456789abcdef".toList[d]?).isSome = true := by
    revert d; decide
  obtain ⟨c, hc⟩ := Option.isSome_iff_exists.mp this
  exact ⟨c, .inl hc⟩

theorem exists_hex (n : Nat) : ∃ s, Hex s n := by
  induction n using Nat.strongRecOn with
  | _ n ih =>
    by_cases h : n < 16
    · obtain ⟨c, hc⟩ := exists_digit n h
      exact ⟨[c], .one hc⟩
    · obtain ⟨s, hs⟩ := ih (n / 16) (by omega)
      obtain ⟨c, hc⟩ := exists_digit (n % 16) (by omega)
      have := Hex.more hs hc
      rw [show 16 * (n / 16) + n % 16 = n by omega] at this
      exact ⟨_, this⟩

theorem blank_nil : PropFile.Blank [] := fun _ h => by cases h

theorem exists_file : ∀ es : List (List Char × Nat × Nat),
    (∀ e ∈ es, PropFile.Name e.1 ∧ e.2.1 ≤ e.2.2 ∧ e.2.2 ≤ 0x10FFFF) → ∃ text, File text es
  | [], _ => ⟨[], .nil⟩
  | e :: es, h => by
    obtain ⟨t, ht⟩ := exists_file es fun x hx => h x (List.mem_cons_of_mem _ hx)
    obtain ⟨h1, h2, h3⟩ := h e List.mem_cons_self
    obtain ⟨s1, hs1⟩ := exists_hex e.2.1
    obtain ⟨s2, hs2⟩ := exists_hex e.2.2
    have hr := PropFile.Range.two hs1 hs2 h2
    have hl : Line ([] ++ (s1 ++ '.' :: '.' :: s2) ++ [] ++ ';' :: ([] ++ e.1 ++ [] ++ [])) (some (e.1, e.2.1, e.2.2)) :=
      .value blank_nil hr h3 blank_nil blank_nil h1 blank_nil (.inl rfl) (by simp)
    have hplain : ∀ {s n}, Hex s n → '\n' ∉ s := fun h hc => by
      have := (h.plain _ hc).2.2.2.2.1
      revert this; decide
    refine ⟨_, File.cons hl ?_ ht⟩
    simp only [List.nil_append, List.append_nil, List.mem_append, List.mem_cons, not_or]
    exact ⟨⟨hplain hs1, by decide, by decide, hplain hs2⟩, by decide,
      fun hc => (alphanum_plain (h1.2 _ hc)).2.2.2 rfl⟩

theorem exists_lists {α : Type} (vals : List α) (name : α → String) (P : α → Char → Bool)
    (hname : ∀ g ∈ vals, PropFile.Name (name g).toList) (hinj : ∀ g ∈ vals, ∀ h ∈ vals, name g = name h → g = h) :
    ∃ text es, File text es ∧ (∀ e ∈ es, ∃ g ∈ vals, String.ofList e.1 = name g)
      ∧ ∀ g ∈ vals, ∀ r, Lists es (name g) r ↔ ∃ c : Char, c.val.toNat = r ∧ P g c = true := by
  let es := vals.flatMap fun g => ((List.range 0x110000).filter fun n =>
    decide n.isValidChar && P g (Char.ofNat n)).map fun n => ((name g).toList, n, n)
  have hes : ∀ e, e ∈ es ↔ ∃ g ∈ vals, ∃ n, n.isValidChar ∧ P g (Char.ofNat n) = true ∧ e = ((name g).toList, n, n) := by
    intro e
    simp only [es, List.mem_flatMap, List.mem_map, List.mem_filter, List.mem_range, Bool.and_eq_true,
      decide_eq_true_eq]
    constructor
    · rintro ⟨g, hg, n, ⟨_, h2, h3⟩, rfl⟩
      exact ⟨g, hg, n, h2, h3, rfl⟩
    · rintro ⟨g, hg, n, h2, h3, rfl⟩
      refine ⟨g, hg, n, ⟨?_, h2, h3⟩, rfl⟩
      simp only [Nat.isValidChar] at h2
      omega
  obtain ⟨text, ht⟩ := exists_file es fun e he => by
    obtain ⟨g, hg, n, h2, _, rfl⟩ := (hes e).mp he
    simp only [Nat.isValidChar] at h2
    exact ⟨hname g hg, Nat.le_refl _, by simp only; omega⟩
  refine ⟨text, es, ht, fun e he => ?_, fun g hg r => ?_⟩
  · obtain ⟨g, hg, n, _, _, rfl⟩ := (hes e).mp he
    exact ⟨g, hg, by simp⟩
  · constructor
    · rintro ⟨e, he, h1, h2, h3⟩
      obtain ⟨g', hg', n, hv, hP, rfl⟩ := (hes e).mp he
      simp only [String.ofList_toList] at h1 h2 h3
      have : g' = g := hinj g' hg' g hg h1
      subst this
      refine ⟨Char.ofNat n, ?_, hP⟩
      have h4 : (Char.ofNat n).val.toNat = n := by
        rw [Char.ofNat, dif_pos hv]
        rfl
      omega
    · rintro ⟨c, rfl, hP⟩
      refine ⟨((name g).toList, c.val.toNat, c.val.toNat), (hes _).mpr ⟨g, hg, c.val.toNat, c.valid, ?_, rfl⟩,
        by simp, Nat.le_refl _, Nat.le_refl _⟩
      rw [show c.val.toNat = c.toNat from rfl, Char.ofNat_toNat]
      exact hP

theorem exists_char {c : Char} {Q : Char → Bool} : (∃ d : Char, d.val.toNat = c.val.toNat ∧ Q d = true) ↔ Q c = true := by
  constructor
  · rintro ⟨d, h, hd⟩
    have : d = c := Char.ext (UInt32.toNat_inj.mp h)
    rwa [this] at hd
  · exact fun h => ⟨c, rfl, h⟩

instance (s : List Char) : Decidable (PropFile.Name s) := by unfold PropFile.Name; infer_instance

example : ∃ text es, File text es ∧ WordFiles es es := by
  have hall : ∀ g, g ∈ phraseOrder := by intro g; cases g <;> decide
  obtain ⟨text, es, h1, h2, h3⟩ := exists_lists phraseOrder wbName Ucd.word (by decide +kernel) (by decide +kernel)
  refine ⟨text, es, h1, fun e he => ?_, fun g c => ?_⟩
  · obtain ⟨g, _, hg⟩ := h2 e he
    exact ⟨g, hg⟩
  · rw [ite_self, h3 g (hall g), exists_char]

example : ∃ text es, File text es ∧ GraphemeFiles es es es := by
  have hall : ∀ g, g ∈ graphemeOrder := by intro g; cases g <;> decide
  obtain ⟨text, es, h1, h2, h3⟩ := exists_lists graphemeOrder gbName Ucd.grapheme (by decide +kernel) (by decide +kernel)
  refine ⟨text, es, h1, fun e he => ?_, fun g c => ?_⟩
  · obtain ⟨g, _, hg⟩ := h2 e he
    exact ⟨g, hg⟩
  · have := h3 g (hall g) c.val.toNat
    rw [exists_char] at this
    cases g <;> exact this

/-- And the insertions succeed. -/
example : ∃ text m l root, readFile text = .ok (some m) ∧ Visits m (iotasOf m) l ∧ insertAll newTrie l = .ok root
    ∧ gen crc64 root = (Sentences.trie, 0xcadfb7ac79c3db52) := by
  have hall : ∀ g, g ≠ .Other → g ∈ sentenceOrder := by intro g hg; cases g <;> first | exact absurd rfl hg | decide
  have hne : ∀ g ∈ sentenceOrder, g ≠ .Other := by decide
  obtain ⟨text, es, h1, h2, h3⟩ := exists_lists sentenceOrder sbName (fun g c => decide (Ucd.sentenceClass c = g))
    (by decide +kernel) (by decide +kernel)
  have hf : SentenceFile es := by
    refine ⟨fun e he => ?_, fun g c hg => ?_⟩
    · obtain ⟨g, hg, hg'⟩ := h2 e he
      exact ⟨g, hne g hg, hg'⟩
    · rw [h3 g (hall g hg), exists_char (Q := fun c => decide (Ucd.sentenceClass c = g)), decide_eq_true_eq]
  obtain ⟨m, mm, h4, h5, h6⟩ := C52_sentences h1 hf [] ⟨[], [], []⟩ []
  obtain ⟨m', h4', _, h8, _⟩ := C52_read h1
  have : m = m' := by
    rw [h4'] at h4
    simpa using h4.symm
  subst this
  have : mm = m := by
    rw [complete, if_neg (fun h => h.1 rfl)] at h5
    simp only [ne_eq, reduceCtorEq, not_true_eq_false, if_false] at h5
    simpa using h5.symm
  subst this
  let l := (mm.flatMap (·.2)).map fun r => (r, iotasOf mm r)
  have hv : Visits mm (iotasOf mm) l := by
    refine ⟨fun p hp => ?_, fun r ⟨p, e, he, _, hr⟩ => ?_⟩
    · obtain ⟨r, _, rfl⟩ := List.mem_map.mp hp
      rfl
    · exact ⟨_, List.mem_map.mpr ⟨r, List.mem_flatMap.mpr ⟨e, he, hr⟩, rfl⟩⟩
  obtain ⟨root, hroot⟩ := (C46_insert l).mpr fun p hp _ => by
    obtain ⟨r, hr, rfl⟩ := List.mem_map.mp hp
    obtain ⟨e, he, hr⟩ := List.mem_flatMap.mp hr
    have h9 := (h8 e.1 r).mp ⟨e, he, rfl, hr⟩
    obtain ⟨e', he', hn⟩ := lists_name h9
    obtain ⟨g, hg, hg'⟩ := h2 e' he'
    rw [← hn, hg', h3 g hg] at h9
    obtain ⟨c, rfl, _⟩ := h9
    exact c.valid
  exact ⟨text, mm, l, root, h4', hv, hroot, h6 l root hv hroot⟩

/-! Some files. -/

example : readFile "# Grapheme_Cluster_Break\n\n000D          ; CR # Cc       <control-000D>\n0300..0302    ; Extend # Mn\n0915..0916 ; InCB; Consonant # Lo ; a comment\n0483 ; Extend\n".toList
    = .ok (some [("CR", [0xD]), ("Extend", [0x300, 0x301, 0x302, 0x483]), ("InCB_Consonant", [0x915, 0x916])]) := by
  decide +kernel

/-- The specification excludes what `main` does not read as meant: a last line without a newline is dropped, … -/
example : readFile "000D ; CR\n000A ; LF".toList = .ok (some [("CR", [0xD])]) := by decide +kernel
/-- … a semicolon in a comment makes the comment a part of the name, … -/
example : readFile "000D ; CR # a; b\n".toList = .ok (some [("CR # a_b", [0xD])]) := by decide +kernel
/-- … a line of blanks is an error, and a line without a name panics. -/
example : readFile "  \n".toList = .ok none ∧ readFile "000D\n".toList = .error .bounds := by decide +kernel
/-- A range that runs backwards counts as its first code point. -/
example : readFile "000D..000A ; X\n".toList = .ok (some [("X", [0xD])]) := by decide +kernel

/-- The numbers of bits for the four packages. -/
example : propertyBits graphemeNames.length = 32 ∧ propertyBits wordNames.length = 32
    ∧ propertyBits phraseNames.length = 32 ∧ propertyBits sentenceNames.length = 16 := by decide +kernel

/-- Without the emoji file `main` panics. -/
example : complete .word [] ⟨[], [], []⟩ [] [] = .error (.panic "didn't get emoji data; make sure it's loaded first") := by
  decide +kernel

/-! ## C53 -/

/-- **C53** Reading a file of tests gives, in order, the tests that the file lists: the text and its segments. -/
theorem C53_read {text : List Char} {tests : List (List (List Char))} (h : TestFile text tests) (hs : ShortLines text) :
    ∃ ts, readTests text = .ok (some ts)
      ∧ ts.map (fun t => (t.input, t.expected)) = tests.map fun css => (utf8 css.flatten, css.map utf8) :=
  h.parse hs

/-- C53, a single line. -/
theorem C53_line {l : List Char} {css : List (List Char)} (h : TestLine l css) :
    ∃ t, parseTest l = .ok (some (some t)) ∧ t.input = utf8 css.flatten ∧ t.expected = css.map utf8 :=
  h.parse

/-- A line of GraphemeBreakTest.txt. -/
example : TestLine "÷ 0020 × 0308 ÷ 1F600 ÷\t#  ÷ [0.2] SPACE (Other)".toList [[' ', '\u0308'], ['😀']] := by
  have d : ∀ c d, "0123456789ABCDEF".toList[d]? = some c → Digit c d := fun _ _ h => .inr h
  have h1 : Hex "0020".toList ' '.toNat :=
    .more (.more (.more (.one (d '0' 0 rfl)) (d '0' 0 rfl)) (d '2' 2 rfl)) (d '0' 0 rfl)
  have h2 : Hex "0308".toList '\u0308'.toNat :=
    .more (.more (.more (.one (d '0' 0 rfl)) (d '3' 3 rfl)) (d '0' 0 rfl)) (d '8' 8 rfl)
  have h3 : Hex "1F600".toList '😀'.toNat :=
    .more (.more (.more (.more (.one (d '1' 1 rfl)) (d 'F' 15 rfl)) (d '6' 6 rfl)) (d '0' 0 rfl)) (d '0' 0 rfl)
  exact .mk (a := ['\t']) (.cons (.more h1 (by decide) (.one h2 (by decide))) (.cons (.one h3 (by decide)) .nil))
    (fun _ h => .inr (List.mem_singleton.mp h)) (by decide)

example : parseTest "÷ 0020 × 0308 ÷ 1F600 ÷\t#  ÷ [0.2] SPACE (Other)".toList
    = .ok (some (some ⟨[0x20, 0xCC, 0x88, 0xF0, 0x9F, 0x98, 0x80], [[0x20, 0xCC, 0x88], [0xF0, 0x9F, 0x98, 0x80]],
      "÷ [0.2] SPACE (Other)".toList⟩)) := by decide +kernel

/-- An empty line panics, a surrogate too, and four blanks at the end count as an empty segment. -/
example : parseTest [] = .error .bounds
    ∧ parseTest "÷ D800 ÷ #".toList = .error (.panic "runtime error: makeslice: len out of range")
    ∧ parseTest "÷ 0061 ÷    #".toList = .ok (some (some ⟨[0x61], [[0x61], []], []⟩)) := by decide +kernel

end Uax29
