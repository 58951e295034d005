import Verif.Proofs.GenParse
import Verif.Props.TrieGen
import Verif.Props.Classes
import Verif.Spec.FileNames
/-! # From the text of the property files to the tables -/
namespace Uax29
open Spec Gen Spec.PropFile

theorem mem_getRunes {p : String} {r : Nat} : ∀ {m : List (String × List Nat)}, (m.map (·.1)).Nodup →
    (r ∈ getRunes p m ↔ Listed m p r)
  | [], _ => by simp [getRunes, listed_nil]
  | e :: m, hm => by
    rw [List.map_cons, List.nodup_cons] at hm
    rw [getRunes, listed_cons]
    by_cases he : e.1 = p
    · rw [if_pos he]
      constructor
      · exact fun h => .inl ⟨he, h⟩
      · rintro (h | ⟨e', h1, h2, _⟩)
        · exact h.2
        · exact absurd (List.mem_map.mpr ⟨e', h1, h2.trans he.symm⟩) hm.1
    · rw [if_neg he, mem_getRunes hm.2]
      simp [he]

theorem setRunes_names {p : String} {runes : List Nat} : ∀ {m : List (String × List Nat)},
    (setRunes p runes m).map (·.1) = if p ∈ m.map (·.1) then m.map (·.1) else m.map (·.1) ++ [p]
  | [] => by simp [setRunes]
  | e :: m => by
    simp only [setRunes]
    split
    · rename_i he
      rw [if_pos (by simp [he])]
      simp
    · rename_i he
      rw [List.map_cons, setRunes_names (m := m)]
      by_cases hm : p ∈ m.map (·.1)
      · rw [if_pos hm, if_pos (by simp only [List.map_cons, List.mem_cons]; exact .inr hm)]; rfl
      · rw [if_neg hm, if_neg (by simp only [List.map_cons, List.mem_cons, not_or]; exact ⟨fun e => he e.symm, hm⟩)]; rfl

theorem setRunes_nodup {p : String} {runes : List Nat} {m : List (String × List Nat)} (h : (m.map (·.1)).Nodup) :
    ((setRunes p runes m).map (·.1)).Nodup := by
  rw [setRunes_names]; exact nodup_add h

theorem mem_setRunes_names {p q : String} {runes : List Nat} {m : List (String × List Nat)} :
    q ∈ (setRunes p runes m).map (·.1) ↔ q = p ∨ q ∈ m.map (·.1) := by
  rw [setRunes_names]
  by_cases hp : p ∈ m.map (·.1)
  · rw [if_pos hp]
    exact ⟨.inr, fun h => h.elim (fun e => e ▸ hp) id⟩
  · rw [if_neg hp, List.mem_append, List.mem_singleton, or_comm]

theorem setRunes_same {p : String} {runes : List Nat} {r : Nat} : ∀ {m : List (String × List Nat)},
    (m.map (·.1)).Nodup → (Listed (setRunes p runes m) p r ↔ r ∈ runes)
  | [], _ => by simp [setRunes, listed_cons, listed_nil]
  | e :: m, hm => by
    rw [List.map_cons, List.nodup_cons] at hm
    simp only [setRunes]
    by_cases he : e.1 = p
    · rw [if_pos he, listed_cons]
      constructor
      · rintro (h | ⟨e', h1, h2, _⟩)
        · exact h.2
        · exact absurd (List.mem_map.mpr ⟨e', h1, h2.trans he.symm⟩) hm.1
      · exact fun h => .inl ⟨he, h⟩
    · rw [if_neg he, listed_cons, setRunes_same hm.2]
      simp [he]

theorem setRunes_other {p q : String} {runes : List Nat} {r : Nat} (hq : p ≠ q) : ∀ {m : List (String × List Nat)},
    Listed (setRunes p runes m) q r ↔ Listed m q r
  | [] => by simp [setRunes, listed_cons, listed_nil, hq]
  | e :: m => by
    simp only [setRunes]
    by_cases he : e.1 = p
    · rw [if_pos he, listed_cons, listed_cons]
      simp [he, hq]
    · rw [if_neg he, listed_cons, listed_cons, setRunes_other hq]

theorem is_two_pow (v i : Nat) : is v (2 ^ i) = v.testBit i := by
  unfold is
  cases h : v.testBit i with
  | true =>
    rw [bne_iff_ne]
    intro h0
    have := congrArg (fun x => x.testBit i) h0
    rw [Nat.testBit_and, h, Nat.testBit_two_pow_self, Nat.zero_testBit] at this
    cases this
  | false =>
    have : v &&& 2 ^ i = 0 := by
      apply Nat.eq_of_testBit_eq
      intro j
      rw [Nat.testBit_and, Nat.testBit_two_pow, Nat.zero_testBit]
      by_cases hj : i = j
      · subst hj; rw [h]; rfl
      · simp [hj]
    rw [this]
    rfl

/-- The bits of a rune are given by what is listed for it. -/
theorem iotasOf_eq {m : List (String × List Nat)} {names : List String} (hp : (m.map (·.1)).Perm names)
    (hs : names.Pairwise fun a b => decide (a ≤ b) = true) (hn : names.Nodup) (h64 : names.length ≤ 64) {r v : Nat}
    (hv : v < 2 ^ names.length) (h : ∀ i, (hi : i < names.length) → (is v (2 ^ i) = true ↔ Listed m names[i] r)) :
    iotasOf m r = v := by
  have hl : m.length = names.length := by rw [← hp.length_eq, List.length_map]
  have hpr := properties_eq hp hs
  apply Nat.eq_of_testBit_eq
  intro i
  by_cases hi : i < names.length
  · have h1 := iotasOf_testBit (hp.nodup_iff.mpr hn) (by omega) (i := i) (by rw [hpr]; exact hi) r
    have h2 := h i hi
    rw [is_two_pow] at h2
    simp only [hpr] at h1
    rw [Bool.eq_iff_iff, h1, h2]
  · have h1 := iotasOf_lt (m := m) r
    rw [hl] at h1
    have h3 : 2 ^ names.length ≤ 2 ^ i := Nat.pow_le_pow_right (by decide) (by omega)
    rw [Nat.testBit_lt_two_pow (Nat.lt_of_lt_of_le h1 h3), Nat.testBit_lt_two_pow (Nat.lt_of_lt_of_le hv h3)]

theorem perm_names {l names : List String} (h1 : l.Nodup) (h2 : names.Nodup) (h : ∀ p, p ∈ l ↔ p ∈ names) : l.Perm names :=
  (List.perm_ext_iff_of_nodup h1 h2).mpr h

theorem listed_name {m : List (String × List Nat)} {p : String} {r : Nat} (h : Listed m p r) : p ∈ m.map (·.1) := by
  obtain ⟨e, h1, h2, _⟩ := h
  exact List.mem_map.mpr ⟨e, h1, h2⟩

theorem lists_name {es : List (List Char × Nat × Nat)} {p : String} {r : Nat} (h : Lists es p r) :
    ∃ e ∈ es, String.ofList e.1 = p := by
  obtain ⟨e, h1, h2, _⟩ := h
  exact ⟨e, h1, h2⟩

/-- Reading a file. -/
theorem readFile_spec {text : List Char} {es : List (List Char × Nat × Nat)} (h : File text es) :
    ∃ m, readFile text = .ok (some m) ∧ (m.map (·.1)).Nodup ∧ (∀ p r, Listed m p r ↔ Lists es p r)
      ∧ ∀ p, p ∈ m.map (·.1) ↔ ∃ e ∈ es, String.ofList e.1 = p := by
  obtain ⟨m, h1, h2, h3, h4⟩ := h.read [] (by simp)
  refine ⟨m, h1, h2, fun p r => ?_, fun p => ?_⟩
  · rw [h3]; simp [listed_nil]
  · rw [h4]; simp

/-- Reading the emoji file. -/
theorem emojiRunes_spec {text : List Char} {es : List (List Char × Nat × Nat)} (h : File text es) :
    ∃ pict, emojiRunes text = .ok (some pict) ∧ ∀ r, r ∈ pict ↔ Lists es "Extended_Pictographic" r := by
  obtain ⟨m, h1, h2, h3, _⟩ := readFile_spec h
  refine ⟨_, by rw [emojiRunes, h1], fun r => ?_⟩
  rw [mem_getRunes h2, h3]

/-- Reading the file for Indic_Conjunct_Break. -/
theorem inCBRunes_spec {text : List Char} {es : List (List Char × Nat × Nat)} (h : File text es) :
    ∃ incb, inCBRunes text = .ok (some incb) ∧ (∀ r, r ∈ incb.consonant ↔ Lists es "InCB_Consonant" r)
      ∧ (∀ r, r ∈ incb.linker ↔ Lists es "InCB_Linker" r) ∧ ∀ r, r ∈ incb.ext ↔ Lists es "InCB_Extend" r := by
  obtain ⟨m, h1, h2, h3, _⟩ := readFile_spec h
  refine ⟨_, by rw [inCBRunes, h1], fun r => ?_, fun r => ?_, fun r => ?_⟩
  all_goals rw [mem_getRunes h2, h3]

/-- A character with each property value. -/
def gbWitness : GB → Char
  | .CR => '\r' | .LF => '\n' | .Control => '\t' | .Extend => '̀' | .ZWJ => '‍'
  | .RegionalIndicator => '🇦' | .Prepend => '؀' | .SpacingMark => 'ः' | .L => 'ᄀ' | .V => 'ᅠ'
  | .T => 'ᆨ' | .LV => '가' | .LVT => '각' | .ExtendedPictographic => '😀' | .InCBConsonant => 'क'
  | .InCBExtend => '̀' | .InCBLinker => '्'

theorem gbWitness_has (g : GB) : Ucd.grapheme g (gbWitness g) = true := by cases g <;> decide +kernel

@[inherit_doc gbWitness]
def wbWitness : WB → Char
  | .CR => '\r' | .LF => '\n' | .Newline => '\u0085' | .Extend => '̀' | .ZWJ => '‍' | .Format => '­'
  | .RegionalIndicator => '🇦' | .Katakana => 'カ' | .HebrewLetter => 'א' | .ALetter => 'a' | .SingleQuote => '\''
  | .DoubleQuote => '"' | .MidNumLet => '.' | .MidLetter => ':' | .MidNum => ',' | .Numeric => '0'
  | .ExtendNumLet => '_' | .WSegSpace => ' ' | .ExtendedPictographic => '😀'

theorem wbWitness_has (g : WB) : Ucd.word g (wbWitness g) = true := by cases g <;> decide +kernel

@[inherit_doc gbWitness]
def sbWitness : SB → Char
  | .CR => '\r' | .LF => '\n' | .Sep => '\u0085' | .Extend => '̀' | .Format => '­' | .Sp => ' '
  | .Lower => 'a' | .Upper => 'A' | .OLetter => '漢' | .Numeric => '0' | .ATerm => '.' | .SContinue => ','
  | .STerm => '!' | .Close => ')' | .Other => '+'

theorem sbWitness_has (g : SB) : Ucd.sentenceClass (sbWitness g) = g := by cases g <;> decide +kernel

theorem Words.prop_lt (c : Char) : Words.trie.prop c < 2 ^ 20 := by
  have : Words.trie.allValues (fun v => decide (v < 2 ^ 20)) = true := by decide +kernel
  simpa using Trie.IsValue.of_all this (Words.wf.prop_value c)

theorem Phrases.prop_lt (c : Char) : Phrases.trie.prop c < 2 ^ 19 := by
  have : Phrases.trie.allValues (fun v => decide (v < 2 ^ 19)) = true := by decide +kernel
  simpa using Trie.IsValue.of_all this (Phrases.wf.prop_value c)

theorem Graphemes.prop_lt (c : Char) : Graphemes.trie.prop c < 2 ^ 17 := by
  have : Graphemes.trie.allValues (fun v => decide (v < 2 ^ 17)) = true := by decide +kernel
  simpa using Trie.IsValue.of_all this (Graphemes.wf.prop_value c)

theorem Sentences.prop_lt (c : Char) : Sentences.trie.prop c < 2 ^ 14 := by
  have : Sentences.trie.allValues (fun v => decide (v < 2 ^ 14)) = true := by decide +kernel
  simpa using Trie.IsValue.of_all this (Sentences.wf.prop_value c)

/-- The property values in the order of the names, and the ideographs. -/
def wordOrder : List (Option WB) :=
  [some .ALetter, none, some .CR, some .DoubleQuote, some .Extend, some .ExtendNumLet, some .ExtendedPictographic,
    some .Format, some .HebrewLetter, some .Katakana, some .LF, some .MidLetter, some .MidNum, some .MidNumLet,
    some .Newline, some .Numeric, some .RegionalIndicator, some .SingleQuote, some .WSegSpace, some .ZWJ]

theorem wordOrder_spec : ∀ i < 20, ∃ o ∈ wordOrder,
    wordNames[i]? = some (o.elim "BleveIdeographic" wbName) ∧ 2 ^ i = o.elim Words._BleveIdeographic wbBit := by
  decide +kernel

/-- The property values in the order of the names. -/
def phraseOrder : List WB :=
  [.ALetter, .CR, .DoubleQuote, .Extend, .ExtendNumLet, .ExtendedPictographic,
    .Format, .HebrewLetter, .Katakana, .LF, .MidLetter, .MidNum, .MidNumLet,
    .Newline, .Numeric, .RegionalIndicator, .SingleQuote, .WSegSpace, .ZWJ]

theorem phraseOrder_spec : ∀ i < 19, ∃ g ∈ phraseOrder, phraseNames[i]? = some (wbName g) ∧ 2 ^ i = pbBit g := by
  decide +kernel

@[inherit_doc phraseOrder]
def graphemeOrder : List GB :=
  [.CR, .Control, .Extend, .ExtendedPictographic, .InCBConsonant, .InCBExtend, .InCBLinker, .L,
    .LF, .LV, .LVT, .Prepend, .RegionalIndicator, .SpacingMark, .T, .V, .ZWJ]

theorem graphemeOrder_spec : ∀ i < 17, ∃ g ∈ graphemeOrder, graphemeNames[i]? = some (gbName g) ∧ 2 ^ i = gbBit g := by
  decide +kernel

@[inherit_doc phraseOrder]
def sentenceOrder : List SB :=
  [.ATerm, .CR, .Close, .Extend, .Format, .LF, .Lower, .Numeric, .OLetter, .SContinue, .STerm, .Sep, .Sp, .Upper]

theorem sentenceOrder_spec : ∀ i < 14, ∃ g ∈ sentenceOrder, sentenceNames[i]? = some (sbName g) ∧ 2 ^ i = sbBit g ∧ g ≠ .Other := by
  decide +kernel

theorem wbName_mem (g : WB) : wbName g ∈ wordNames ∧ wbName g ∈ phraseNames ∧ wbName g ≠ "BleveIdeographic" := by
  cases g <;> decide +kernel

theorem wbName_pict (g : WB) : wbName g = "Extended_Pictographic" ↔ g = .ExtendedPictographic := by
  cases g <;> decide +kernel

theorem mem_wordNames : ∀ p ∈ wordNames, p = "BleveIdeographic" ∨ ∃ g, wbName g = p := by
  have : ∀ p ∈ wordNames, p = "BleveIdeographic" ∨ ∃ g ∈ phraseOrder, wbName g = p := by decide +kernel
  intro p hp
  rcases this p hp with h | ⟨g, _, h⟩
  · exact .inl h
  · exact .inr ⟨g, h⟩

theorem mem_phraseNames : ∀ p ∈ phraseNames, ∃ g, wbName g = p := by
  have : ∀ p ∈ phraseNames, ∃ g ∈ phraseOrder, wbName g = p := by decide +kernel
  intro p hp
  obtain ⟨g, _, h⟩ := this p hp
  exact ⟨g, h⟩

theorem gbName_mem (g : GB) : gbName g ∈ graphemeNames := by cases g <;> decide +kernel

theorem mem_graphemeNames : ∀ p ∈ graphemeNames, ∃ g, gbName g = p := by
  have : ∀ p ∈ graphemeNames, ∃ g ∈ graphemeOrder, gbName g = p := by decide +kernel
  intro p hp
  obtain ⟨g, _, h⟩ := this p hp
  exact ⟨g, h⟩

theorem sbName_mem (g : SB) (hg : g ≠ .Other) : sbName g ∈ sentenceNames := by
  cases g <;> first | exact absurd rfl hg | decide +kernel

theorem mem_sentenceNames : ∀ p ∈ sentenceNames, ∃ g, g ≠ .Other ∧ sbName g = p := by
  have : ∀ p ∈ sentenceNames, ∃ g ∈ sentenceOrder, g ≠ .Other ∧ sbName g = p := by decide +kernel
  intro p hp
  obtain ⟨g, _, h⟩ := this p hp
  exact ⟨g, h⟩

end Uax29
