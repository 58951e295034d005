import Verif.Proofs.GenNames
import Verif.Proofs.ShippedGraphemes
import Verif.Proofs.ShippedWords
import Verif.Proofs.ShippedPhrases
import Verif.Proofs.ShippedSentences
/-! # Properties C46, C47, C48: the generator of the tables -/
namespace Uax29
open Spec Gen

/-! ## C46 -/

theorem insert_ok_valid {root root' : Node} {r v : Nat} (h : insert root r v = .ok root') (hv : v ≠ 0) :
    r.isValidChar := by
  unfold Gen.insert at h
  rw [if_neg hv] at h
  dsimp only at h
  split at h
  · cases h
  · rename_i h1
    simp only [ne_eq, Classical.not_not, runeOfString] at h1
    exact Classical.byContradiction fun h2 => by
      rw [if_neg h2] at h1
      subst h1
      exact h2 (by decide)

theorem insertAll_ok_valid {l : List (Nat × Nat)} : ∀ {root root' : Node}, insertAll root l = .ok root' →
    ∀ p ∈ l, p.2 ≠ 0 → p.1.isValidChar := by
  induction l with
  | nil => intro _ _ _ p hp; cases hp
  | cons e l ih =>
    intro root root' h p hp hv
    simp only [insertAll] at h
    split at h
    · cases h
    · rename_i h1
      rcases List.mem_cons.mp hp with rfl | hp
      · exact insert_ok_valid h1 hv
      · exact ih h p hp hv

/-- C46, the insertions succeed exactly if every rune with a value other than 0 is a Unicode scalar
value. -/
theorem C46_insert (l : List (Nat × Nat)) :
    (∃ root, insertAll newTrie l = .ok root) ↔ ∀ p ∈ l, p.2 ≠ 0 → p.1.isValidChar :=
  ⟨fun ⟨_, h⟩ => insertAll_ok_valid h, fun h => ⟨_, insertAll_newTrie l h⟩⟩

/-- C46, the tree depends on the last values of the runes only, not on the order. -/
theorem C46_order (l l' : List (Nat × Nat)) (root root' : Node) (h : insertAll newTrie l = .ok root)
    (h' : insertAll newTrie l' = .ok root') (e : ∀ r, lastValue l r = lastValue l' r) : root = root' := by
  rw [insertAll_newTrie l (insertAll_ok_valid h)] at h
  rw [insertAll_newTrie l' (insertAll_ok_valid h')] at h'
  rw [funext e, h'] at h
  cases h
  rfl

/-- C46, if no two different nodes have the same checksum, `lookup` in the tables that are printed gives
every character the value inserted last and the length of its encoding. -/
theorem C46_round_trip (crc : List Nat → Nat) (l : List (Nat × Nat)) (root : Node)
    (h : insertAll newTrie l = .ok root) (hno : NoClash crc root) (c : Char) (rest : Bytes) :
    (gen crc root).1.lookup (String.utf8EncodeChar c ++ rest)
      = .ok (lastValue l c.val.toNat, (String.utf8EncodeChar c).length) := by
  rw [insertAll_newTrie l (insertAll_ok_valid h)] at h
  cases h
  obtain ⟨h1, h2⟩ := gen_values hno
  rw [h1.lookup_encode, h2]

/-- C46, and it stays within the tables on every non-empty byte sequence. -/
theorem C46_in_bounds (crc : List Nat → Nat) (l : List (Nat × Nat)) (root : Node)
    (h : insertAll newTrie l = .ok root) (hno : NoClash crc root) (data : Bytes) (hd : data ≠ []) :
    ∃ v w, (gen crc root).1.lookup data = .ok (v, w) ∧ w ≤ data.length := by
  rw [insertAll_newTrie l (insertAll_ok_valid h)] at h
  cases h
  obtain ⟨h1, -⟩ := gen_values hno
  obtain ⟨v, w, h2, h3, _⟩ := h1.lookup_ok hd
  exact ⟨v, w, h2, h3⟩

/-- C46, the checksum is the hash of the tree. -/
theorem C46_checksum (crc : List Nat → Nat) (l : List (Nat × Nat)) (root : Node)
    (h : insertAll newTrie l = .ok root) (hno : NoClash crc root) : (gen crc root).2 = nodeHash crc root := by
  rw [insertAll_newTrie l (insertAll_ok_valid h)] at h
  cases h
  obtain ⟨_, _, _, _, _, _, _, _, _, _, _, h1⟩ := gen_rootOf hno
  exact h1

/-- The leaf for the two-byte characters that start with 0xC3, with the value 5 for "é". -/
def eLeaf : Node := .mk false (fun _ => .nil) (some ((List.replicate 64 0).set 41 5))

/-- The tree for "é" with the value 5. -/
def eRoot : Node := .mk true (fun q => if q = 3 then eLeaf else .nil) (some (List.replicate 128 0))

theorem eRoot_eq : insertAll newTrie [(0xE9, 5)] = .ok eRoot := by rfl

theorem eRoot_below {m : Node} (h : Below eRoot m) : m = eRoot ∨ m = eLeaf ∨ m = .nil := by
  cases h with
  | here => exact .inl rfl
  | child i h =>
    dsimp only at h
    split at h
    · cases h with
      | here => exact .inr (.inl rfl)
      | child i h => cases h; exact .inr (.inr rfl)
    · cases h
      exact .inr (.inr rfl)

/-- The hypothesis of the round trip holds for the checksum that is used … -/
theorem eRoot_noClash : NoClash crc64 eRoot := by
  rw [show crc64 = fastCrc from funext crc64_fast]
  have h0 : nodeHash fastCrc .nil = 0 := rfl
  have h1 : nodeHash fastCrc eRoot ≠ 0 := by decide +kernel
  have h2 : nodeHash fastCrc eLeaf ≠ 0 := by decide +kernel
  have h3 : nodeHash fastCrc eRoot ≠ nodeHash fastCrc eLeaf := by decide +kernel
  constructor
  · intro m n hm hn
    rcases eRoot_below hm with rfl | rfl | rfl <;> rcases eRoot_below hn with rfl | rfl | rfl <;> intro he
    · rfl
    · exact absurd he h3
    · exact absurd (he.trans h0) h1
    · exact absurd he.symm h3
    · rfl
    · exact absurd (he.trans h0) h2
    · exact absurd (he.symm.trans h0) h1
    · exact absurd (he.symm.trans h0) h2
    · rfl
  · intro m hm he
    rcases eRoot_below hm with rfl | rfl | rfl
    · exact absurd he h1
    · exact absurd he h2
    · rfl

example (rest : Bytes) : (gen crc64 eRoot).1.lookup (0xC3 :: 0xA9 :: rest) = .ok (5, 2)
    ∧ (gen crc64 eRoot).1.lookup (0xC3 :: 0xA8 :: rest) = .ok (0, 2) :=
  ⟨C46_round_trip crc64 _ _ eRoot_eq eRoot_noClash 'é' rest,
    C46_round_trip crc64 _ _ eRoot_eq eRoot_noClash 'è' rest⟩

/-- … and is needed: if all checksums are 1, "é" with 5 and "ā" with 6 get the same block, and "ā" has
no value. -/
example : ∃ root, insertAll newTrie [(0xE9, 5), (0x101, 6)] = .ok root
    ∧ (gen (fun _ => 1) root).1.lookup [0xC4, 0x81] = .ok (0, 2) := by
  refine ⟨_, rfl, ?_⟩
  decide +kernel

example : insertAll newTrie [(0xE9, 5), (0xD800, 0)] = .ok eRoot := by rfl
example : insertAll newTrie [(0xE9, 5), (0xD800, 1)]
    = .error (.panic "triegen: non-zero value for invalid rune") := by rfl

/-! ## C47 -/

/-- There are insertions with the values of a table. -/
theorem exists_insertions (T : Trie) : ∃ l : List (Nat × Nat), (∀ p ∈ l, p.2 ≠ 0 → p.1.isValidChar)
    ∧ ∀ c : Char, lastValue l c.val.toNat = T.prop c := by
  refine ⟨(List.range 0x110000).map fun r => (r, valuesOf T r), ?_, ?_⟩
  · intro p hp hv
    obtain ⟨r, _, rfl⟩ := List.mem_map.mp hp
    exact Classical.byContradiction fun h => hv (dif_neg h)
  · intro c
    have hc : c.val.toNat.isValidChar := c.valid
    rw [lastValue_visits (g := valuesOf T)]
    · unfold valuesOf
      rw [dif_pos hc]
      rfl
    · intro p hp
      obtain ⟨r, _, rfl⟩ := List.mem_map.mp hp
      rfl
    · intro _
      exact ⟨valuesOf T c.val.toNat, List.mem_map.mpr ⟨_, List.mem_range.mpr (by
        rcases hc with h | h <;> omega), rfl⟩⟩

theorem Gen.Checks.generated {T : Trie} {vh ih lv : List Nat} {sum : Nat} (h : Checks T vh ih lv sum)
    {l : List (Nat × Nat)} (hl : ∀ c : Char, T.lookup (String.utf8EncodeChar c)
      = .ok (lastValue l c.val.toNat, (String.utf8EncodeChar c).length))
    {root : Node} (hr : insertAll newTrie l = .ok root) : gen crc64 root = (T, sum) := by
  obtain ⟨root', h1, h2⟩ := h.shipped (insertAll_ok_valid hr) fun c => by
    have := hl c
    rw [h.wf.lookup_char c, Except.ok.injEq, Prod.mk.injEq] at this
    exact this.1.symm
  rw [hr] at h1
  cases h1
  exact h2

/-- C47, the tables and the checksum in graphemes/trie.go are those the generator prints for any
insertions with their values. -/
theorem C47_graphemes (l : List (Nat × Nat)) (root : Node) (h : insertAll newTrie l = .ok root)
    (hl : ∀ c : Char, Graphemes.trie.lookup (String.utf8EncodeChar c)
      = .ok (lastValue l c.val.toNat, (String.utf8EncodeChar c).length)) :
    gen crc64 root = (Graphemes.trie, 0xaf733ba94cd94ba6) :=
  Graphemes.checks.generated hl h

/-- C47, words/trie.go. -/
theorem C47_words (l : List (Nat × Nat)) (root : Node) (h : insertAll newTrie l = .ok root)
    (hl : ∀ c : Char, Words.trie.lookup (String.utf8EncodeChar c)
      = .ok (lastValue l c.val.toNat, (String.utf8EncodeChar c).length)) :
    gen crc64 root = (Words.trie, 0x15f1c04c89caf743) :=
  Words.checks.generated hl h

/-- C47, phrases/trie.go. -/
theorem C47_phrases (l : List (Nat × Nat)) (root : Node) (h : insertAll newTrie l = .ok root)
    (hl : ∀ c : Char, Phrases.trie.lookup (String.utf8EncodeChar c)
      = .ok (lastValue l c.val.toNat, (String.utf8EncodeChar c).length)) :
    gen crc64 root = (Phrases.trie, 0x71d55844642e4474) :=
  Phrases.checks.generated hl h

/-- C47, sentences/trie.go. -/
theorem C47_sentences (l : List (Nat × Nat)) (root : Node) (h : insertAll newTrie l = .ok root)
    (hl : ∀ c : Char, Sentences.trie.lookup (String.utf8EncodeChar c)
      = .ok (lastValue l c.val.toNat, (String.utf8EncodeChar c).length)) :
    gen crc64 root = (Sentences.trie, 0xcadfb7ac79c3db52) :=
  Sentences.checks.generated hl h

/-- There are such insertions. -/
example : ∃ l root, insertAll newTrie l = .ok root ∧ gen crc64 root = (Words.trie, 0x15f1c04c89caf743) := by
  obtain ⟨l, h1, h2⟩ := exists_insertions Words.trie
  obtain ⟨root, h3⟩ := (C46_insert l).mpr h1
  exact ⟨l, root, h3, C47_words l root h3 fun c => by rw [h2 c, Words.wf.lookup_char c]⟩

/-- Other values give another checksum. -/
example : (gen crc64 eRoot).2 ≠ 0x15f1c04c89caf743 := by
  rw [C46_checksum crc64 _ _ eRoot_eq eRoot_noClash, show crc64 = fastCrc from funext crc64_fast]
  decide +kernel

/-! ## C48 -/

theorem visits_lastValue {m : List (String × List Nat)} {l : List (Nat × Nat)}
    (hv : Visits m (iotasOf m) l) (r : Nat) : lastValue l r = iotasOf m r :=
  lastValue_visits hv.1 fun h =>
    hv.2 r (Classical.byContradiction fun h' => h (iotasOf_zero h'))

/-- C48, the bit of a property is set in the value of a rune exactly if the rune is listed under that
property; no other bits are set, and the value fits into as many bits as there are properties. -/
theorem C48_bits (m : List (String × List Nat)) (hn : (m.map (·.1)).Nodup) (h64 : m.length ≤ 64) (r : Nat) :
    (∀ p ∈ m.map (·.1), (iotasOf m r &&& iotaOf m p ≠ 0 ↔ Listed m p r)) ∧ iotasOf m r < 2 ^ m.length := by
  refine ⟨?_, iotasOf_lt r⟩
  intro p hp
  have hp' := (properties_perm m).mem_iff.mpr hp
  obtain ⟨i, hi, he⟩ := List.mem_iff_getElem.mp hp'
  rw [← he, ← iotasOf_testBit hn h64 hi]
  have hb : ∀ j, (iotaOf m (properties m)[i]).testBit j = true ↔ j = i := by
    intro j
    have h1 := (iotaOf_testBit hn h64 hi (p := (properties m)[i])).mpr rfl
    unfold iotaOf at h1 ⊢
    revert h1
    cases (properties m).idxOf? (properties m)[i] with
    | none => intro h1; simp at h1
    | some k =>
      intro h1
      have h2 : ∀ j, ((1 <<< k) % 2 ^ 64).testBit j = true ↔ j < 64 ∧ k = j := by
        intro j
        rw [Nat.testBit_mod_two_pow, Nat.one_shiftLeft, Nat.testBit_two_pow]
        simp only [Bool.and_eq_true, decide_eq_true_eq]
      obtain ⟨h3, rfl⟩ := (h2 i).mp h1
      exact (h2 j).trans ⟨fun h => h.2.symm, fun h => ⟨h ▸ h3, h.symm⟩⟩
  constructor
  · intro h
    obtain ⟨j, hj⟩ := Nat.exists_testBit_of_ne_zero h
    rw [Nat.testBit_and, Bool.and_eq_true] at hj
    exact (hb j).mp hj.2 ▸ hj.1
  · intro h h0
    have := Nat.zero_testBit i
    rw [← h0, Nat.testBit_and, h, (hb i).mpr rfl] at this
    cases this

/-- C48, and `lookup` in the tables that are printed gives these values, in whichever order Go visits
its maps. -/
theorem C48_lookup (crc : List Nat → Nat) (m : List (String × List Nat)) (l : List (Nat × Nat)) (root : Node)
    (hv : Visits m (iotasOf m) l) (h : insertAll newTrie l = .ok root) (hno : NoClash crc root)
    (c : Char) (rest : Bytes) :
    (gen crc root).1.lookup (String.utf8EncodeChar c ++ rest)
      = .ok (iotasOf m c.val.toNat, (String.utf8EncodeChar c).length) := by
  rw [C46_round_trip crc l root h hno, visits_lastValue hv]

/-- C48, the names in the order of the constants of graphemes/trie.go:9-25 … -/
def graphemeNames : List String :=
  ["CR", "Control", "Extend", "Extended_Pictographic", "InCB_Consonant", "InCB_Extend", "InCB_Linker", "L",
    "LF", "LV", "LVT", "Prepend", "Regional_Indicator", "SpacingMark", "T", "V", "ZWJ"]

/-- … of words/trie.go:9-28 … -/
def wordNames : List String :=
  ["ALetter", "BleveIdeographic", "CR", "Double_Quote", "Extend", "ExtendNumLet", "Extended_Pictographic",
    "Format", "Hebrew_Letter", "Katakana", "LF", "MidLetter", "MidNum", "MidNumLet", "Newline", "Numeric",
    "Regional_Indicator", "Single_Quote", "WSegSpace", "ZWJ"]

/-- … of phrases/trie.go:9-27 … -/
def phraseNames : List String := wordNames.erase "BleveIdeographic"

/-- … and of sentences/trie.go:9-22. -/
def sentenceNames : List String :=
  ["ATerm", "CR", "Close", "Extend", "Format", "LF", "Lower", "Numeric", "OLetter", "SContinue", "STerm",
    "Sep", "Sp", "Upper"]

/-- C48, with these names the bits are the constants of graphemes/trie.go. -/
theorem C48_graphemes (m : List (String × List Nat)) (h : (m.map (·.1)).Perm graphemeNames) :
    graphemeNames.map (iotaOf m) = open Graphemes in
      [_CR, _Control, _Extend, _ExtendedPictographic, _InCBConsonant, _InCBExtend, _InCBLinker, _L,
        _LF, _LV, _LVT, _Prepend, _RegionalIndicator, _SpacingMark, _T, _V, _ZWJ] := by
  have := properties_eq h (by decide +kernel)
  unfold iotaOf
  rw [this]
  decide +kernel

/-- C48, words/trie.go. -/
theorem C48_words (m : List (String × List Nat)) (h : (m.map (·.1)).Perm wordNames) :
    wordNames.map (iotaOf m) = open Words in
      [_ALetter, _BleveIdeographic, _CR, _DoubleQuote, _Extend, _ExtendNumLet, _ExtendedPictographic,
        _Format, _HebrewLetter, _Katakana, _LF, _MidLetter, _MidNum, _MidNumLet, _Newline, _Numeric,
        _RegionalIndicator, _SingleQuote, _WSegSpace, _ZWJ] := by
  have := properties_eq h (by decide +kernel)
  unfold iotaOf
  rw [this]
  decide +kernel

/-- C48, phrases/trie.go. -/
theorem C48_phrases (m : List (String × List Nat)) (h : (m.map (·.1)).Perm phraseNames) :
    phraseNames.map (iotaOf m) = open Phrases in
      [_ALetter, _CR, _DoubleQuote, _Extend, _ExtendNumLet, _ExtendedPictographic,
        _Format, _HebrewLetter, _Katakana, _LF, _MidLetter, _MidNum, _MidNumLet, _Newline, _Numeric,
        _RegionalIndicator, _SingleQuote, _WSegSpace, _ZWJ] := by
  have := properties_eq h (by decide +kernel)
  unfold iotaOf
  rw [this]
  decide +kernel

/-- C48, sentences/trie.go. -/
theorem C48_sentences (m : List (String × List Nat)) (h : (m.map (·.1)).Perm sentenceNames) :
    sentenceNames.map (iotaOf m) = open Sentences in
      [_ATerm, _CR, _Close, _Extend, _Format, _LF, _Lower, _Numeric, _OLetter, _SContinue, _STerm,
        _Sep, _Sp, _Upper] := by
  have := properties_eq h (by decide +kernel)
  unfold iotaOf
  rw [this]
  decide +kernel

/-- A rune under two names has both bits. -/
example : iotasOf [("ZWJ", [0x200D]), ("Extend", [0x300, 0x200D]), ("LF", [0xA])] 0x200D = 5
    ∧ properties [("ZWJ", [0x200D]), ("Extend", [0x300, 0x200D]), ("LF", [0xA])] = ["Extend", "LF", "ZWJ"] := by
  have h : properties [("ZWJ", [0x200D]), ("Extend", [0x300, 0x200D]), ("LF", [0xA])] = ["Extend", "LF", "ZWJ"] :=
    properties_eq (by decide +kernel) (by decide +kernel)
  refine ⟨?_, h⟩
  unfold iotasOf iotaOf
  rw [h]
  decide +kernel

/-- There are maps with the names of package sentences, for instance one in which 'A' is an upper case
letter. -/
example : ∃ m : List (String × List Nat), (m.map (·.1)).Perm sentenceNames
    ∧ iotasOf m 'A'.val.toNat = Sentences._Upper := by
  have h : properties (sentenceNames.map fun n => (n, if n = "Upper" then [65] else [])) = sentenceNames :=
    properties_eq (by decide +kernel) (by decide +kernel)
  refine ⟨sentenceNames.map fun n => (n, if n = "Upper" then [65] else []), by decide +kernel, ?_⟩
  unfold iotasOf iotaOf
  rw [h]
  decide +kernel

end Uax29
