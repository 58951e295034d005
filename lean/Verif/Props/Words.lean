import Verif.Spec.Joiners
import Verif.Proofs.Joiners
import Verif.Props.Scanner
/-! # Properties of word segmentation: C09, C28, C29, C30, C31, C41 -/
namespace Uax29
open Spec Scanner

/-- With joiners the iterator gives what the split function gives, unless a space is a middle joiner. -/
theorem words_segs (j : Option Words.Joiners) (hj : Words.NoSpace (j.bind (·.middle))) (data : Bytes) :
    tokens .words j data = .ok (segs (splitAdv (Words.joinersSplitFunc j)) data) := by
  refine (tokens_eq .words j data).trans ?_
  congr 1
  exact (Iterator.goodAdv .words j).segs_congr (goodAdv_of_good (Words.splitFunc_good j))
    (Words.adv_eq j hj) data

theorem default_words_segs (data : Bytes) :
    defaultTokens .words data = .ok (segs (splitAdv Words.splitFunc) data) := by
  rw [defaultTokens_eq]
  exact words_segs none (fun _ h => by cases h) data

/-- **C09** On UTF-8 the words are whole characters, and there is a boundary between two of them
exactly where the rules WB1–WB999 put one, given the properties in the shipped table. -/
theorem C09_conform (s : List Char) :
    ∃ ws : List (List Char), defaultTokens .words (utf8 s) = .ok (ws.map utf8)
      ∧ ws.flatten = s ∧ (∀ w ∈ ws, w ≠ [])
      ∧ ∀ a b, s = a ++ b →
        (Boundary ws a ↔ wordBreak (a.map wordClasses) (b.map wordClasses) = true) := by
  obtain ⟨gs, h1, h2, h3, h4⟩ := Words.follows.conform Words.wf
    (goodAdv_of_good (Words.splitFunc_good _)) (P := Words.trie.IsValue) (fun _ h => h) Words.restart s
  refine ⟨gs, by rw [default_words_segs, h1], h2, h3, ?_⟩
  intro a b hab
  rw [h4 a b hab]
  have e : ∀ l : List Char, l.map wordClasses = (l.map (cellOf Words.trie Prod.fst)).map wset := by
    intro l; simp [Words.wordClasses_eq, cellOf]
  rw [e, e, wordBreak, ← List.map_reverse, ← List.map_reverse, ← List.map_reverse]
  simp only [Words.J, List.isEmpty_map, Bool.or_eq_true, Bool.not_eq_true', List.isEmpty_iff]
  rw [or_assoc]

-- "can't": the apostrophe is joined because a letter follows (WB6, WB7)
example : defaultTokens .words (utf8 ['c', 'a', 'n', '\'', 't', ' ', '1', '.']) =
    .ok [utf8 ['c', 'a', 'n', '\'', 't'], utf8 [' '], utf8 ['1'], utf8 ['.']] := by decide +kernel
example : wordBreak (['n'].map wordClasses) (['\'', 't'].map wordClasses) = false := by decide +kernel
example : wordBreak (['1'].map wordClasses) (['.', 'x'].map wordClasses) = true := by decide +kernel

/-- **C28** With `Joiners{Middle: M}` a scanner that does not run out of buffer yields the words of
the rules in which every character of `M` counts as MidNumLet, too. -/
theorem C28_middle (M : List Int) (s : List Char) (r : Reader) (n max : Nat)
    (hr : (deliver 0 r).1 = utf8 s) (hmax : (utf8 s).length < max) :
    ∃ ws : List (List Char),
      Scanner.tokens (scanner .words (some ⟨some M, none⟩) r n max) = .ok (ws.map utf8, shownErr (deliver 0 r).2)
      ∧ ws.flatten = s ∧ (∀ w ∈ ws, w ≠ [])
      ∧ ∀ a b, s = a ++ b →
        (Boundary ws a ↔ wordBreak (a.map (withMiddle M)) (b.map (withMiddle M)) = true) := by
  obtain ⟨gs, h1, h2, h3, h4⟩ := (Words.follows_middle (some M)).conform Words.wf
    (goodAdv_of_good (Words.splitFunc_good _)) (P := fun w => Words.goodCell w = true)
    (fun _ h => Words.middle_good h) Words.restart_middle s
  obtain ⟨ts, err, k1, k2⟩ := C16_errors .words (some ⟨some M, none⟩) r n max
  rw [hr] at k2
  rcases k2 with ⟨k2, k3⟩ | ⟨_, k3, _⟩
  · refine ⟨gs, ?_, h2, h3, ?_⟩
    · rw [k1, k3, ← h1, (splits_iff (splitOf_good .words (some ⟨some M, none⟩))).1 k2]
      rfl
    · intro a b hab
      rw [h4 a b hab]
      have e : ∀ l : List Char, l.map (withMiddle M)
          = (l.map (cellOf Words.trie (Words.joinCell (some M) Words._MidNumLet))).map wset := by
        intro l
        rw [List.map_map]
        apply List.map_congr_left
        intro c _
        funext g
        simp only [Function.comp_apply, cellOf, Words.joinCell_char, Option.any_some, withMiddle,
          Words.wordClasses_eq]
        by_cases hc : (c.val.toNat : Int) ∈ M
        · simp only [hc, decide_true, if_true, Words.wset_or, Bool.and_true]
          congr 1
          cases g <;> decide
        · simp only [hc, decide_false, Bool.false_eq_true, if_false, Bool.and_false, Bool.or_false]
      rw [e, e, wordBreak, ← List.map_reverse, ← List.map_reverse, ← List.map_reverse]
      simp only [Words.J, List.isEmpty_map, Bool.or_eq_true, Bool.not_eq_true', List.isEmpty_iff]
      rw [or_assoc]
  · omega

-- with '-' as a middle joiner "a-b" is one word, "a-" is not
example : Scanner.tokens (scanner .words (some ⟨some ['-'.toNat], none⟩) [(utf8 ['a', '-', 'b', ' ', 'a', '-'], none)] 0 100)
    = .ok ([utf8 ['a', '-', 'b'], utf8 [' '], utf8 ['a'], utf8 ['-']], none) := by decide +kernel
example : wordBreak (['a'].map (withMiddle ['-'.toNat])) (['-', 'b'].map (withMiddle ['-'.toNat])) = false := by
  decide +kernel

theorem wordBreak_eq {a b : List WSet} (ha : a ≠ []) (hb : b ≠ []) :
    wordBreak a b = !joins false a.reverse b := by
  simp [wordBreak, ha, hb]

/-- **C29** (partial: no character of `L` is a newline or ignored by WB4; see the counterexamples
below.) With `Joiners{Leading: L}` each word is the first word of the rest of the text by the word
rules in which a character of `L` at the start counts as AHLetter, too. If its first character is not
in `L`, these are the rules without joiners. -/
theorem C29_leading_partial (L : List Int)
    (hL : ∀ c : Char, (c.val.toNat : Int) ∈ L → (wordClasses c).newline = false ∧ (wordClasses c).ignorable = false)
    (s : List Char) :
    ∃ ws : List (List Char), Splits (Words.joinersSplitFunc (some ⟨none, some L⟩)) (utf8 s) (ws.map utf8)
      ∧ ws.flatten = s
      ∧ ∀ A w B, ws = A ++ w :: B → w ≠ []
        ∧ (∀ a b, w = a ++ b → a ≠ [] → b ≠ [] →
            wordBreak (leadingClasses L a) ((b ++ B.flatten).map wordClasses) = false)
        ∧ (B ≠ [] → wordBreak (leadingClasses L w) (B.flatten.map wordClasses) = true) := by
  let first := cellOf Words.trie (Words.joinCell (some L) Words._AHLetter)
  let cell := cellOf Words.trie Prod.fst
  have hfirst : ∀ c, wset (first c) = withLeading L c := by
    intro c
    funext g
    simp only [first, cellOf, Words.joinCell_char, Option.any_some, withLeading, Words.wordClasses_eq]
    by_cases hc : (c.val.toNat : Int) ∈ L
    · simp only [hc, decide_true, if_true, Words.wset_or, Bool.and_true]
      congr 1
      cases g <;> decide
    · simp only [hc, decide_false, Bool.false_eq_true, if_false, Bool.and_false, Bool.or_false]
  have hcell : ∀ c, wset (cell c) = wordClasses c := fun c => (Words.wordClasses_eq c).symm
  let n : List Char → Nat := fun s => match s with
    | [] => 0
    | c :: r => 1 + grow Words.J [first c] (r.map cell)
  have hadv : ∀ s : List Char, s ≠ [] →
      splitAdv (Words.joinersSplitFunc (some ⟨none, some L⟩)) (utf8 s) = (utf8 (s.take (n s))).length := by
    intro s hs
    obtain ⟨c, r, rfl⟩ := List.exists_cons_of_ne_nil hs
    have hne : utf8 (c :: r) ≠ [] := by
      intro h0
      have := encode_pos c
      rw [utf8_cons] at h0
      rw [(List.append_eq_nil_iff.mp h0).1] at this
      simp at this
    have := Words.follows_joiners_at (some ⟨none, some L⟩) _ _ _ hne (Words.wf.decodes_utf8 (c :: r)) (by
      intro x hx
      simp only [List.map_cons, List.head?_cons, Option.some.injEq] at hx
      subst hx
      have hgood := Words.okValue.all (P := fun v => Words.goodCell v = true ∧ ((wset v).ignorable = true →
        ∀ g ∈ Words.allWB, g ≠ .Extend → g ≠ .Format → g ≠ .ZWJ → wset v g = false)) (by decide +kernel)
        (Words.okValue_of (Words.wf.prop_value c))
      simp only [Option.bind_some, Words.joinCell_char, Option.any_some, decide_eq_true_eq]
      by_cases hc : (c.val.toNat : Int) ∈ L
      · rw [if_pos hc]
        obtain ⟨l1, l2⟩ := hL c hc
        have := Words.okValue.all (P := fun v => (wset v).newline = false → (wset v).ignorable = false →
          (wset (v ||| Words._AHLetter)).newline = false ∧ (wset (v ||| Words._AHLetter)).ignorable = false)
          (by decide +kernel) (Words.okValue_of (Words.wf.prop_value c))
        rw [Words.wordClasses_eq] at l1 l2
        have := this l1 l2
        exact ⟨⟨fun _ => this.1, fun _ => this.1, fun _ => this.1, fun _ => this.1⟩, fun h => by rw [this.2] at h; cases h⟩
      · rw [if_neg hc]
        exact ⟨Words.OkSet.of_goodCell hgood.1, fun h g => hgood.2 h g (Words.mem_allWB g)⟩)
    rw [this]
    have hcells : ((r.map fun c => (Words.trie.prop c, String.utf8EncodeChar c)).map
        (Words.joinCell ((some (⟨none, some L⟩ : Words.Joiners)).bind (·.middle)) Words._MidNumLet)) = r.map cell := by
      rw [List.map_map]; rfl
    have hf : firstChunks (Words.joinCell ((some (⟨none, some L⟩ : Words.Joiners)).bind (·.leading)) Words._AHLetter)
        (Words.joinCell ((some (⟨none, some L⟩ : Words.Joiners)).bind (·.middle)) Words._MidNumLet) Words.J
        ((c :: r).map fun c => (Words.trie.prop c, String.utf8EncodeChar c)) = n (c :: r) := by
      simp only [List.map_cons, firstChunks, hcells]
      rfl
    rw [hf, ← List.map_take, utf8_chunks]
    simp
  have hn : ∀ s : List Char, s ≠ [] → 0 < n s ∧ n s ≤ s.length := by
    intro s hs
    obtain ⟨c, r, rfl⟩ := List.exists_cons_of_ne_nil hs
    have := grow_le Words.J [first c] (r.map cell)
    rw [List.length_map] at this
    simp only [n, List.length_cons]
    omega
  obtain ⟨ws, h1, h2, h3, h4⟩ := segs_first (goodAdv_of_good (Words.splitFunc_good (some ⟨none, some L⟩))) n hn hadv s
  refine ⟨ws, (splits_iff (Words.splitFunc_good _)).2 h1.symm, h2, ?_⟩
  intro A w B hAB
  have hw : w ≠ [] := h3 w (by rw [hAB]; simp)
  have hlen := h4 A w B hAB
  obtain ⟨c, v, rfl⟩ := List.exists_cons_of_ne_nil hw
  simp only [List.cons_append, n, List.length_cons] at hlen
  have hmap : ∀ l : List Char, (l.map cell).map wset = l.map wordClasses := by
    intro l
    rw [List.map_map]
    exact List.map_congr_left fun c _ => hcell c
  have hlead : ∀ l : List Char, leadingClasses L (c :: l) = (first c :: l.map cell).map wset := by
    intro l
    rw [List.map_cons, hmap, hfirst]; rfl
  refine ⟨hw, ?_, ?_⟩
  · intro a b hab ha hb
    obtain ⟨c', a, rfl⟩ := List.exists_cons_of_ne_nil ha
    simp only [List.cons_append, List.cons.injEq] at hab
    obtain ⟨rfl, rfl⟩ := hab
    have hj := grow_join (J := Words.J) (right := ((a ++ b) ++ B.flatten).map cell) (left := [first c]) (i := a.length) (by
      have := List.length_pos_iff.mpr hb
      rw [List.length_append] at hlen
      omega)
    rw [List.append_assoc, ← List.map_take, ← List.map_drop, List.take_left, List.drop_left] at hj
    rw [wordBreak_eq (by simp [leadingClasses]) (by simp [hb]), hlead, ← hmap]
    have : Words.J (first c :: a.map cell).reverse ((b ++ B.flatten).map cell) = true := by
      simpa using hj
    rw [Words.J, List.map_reverse] at this
    rw [this]
    rfl
  · intro hB
    have hBne : B.flatten ≠ [] := by
      obtain ⟨g, B', rfl⟩ := List.exists_cons_of_ne_nil hB
      have := h3 g (by rw [hAB]; simp)
      simp [this]
    have hj := grow_stop (J := Words.J) (right := (v ++ B.flatten).map cell) (left := [first c]) (by
      have := List.length_pos_iff.mpr hBne
      rw [List.length_map, List.length_append]
      omega)
    have hg : grow Words.J [first c] ((v ++ B.flatten).map cell) = v.length := by omega
    rw [hg, ← List.map_take, ← List.map_drop, List.take_left, List.drop_left] at hj
    rw [wordBreak_eq (by simp [leadingClasses]) (by simpa using hBne), hlead, ← hmap]
    have : Words.J (first c :: v.map cell).reverse (B.flatten.map cell) = false := by
      simpa using hj
    rw [Words.J, List.map_reverse] at this
    rw [this]
    rfl

-- with '#' as a leading joiner "#a" is one word, but not "a#a"
example : tokens .words (some ⟨none, some ['#'.toNat]⟩) (utf8 ['#', 'a', '#', 'a'])
    = .ok [utf8 ['#', 'a'], utf8 ['#', 'a']] := by decide +kernel
example : wordBreak (leadingClasses ['#'.toNat] ['#']) (['a'].map wordClasses) = false := by decide +kernel
example : wordBreak (leadingClasses ['#'.toNat] ['a']) (['#'].map wordClasses) = true := by decide +kernel

/-- The condition of `C29_leading_partial` is needed: a newline as a leading joiner is joined with the
letter after it, against WB3a; -/
theorem C29_newline_fails : tokens .words (some ⟨none, some ['\n'.toNat]⟩) (utf8 ['\n', 'a'])
      = .ok [utf8 ['\n', 'a']]
    ∧ wordBreak (leadingClasses ['\n'.toNat] ['\n']) (['a'].map wordClasses) = true := by decide +kernel

/-- and a zero width joiner as a leading joiner is not joined with a letter, against WB5. -/
theorem C29_ignored_fails : tokens .words (some ⟨none, some [0x200D]⟩) (utf8 ['‍', 'a'])
      = .ok [utf8 ['‍'], utf8 ['a']]
    ∧ wordBreak (leadingClasses [0x200D] ['‍']) (['a'].map wordClasses) = false := by decide +kernel

/-- **C30** A nil `*Joiners`, one with nil slices and one with empty slices give the same split
function, which is `SplitFunc`; so iterators and scanners give the same tokens. -/
theorem C30_empty :
    splitOf .words none = Words.splitFunc
    ∧ splitOf .words (some ⟨none, none⟩) = Words.splitFunc
    ∧ splitOf .words (some ⟨some [], some []⟩) = Words.splitFunc
    ∧ (∀ data, tokens .words none data = defaultTokens .words data
        ∧ tokens .words (some ⟨none, none⟩) data = defaultTokens .words data
        ∧ tokens .words (some ⟨some [], some []⟩) data = defaultTokens .words data)
    ∧ ∀ r n max, Scanner.tokens (scanner .words none r n max)
          = Scanner.tokens ((Scanner.new Words.splitFunc r).buffer n max)
        ∧ Scanner.tokens (scanner .words (some ⟨none, none⟩) r n max)
          = Scanner.tokens ((Scanner.new Words.splitFunc r).buffer n max)
        ∧ Scanner.tokens (scanner .words (some ⟨some [], some []⟩) r n max)
          = Scanner.tokens ((Scanner.new Words.splitFunc r).buffer n max) := by
  have h3 : splitOf .words (some ⟨some [], some []⟩) = Words.splitFunc := Words.joiners_empty
  refine ⟨rfl, rfl, h3, ?_, ?_⟩
  · intro data
    have ns : ∀ j : Option Words.Joiners, (j.bind (·.middle) = none ∨ j.bind (·.middle) = some []) →
        Words.NoSpace (j.bind (·.middle)) := by
      intro j hj rs hrs
      rcases hj with h | h
      · rw [h] at hrs; cases hrs
      · rw [h] at hrs; cases hrs; simp
    rw [default_words_segs, words_segs none (ns none (.inl rfl)), words_segs (some ⟨none, none⟩) (ns _ (.inl rfl)),
      words_segs (some ⟨some [], some []⟩) (ns _ (.inr rfl))]
    refine ⟨rfl, rfl, ?_⟩
    rw [show Words.joinersSplitFunc (some ⟨some [], some []⟩) = Words.splitFunc from Words.joiners_empty]
  · intro r n max
    unfold scanner
    rw [h3]
    exact ⟨rfl, rfl, rfl⟩

/-- A character is in one list of joiners if and only if it is in the other. -/
def Agree (runes runes' : Option (List Int)) (c : Char) : Prop :=
  runes.any (fun rs => decide ((c.val.toNat : Int) ∈ rs)) = runes'.any (fun rs => decide ((c.val.toNat : Int) ∈ rs))

/-- **C30** Runes that do not occur in the text can be added to or removed from the joiners without
effect: iterator and scanner give the same tokens if the joiners agree on the characters of the
text. -/
theorem C30_unused (j j' : Option Words.Joiners) (s : List Char)
    (h : ∀ c ∈ s, Agree (j.bind (·.middle)) (j'.bind (·.middle)) c
      ∧ Agree (j.bind (·.leading)) (j'.bind (·.leading)) c) :
    tokens .words j (utf8 s) = tokens .words j' (utf8 s)
    ∧ ∀ r n max, (deliver 0 r).1 = utf8 s → (utf8 s).length < max →
      Scanner.tokens (scanner .words j r n max) = Scanner.tokens (scanner .words j' r n max) := by
  have hdec := Words.wf.decodes_utf8 s
  have same : ∀ (runes runes' : Option (List Int)) (bits : Nat) (c : Char), Agree runes runes' c →
      Words.Same runes runes' bits (Words.trie.prop c, String.utf8EncodeChar c) := by
    intro runes runes' bits c hc
    unfold Words.Same
    rw [Words.joinCell_char, Words.joinCell_char, hc]
  have hP : ∀ x ∈ s.map (fun c => (Words.trie.prop c, String.utf8EncodeChar c)),
      Words.Same (j.bind (·.leading)) (j'.bind (·.leading)) Words._AHLetter x
        ∧ Words.Same (j.bind (·.middle)) (j'.bind (·.middle)) Words._MidNumLet x := by
    intro x hx
    obtain ⟨c, hc, rfl⟩ := List.mem_map.mp hx
    exact ⟨same _ _ _ _ (h c hc).2, same _ _ _ _ (h c hc).1⟩
  constructor
  · refine ((tokens_eq .words j _).trans ?_).trans (tokens_eq .words j' _).symm
    congr 1
    exact segs_congr_chunks (T := Words.trie) (Iterator.goodAdv .words j) (Iterator.goodAdv .words j') _
      (fun d l t hd hdec hl => ⟨(Words.adv_at j hd hdec).2 j' hl, (Words.adv_at j hd hdec).1⟩) _ hdec hP
  · intro r n max hr hmax
    obtain ⟨ts, err, k1, k2⟩ := C16_errors .words j r n max
    obtain ⟨ts', err', k1', k2'⟩ := C16_errors .words j' r n max
    rw [hr] at k2 k2'
    rw [k1, k1']
    rcases k2 with ⟨k2, k3⟩ | ⟨_, k3, _⟩
    · rcases k2' with ⟨k2', k3'⟩ | ⟨_, k3', _⟩
      · have e1 := (splits_iff (splitOf_good .words j)).1 k2
        have e2 := (splits_iff (splitOf_good .words j')).1 k2'
        have : ts = ts' := by
          rw [e1, e2]
          exact segs_congr_chunks (T := Words.trie) (goodAdv_of_good (splitOf_good .words j))
            (goodAdv_of_good (splitOf_good .words j')) _
            (fun d l t hd hdec hl => ⟨(Words.splitAdv_at j hd hdec).2 j' hl, (Words.splitAdv_at j hd hdec).1⟩) _ hdec hP
        rw [this, k3, k3']
      · omega
    · omega

example : tokens .words (some ⟨some ['-'.toNat, '+'.toNat], some ['@'.toNat]⟩) (utf8 ['a', '-', 'b'])
    = tokens .words (some ⟨some ['-'.toNat], none⟩) (utf8 ['a', '-', 'b']) := by decide +kernel

/-- **C31** (partial: a space is not a middle joiner; see the counterexample below.) Iterator and
scanner with the same joiners yield the same tokens. -/
theorem C31_agree_partial (j : Option Words.Joiners) (hj : ∀ M, j.bind (·.middle) = some M → (0x20 : Int) ∉ M)
    (r : Reader) (n max : Nat) (hmax : (deliver 0 r).1.length < max) :
    ∃ ts, tokens .words j (deliver 0 r).1 = .ok ts
      ∧ Scanner.tokens (scanner .words j r n max) = .ok (ts, shownErr (deliver 0 r).2) := by
  obtain ⟨ts, err, k1, k2⟩ := C16_errors .words j r n max
  rcases k2 with ⟨k2, k3⟩ | ⟨_, k3, _⟩
  · refine ⟨ts, ?_, by rw [k1, k3]⟩
    rw [words_segs j hj, (splits_iff (splitOf_good .words j)).1 k2]
    rfl
  · omega

/-- With a space as a middle joiner the iterator splits "a b" at the space, the scanner does not. -/
theorem C31_space_fails :
    tokens .words (some ⟨some [0x20], none⟩) (utf8 ['a', ' ', 'b']) = .ok [utf8 ['a'], utf8 [' '], utf8 ['b']]
    ∧ Scanner.tokens (scanner .words (some ⟨some [0x20], none⟩) [(utf8 ['a', ' ', 'b'], none)] 0 100)
      = .ok ([utf8 ['a', ' ', 'b']], none) := by decide +kernel

/-! ## ASCII letters, digits and spaces -/

/-- An ASCII letter or digit. -/
def letterOrDigit (b : UInt8) : Prop :=
  (0x30 ≤ b ∧ b ≤ 0x39) ∨ (0x41 ≤ b ∧ b ≤ 0x5A) ∨ (0x61 ≤ b ∧ b ≤ 0x7A)

theorem letterOrDigit_iff (b : UInt8) : letterOrDigit b ↔ Words.isASCIIAlphanumeric b = true := by
  have := forall_uint8 (P := fun b => decide ((0x30 ≤ b ∧ b ≤ 0x39) ∨ (0x41 ≤ b ∧ b ≤ 0x5A) ∨ (0x61 ≤ b ∧ b ≤ 0x7A))
    == Words.isASCIIAlphanumeric b) (by decide +kernel) b
  rw [beq_iff_eq] at this
  rw [← this, decide_eq_true_eq]
  rfl

/-- After a space comes a letter or digit. -/
theorem joins_after_space {a b : WSet} (left right : List WSet) (ha : ∀ g, g ≠ .WSegSpace → a g = false)
    (hb : b .WSegSpace = false) (hi : b.ignorable = false) (hr : b .RegionalIndicator = false) :
    joins false (a :: left) (b :: right) = false := by
  have hai : a.ignorable = false := by simp [WSet.ignorable, ha .Extend, ha .Format, ha .ZWJ]
  have hu := units_cons_solid hai left
  rw [joins]
  rw [if_neg (by simp [ha .CR])]
  split
  · rfl
  · rw [if_neg (by simp [ha .ZWJ]), if_neg (by simp [hb]), if_neg (by simp [hi]), hu]
    simp [unitJoins, WSet.alnum, WSet.ahLetter, WSet.midLetter, WSet.midNum, WSet.midNumLetQ, hr,
      ha .ALetter, ha .HebrewLetter, ha .Numeric, ha .MidLetter, ha .MidNumLet, ha .SingleQuote, ha .DoubleQuote,
      ha .MidNum, ha .Katakana, ha .ExtendNumLet]

theorem words_spaces {run rest : Bytes} (hrun : ∀ b ∈ run, b = 0x20)
    (hrest : ∀ b, rest.head? = some b → Words.isASCIIAlphanumeric b = true) :
    splitAdv Words.splitFunc (0x20 :: run ++ rest) = 1 + run.length := by
  obtain ⟨l, t, hdec⟩ := Words.wf.decodes rest
  have hasc : ∀ x ∈ (0x20 :: run : Bytes), x.toNat < 0x80 := by
    intro x hx
    rcases List.mem_cons.mp hx with rfl | hx
    · decide
    · rw [hrun x hx]; decide
  have hdec' := Words.wf.decodes_ascii hdec (0x20 :: run) hasc
  rw [Words.follows _ _ _ (by simp) hdec']
  have hcells : run.map Words.trie.ascii = List.replicate run.length (Words.trie.ascii 0x20) := by
    rw [List.eq_replicate_iff]
    refine ⟨by simp, ?_⟩
    intro v hv
    obtain ⟨b, hb, rfl⟩ := List.mem_map.mp hv
    rw [hrun b hb]
  have hleft : ∀ i, ∃ A, (List.replicate i (Words.trie.ascii 0x20)).reverse ++ [Words.trie.ascii 0x20]
      = Words.trie.ascii 0x20 :: A := by
    intro i
    refine ⟨List.replicate i (Words.trie.ascii 0x20), ?_⟩
    rw [List.reverse_replicate, ← List.replicate_succ', List.replicate_succ]
  have hs := Words.ascii_space
  have hsp : wset (Words.trie.ascii 0x20) .WSegSpace = true := by decide +kernel
  have hgrow : grow Words.J [Words.trie.ascii 0x20] (run.map Words.trie.ascii ++ l.map Prod.fst) = run.length := by
    rw [hcells, grow_append]
    · rw [List.length_replicate]
      have : grow Words.J ((List.replicate run.length (Words.trie.ascii 0x20)).reverse ++ [Words.trie.ascii 0x20])
          (l.map Prod.fst) = 0 := by
        obtain ⟨A, hA⟩ := hleft run.length
        rw [hA]
        cases rest with
        | nil => obtain ⟨rfl, rfl⟩ := hdec.of_nil rfl; rfl
        | cons b rest =>
          obtain ⟨l2, t2, h2⟩ := Words.wf.decodes rest
          have hb := hrest b rfl
          have h3 := Words.wf.decodes_ascii h2 [b] (by
            intro x hx; rw [List.mem_singleton.mp hx]; exact (Words.ascii_alnum hb).1)
          obtain ⟨rfl, rfl⟩ := hdec.unique h3
          obtain ⟨_, k1, k2, k3, k4⟩ := Words.fastCell.ok (Words.ascii_alnum hb).2.1
          have hri : wset (Words.trie.ascii b) .RegionalIndicator = false := by
            have := forall_uint8 (P := fun b => !Words.isASCIIAlphanumeric b || !(wset (Words.trie.ascii b) .RegionalIndicator))
              (by decide +kernel) b
            simpa [hb] using this
          have : Words.J (Words.trie.ascii 0x20 :: A) (Words.trie.ascii b :: l2.map Prod.fst) = false :=
            joins_after_space _ _ hs k4 k2 hri
          simp [grow, this]
      rw [this, Nat.add_zero]
    · intro i hi
      rw [List.length_replicate] at hi
      rw [List.take_replicate, List.drop_replicate, Nat.min_eq_left (by omega)]
      obtain ⟨A, hA⟩ := hleft i
      rw [hA]
      obtain ⟨k, hk⟩ : ∃ k, run.length - i = k + 1 := ⟨run.length - i - 1, by omega⟩
      rw [hk, List.replicate_succ, List.cons_append]
      have hn : (wset (Words.trie.ascii 0x20)).newline = false := by decide +kernel
      simp only [Words.J, List.map_cons, joins, hn, hsp]
      split <;> simp
  have hf : firstChunks Prod.fst Prod.fst Words.J
      ((0x20 :: run).map (fun b => (Words.trie.ascii b, [b])) ++ l) = 1 + run.length := by
    simp only [List.map_cons, List.cons_append, firstChunks, List.map_append, List.map_map]
    rw [show (Prod.fst ∘ fun b : UInt8 => (Words.trie.ascii b, [b])) = Words.trie.ascii from rfl, hgrow]
  rw [hf]
  have ht : (if 1 + run.length = ((0x20 :: run).map (fun b => (Words.trie.ascii b, [b])) ++ l).length then t.length else 0) = 0 := by
    cases rest with
    | nil => obtain ⟨rfl, rfl⟩ := hdec.of_nil rfl; simp
    | cons b rest =>
      obtain ⟨l2, t2, h2⟩ := Words.wf.decodes rest
      have h3 := Words.wf.decodes_ascii h2 [b] (by
        intro x hx; rw [List.mem_singleton.mp hx]; exact (Words.ascii_alnum (hrest b rfl)).1)
      obtain ⟨rfl, rfl⟩ := hdec.unique h3
      rw [if_neg]
      simp
      omega
  rw [ht, show 1 + run.length = ((0x20 :: run).map (fun b => (Words.trie.ascii b, [b]))).length by simp; omega,
    List.take_left, bytes_ascii]
  simp

/-- **C41** The words of a text of ASCII letters, digits and spaces are its maximal runs of letters and
digits and its maximal runs of spaces. -/
theorem C41_runs (data : Bytes) (hd : ∀ b ∈ data, letterOrDigit b ∨ b = 0x20) :
    ∃ ws, defaultTokens .words data = .ok ws ∧ ws.flatten = data
      ∧ (∀ w ∈ ws, w ≠ [] ∧ ((∀ b ∈ w, letterOrDigit b) ∨ (∀ b ∈ w, b = 0x20)))
      ∧ ∀ A v w B, ws = A ++ v :: w :: B →
        ((∀ b ∈ v, letterOrDigit b) ∧ (∀ b ∈ w, b = 0x20)) ∨ ((∀ b ∈ v, b = 0x20) ∧ (∀ b ∈ w, letterOrDigit b)) := by
  refine ⟨_, default_words_segs data, ?_⟩
  have hg := goodAdv_of_good (Words.splitFunc_good (some ⟨none, none⟩))
  have hg : GoodAdv (splitAdv Words.splitFunc) := hg
  -- the first run
  have hrun : ∀ d : Bytes, (∀ b ∈ d, letterOrDigit b ∨ b = 0x20) → d ≠ [] → ∃ w rest, d = w ++ rest
      ∧ splitAdv Words.splitFunc d = w.length ∧ w ≠ []
      ∧ (((∀ b ∈ w, letterOrDigit b) ∧ ∀ b, rest.head? = some b → b = 0x20)
        ∨ ((∀ b ∈ w, b = 0x20) ∧ ∀ b, rest.head? = some b → letterOrDigit b)) := by
    intro d hd hne
    obtain ⟨b, d, rfl⟩ := List.exists_cons_of_ne_nil hne
    rcases hd b List.mem_cons_self with hb | rfl
    · obtain ⟨run, rest, rfl, _, h3, h4⟩ := countWhile_split Words.isASCIIAlphanumeric d
      refine ⟨b :: run, rest, rfl, ?_, by simp, .inl ⟨?_, ?_⟩⟩
      · have := Words.splitAdv_run (some ⟨none, none⟩) (fun _ h => by cases h) ((letterOrDigit_iff b).1 hb) h3 (rest := rest) (by
          cases rest with
          | nil => exact .inl rfl
          | cons c rest =>
            right
            rcases hd c (by simp) with h | h
            · have := h4 c rfl
              rw [(letterOrDigit_iff c).1 h] at this; cases this
            · rw [h]; rfl)
        rw [show splitAdv Words.splitFunc (b :: (run ++ rest)) = _ from this]
        simp; omega
      · intro x hx
        rcases List.mem_cons.mp hx with rfl | hx
        · exact hb
        · exact (letterOrDigit_iff x).2 (h3 x hx)
      · intro c hc
        rcases hd c (by
          obtain ⟨r, rfl⟩ : ∃ r, rest = c :: r := by
            cases rest with
            | nil => simp at hc
            | cons x r => simp at hc; exact ⟨r, by rw [hc]⟩
          simp) with h | h
        · have := h4 c hc
          rw [(letterOrDigit_iff c).1 h] at this; cases this
        · exact h
    · obtain ⟨run, rest, rfl, _, h3, h4⟩ := countWhile_split (· == 0x20) d
      have h3' : ∀ x ∈ run, x = 0x20 := fun x hx => by simpa using h3 x hx
      have h4' : ∀ c, rest.head? = some c → letterOrDigit c := by
        intro c hc
        rcases hd c (by
          obtain ⟨r, rfl⟩ : ∃ r, rest = c :: r := by
            cases rest with
            | nil => simp at hc
            | cons x r => simp at hc; exact ⟨r, by rw [hc]⟩
          simp) with h | h
        · exact h
        · have := h4 c hc
          rw [h] at this; simp at this
      refine ⟨0x20 :: run, rest, rfl, ?_, by simp, .inr ⟨?_, h4'⟩⟩
      · have := words_spaces h3' (fun c hc => (letterOrDigit_iff c).1 (h4' c hc))
        rw [show splitAdv Words.splitFunc (0x20 :: (run ++ rest)) = _ from this]
        simp; omega
      · intro x hx
        rcases List.mem_cons.mp hx with rfl | hx
        · rfl
        · exact h3' x hx
  have hex : ∀ b, letterOrDigit b → b = 0x20 → False := by
    intro b h1 h2
    subst h2
    rw [letterOrDigit_iff] at h1
    exact absurd h1 (by decide)
  refine ⟨hg.segs_flatten data, ?_⟩
  induction data using hg.induction with
  | hnil => simp [segs_nil]
  | hcons d hne ih =>
    obtain ⟨w, rest, rfl, hadv, hw, hk⟩ := hrun d hd hne
    rw [hadv, List.drop_left] at ih
    have hrd : ∀ b ∈ rest, letterOrDigit b ∨ b = 0x20 := fun b hb => hd b (List.mem_append_right _ hb)
    obtain ⟨ih1, ih2⟩ := ih hrd
    rw [hg.segs_cons hne, hadv, List.take_left, List.drop_left]
    constructor
    · intro v hv
      rcases List.mem_cons.mp hv with rfl | hv
      · exact ⟨hw, hk.imp (·.1) (·.1)⟩
      · exact ih1 v hv
    · intro A v u B hAB
      cases A with
      | cons a A =>
        simp only [List.cons_append, List.cons.injEq] at hAB
        exact ih2 A v u B hAB.2
      | nil =>
        simp only [List.nil_append, List.cons.injEq] at hAB
        obtain ⟨rfl, hu⟩ := hAB
        have hum := ih1 u (by rw [hu]; simp)
        obtain ⟨c, u', rfl⟩ := List.exists_cons_of_ne_nil hum.1
        have hrest : rest.head? = some c := by
          have := hg.segs_flatten rest
          rw [hu, List.flatten_cons] at this
          rw [← this]; rfl
        rcases hk with ⟨k1, k2⟩ | ⟨k1, k2⟩
        · refine .inl ⟨k1, ?_⟩
          rcases hum.2 with h | h
          · exact (hex c (h c List.mem_cons_self) (k2 c hrest)).elim
          · exact h
        · refine .inr ⟨k1, ?_⟩
          rcases hum.2 with h | h
          · exact h
          · exact (hex c (k2 c hrest) (h c List.mem_cons_self)).elim

-- "a1  b"
example : defaultTokens .words [0x61, 0x31, 0x20, 0x20, 0x62] = .ok [[0x61, 0x31], [0x20, 0x20], [0x62]] := by
  decide +kernel

end Uax29
