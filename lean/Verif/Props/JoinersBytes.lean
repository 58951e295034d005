import Verif.Props.Joiners
/-! # Properties C28, C29, C30 on arbitrary bytes -/
namespace Uax29
open Spec

/-- The segmentation of arbitrary bytes, and its boundaries, if the rules look at `cell` of a piece. -/
theorem Follows.contained_cell {T : Trie} (hT : T.Wf) (hs : T.Strict) {cell : Nat × Bytes → Nat}
    {J : Bool → List Nat → List Nat → Bool} {adv : Bytes → Nat} (h : Follows T cell cell J adv) (hg : GoodAdv adv)
    {P : Nat → Prop} (hP : ∀ x, T.IsValue x.1 → P (cell x)) (hr : ∀ cut, Restart P (J cut)) (data : Bytes) :
    ∃ ps t gs, Pieces data ps t ∧ segs adv data = tokenBytes t gs ∧ gs.flatten = ps ∧ (∀ g ∈ gs, g ≠ [])
      ∧ ∀ a b, ps = a ++ b → (Boundary gs a ↔
          a = [] ∨ b = [] ∨ J (!t.isEmpty) (a.map (cell ∘ T.pieceChunk)).reverse (b.map (cell ∘ T.pieceChunk)) = false) := by
  obtain ⟨l, t, hd⟩ := hT.decodes data
  obtain ⟨ps, hp, rfl⟩ := hd.pieces hT hs
  refine ⟨ps, t, greedy (fun l r => J (!t.isEmpty) (l.map (cell ∘ T.pieceChunk)) (r.map (cell ∘ T.pieceChunk))) ps, hp, ?_,
    greedy_flatten _ ps, greedy_ne_nil _ ps, ?_⟩
  · rw [h.segs_eq hg hd]
    have h1 := greedy_map T.pieceChunk (onChunks cell (J (!t.isEmpty))) ps
    have h2 : (fun (l r : List Piece) => onChunks cell (J (!t.isEmpty)) (l.map T.pieceChunk) (r.map T.pieceChunk))
        = fun l r => J (!t.isEmpty) (l.map (cell ∘ T.pieceChunk)) (r.map (cell ∘ T.pieceChunk)) := by
      funext l r
      simp only [onChunks, List.map_map]
    rw [h2] at h1
    rw [← h1, glue_pieces]
  · intro a b hab
    have hr' : Restart (fun _ : Piece => True)
        (fun l r => J (!t.isEmpty) (l.map (cell ∘ T.pieceChunk)) (r.map (cell ∘ T.pieceChunk))) := by
      intro A B C hA hB _ _ _ hj
      have hc : ∀ c, P (cell (T.pieceChunk c)) := fun c => hP _ (Trie.pieceProp_value hT c)
      have := hr _ (A.map (cell ∘ T.pieceChunk)) (B.map (cell ∘ T.pieceChunk)) (C.map (cell ∘ T.pieceChunk))
        (by simpa using hA) (by simpa using hB)
        (by simp; intro c _; exact hc c) (by simp; intro c _; exact hc c)
        (by simp; intro c _; exact hc c) (by simpa using hj)
      simpa [List.map_reverse] using this
    have := greedy_boundary hr' ps (fun _ _ => trivial) a b hab
    rw [this, List.map_reverse]

/-- **C28** On arbitrary bytes: with `Joiners{Middle: M}` a scanner that does not run out of buffer yields
the words of the rules in which every piece whose rune is in `M` counts as MidNumLet, too; the rune of
ill-formed bytes is U+FFFD. -/
theorem C28_bytes (M : List Int) (r : Scanner.Reader) (n max : Nat) (hmax : (deliver 0 r).1.length < max) :
    ∃ ps t gs, Pieces (deliver 0 r).1 ps t
      ∧ Scanner.tokens (scanner .words (some ⟨some M, none⟩) r n max) = .ok (tokenBytes t gs, shownErr (deliver 0 r).2)
      ∧ gs.flatten = ps ∧ (∀ g ∈ gs, g ≠ [])
      ∧ ∀ a b, ps = a ++ b →
        (Boundary gs a ↔ wordBreak (a.map (middleClasses M)) (b.map (middleClasses M)) = true) := by
  obtain ⟨ps, t, gs, h0, h1, h2, h3, h4⟩ := (Words.follows_middle (some M)).contained_cell Words.wf Words.strict
    (goodAdv_of_good (Words.splitFunc_good _)) (P := fun w => Words.goodCell w = true)
    (fun _ h => Words.middle_good h) (fun _ => Words.restart_middle) (deliver 0 r).1
  obtain ⟨ts, err, k1, k2⟩ := C16_errors .words (some ⟨some M, none⟩) r n max
  rcases k2 with ⟨k2, k3⟩ | ⟨_, k3, _⟩
  · refine ⟨ps, t, gs, h0, ?_, h2, h3, ?_⟩
    · rw [k1, k3, ← h1, (splits_iff (splitOf_good .words (some ⟨some M, none⟩))).1 k2]
      rfl
    · intro a b hab
      rw [h4 a b hab]
      have e : ∀ l : List Piece, (∀ p ∈ l, Decoded p) → l.map (middleClasses M)
          = (l.map (Words.joinCell (some M) Words._MidNumLet ∘ Words.trie.pieceChunk)).map wset := by
        intro l hl
        rw [List.map_map]
        exact List.map_congr_left fun p hp => (Words.joinCell_piece (some M) (hl p hp)).symm
      have hd := h0.decoded
      rw [hab] at hd
      rw [e a fun p hp => hd p (List.mem_append_left _ hp), e b fun p hp => hd p (List.mem_append_right _ hp), wordBreak,
        ← List.map_reverse, ← List.map_reverse, ← List.map_reverse]
      simp only [Words.J, List.isEmpty_map, Bool.or_eq_true, Bool.not_eq_true', List.isEmpty_iff]
      rw [or_assoc]
  · omega

-- the ill-formed byte FF is U+FFFD, as a middle joiner it joins two letters
example : Scanner.tokens (scanner .words (some ⟨some [0xFFFD], none⟩) [([0x61, 0xFF, 0x62, 0xFF], none)] 0 100)
    = .ok ([[0x61, 0xFF, 0x62], [0xFF]], none) := by decide +kernel
example : wordBreak ([.char 'a'].map (middleClasses [0xFFFD])) ([.bad [0xFF], .char 'b'].map (middleClasses [0xFFFD])) = false
    ∧ wordBreak ([.char 'a'].map (middleClasses [])) ([.bad [0xFF], .char 'b'].map (middleClasses [])) = true := by
  decide +kernel

theorem leadingPieces_eq {L : List Int} (hL : ∀ c : Char, (c.val.toNat : Int) ∈ L →
      (wordClasses c).newline = false ∧ (wordClasses c).ignorable = false) (ps : List Piece) :
    joinedClasses [] L ps = leadingPieces L ps := by
  cases ps with
  | nil => rfl
  | cons p ps =>
    simp only [joinedClasses, leadingPieces, List.cons.injEq]
    constructor
    · have hp : p.rune ∈ L → p.wordClasses.newline = false ∧ p.wordClasses.ignorable = false := by
        cases p with
        | char c => exact hL c
        | bad bs => intro _; exact ⟨rfl, rfl⟩
      funext g
      unfold leadClasses
      by_cases h : p.rune ∈ L
      · simp [h, hp h, Bool.or_assoc]
      · simp [h]
    · refine List.map_congr_left fun q _ => ?_
      funext g
      simp [middleClasses]

/-- **C29** (partial as above) On arbitrary bytes: with `Joiners{Leading: L}` each word is the first one of
the rest by the word rules in which a piece whose rune is in `L` counts as AHLetter, too, at the start. -/
theorem C29_bytes_partial (L : List Int)
    (hL : ∀ c : Char, (c.val.toNat : Int) ∈ L → (wordClasses c).newline = false ∧ (wordClasses c).ignorable = false)
    (data : Bytes) :
    ∃ ps t gs, Pieces data ps t ∧ Splits (Words.joinersSplitFunc (some ⟨none, some L⟩)) data (tokenBytes t gs)
      ∧ gs.flatten = ps
      ∧ ∀ A w B, gs = A ++ w :: B → w ≠ []
        ∧ (∀ a b, w = a ++ b → a ≠ [] → b ≠ [] →
            wordBreak (leadingPieces L a) ((b ++ B.flatten).map Piece.wordClasses) = false)
        ∧ (B ≠ [] → wordBreak (leadingPieces L w) (B.flatten.map Piece.wordClasses) = true) := by
  obtain ⟨ps, t, gs, h1, h2, h3, h4, h5⟩ := C50_split (some ⟨none, some L⟩) data
  refine ⟨ps, t, gs, h1, h2, h3, ?_⟩
  intro A w B hAB
  obtain ⟨k1, k2⟩ := h5 A w B hAB
  have hw : w ≠ [] := h4 w (by rw [hAB]; simp)
  have hM : (Option.bind (some (⟨none, some L⟩ : Words.Joiners)) (·.middle)).getD [] = [] := rfl
  have hLd : (Option.bind (some (⟨none, some L⟩ : Words.Joiners)) (·.leading)).getD [] = L := rfl
  rw [hM, hLd, leadingPieces_eq hL] at k1 k2
  have take : ∀ a b : List Piece, a ≠ [] → (leadingPieces L (a ++ b)).take a.length = leadingPieces L a
      ∧ (leadingPieces L (a ++ b)).drop a.length = b.map Piece.wordClasses := by
    intro a b ha
    obtain ⟨p, a, rfl⟩ := List.exists_cons_of_ne_nil ha
    simp [leadingPieces]
  refine ⟨hw, ?_, ?_⟩
  · intro a b hab ha hb
    subst hab
    have := k1 a.length (List.length_pos_iff.mpr ha) (by simpa using List.length_pos_iff.mpr hb)
    rw [List.append_assoc] at this
    rw [← (take a (b ++ B.flatten) ha).1, ← (take a (b ++ B.flatten) ha).2]
    exact this
  · intro hB
    have hBf : B.flatten ≠ [] := by
      obtain ⟨g, B, rfl⟩ := List.exists_cons_of_ne_nil hB
      have := h4 g (by rw [hAB]; simp)
      simp [this]
    have := k2 hBf
    rw [← (take w B.flatten hw).1, ← (take w B.flatten hw).2]
    exact this

-- U+FFFD as a leading joiner joins an ill-formed byte with the letters after it
example : tokens .words (some ⟨none, some [0xFFFD]⟩) [0xFF, 0x61, 0xFF, 0xFF] = .ok [[0xFF, 0x61], [0xFF], [0xFF]] := by
  decide +kernel
example : wordBreak (leadingPieces [0xFFFD] [.bad [0xFF]]) ([.char 'a'].map Piece.wordClasses) = false
    ∧ wordBreak (leadingPieces [] [.bad [0xFF]]) ([.char 'a'].map Piece.wordClasses) = true := by decide +kernel

/-- **C30** On arbitrary bytes: runes that do not occur in the text can be added to or removed from the
joiners without effect; U+FFFD occurs if some bytes are ill-formed. -/
theorem C30_bytes (j j' : Option Words.Joiners) (data : Bytes) (ps : List Piece) (t : Bytes) (hp : Pieces data ps t)
    (h : ∀ p ∈ ps, (p.rune ∈ (j.bind (·.middle)).getD [] ↔ p.rune ∈ (j'.bind (·.middle)).getD [])
      ∧ (p.rune ∈ (j.bind (·.leading)).getD [] ↔ p.rune ∈ (j'.bind (·.leading)).getD [])) :
    tokens .words j data = tokens .words j' data
    ∧ ∀ r n max, (deliver 0 r).1 = data → data.length < max →
      Scanner.tokens (scanner .words j r n max) = Scanner.tokens (scanner .words j' r n max) := by
  have hdec := hp.decodes Words.wf Words.strict
  have same : ∀ (runes runes' : Option (List Int)) (bits : Nat) (p : Piece), Decoded p →
      (p.rune ∈ runes.getD [] ↔ p.rune ∈ runes'.getD []) → Words.Same runes runes' bits (Words.trie.pieceChunk p) := by
    intro runes runes' bits p hd hc
    unfold Words.Same
    rw [Words.joinCell_eq, Words.joinCell_eq, Words.hasRune_piece _ hd, Words.hasRune_piece _ hd, decide_eq_decide.mpr hc]
  have hP : ∀ x ∈ ps.map Words.trie.pieceChunk,
      Words.Same (j.bind (·.leading)) (j'.bind (·.leading)) Words._AHLetter x
        ∧ Words.Same (j.bind (·.middle)) (j'.bind (·.middle)) Words._MidNumLet x := by
    intro x hx
    obtain ⟨p, hpm, rfl⟩ := List.mem_map.mp hx
    exact ⟨same _ _ _ _ (hp.decoded p hpm) (h p hpm).2, same _ _ _ _ (hp.decoded p hpm) (h p hpm).1⟩
  constructor
  · refine ((tokens_eq .words j _).trans ?_).trans (tokens_eq .words j' _).symm
    congr 1
    exact segs_congr_chunks (T := Words.trie) (Iterator.goodAdv .words j) (Iterator.goodAdv .words j') _
      (fun d l t hd hdec hl => ⟨(Words.adv_at j hd hdec).2 j' hl, (Words.adv_at j hd hdec).1⟩) _ hdec hP
  · intro r n max hr hmax
    obtain ⟨ts, err, k1, k2⟩ := C16_errors .words j r n max
    obtain ⟨ts', err', k1', k2'⟩ := C16_errors .words j' r n max
    rw [hr] at k2 k2'
    rw [k1, k1']
    rcases k2 with ⟨k2, k3⟩ | ⟨_, k3, _⟩
    · rcases k2' with ⟨k2', k3'⟩ | ⟨_, k3', _⟩
      · have e1 := (splits_iff (splitOf_good .words j)).1 k2
        have e2 := (splits_iff (splitOf_good .words j')).1 k2'
        have : ts = ts' := by
          rw [e1, e2]
          exact segs_congr_chunks (T := Words.trie) (goodAdv_of_good (splitOf_good .words j))
            (goodAdv_of_good (splitOf_good .words j')) _
            (fun d l t hd hdec hl => ⟨(Words.splitAdv_at j hd hdec).2 j' hl, (Words.splitAdv_at j hd hdec).1⟩) _ hdec hP
        rw [this, k3, k3']
      · omega
    · omega

-- U+FFFD and '+' do not occur in "a-b" with an incomplete encoding after it
example : tokens .words (some ⟨some ['-'.toNat, 0xFFFD], some ['+'.toNat]⟩) (utf8 ['a', '-', 'b'] ++ [0xE2])
    = tokens .words (some ⟨some ['-'.toNat], none⟩) (utf8 ['a', '-', 'b'] ++ [0xE2]) := by decide +kernel
example : Pieces (utf8 ['a'] ++ [0xE2]) [.char 'a'] [0xE2] := .char 'a' (.cut (by decide))

end Uax29
