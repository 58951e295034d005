import Verif.Proofs.JoinersExact
import Verif.Props.Words
import Verif.Props.Filter
import Verif.Props.Scanner
/-! # Property C50: what joiners do, for all joiners and all bytes -/
namespace Uax29
open Spec

/-- The runes of the ill-formed pieces are U+FFFD for `DecodeRune`. -/
def Decoded (p : Piece) : Prop := (Utf8.decodeRune p.bytes).1 = p.rune

theorem Spec.Pieces.decoded {d t : Bytes} {ps : List Piece} (h : Pieces d ps t) : ∀ p ∈ ps, Decoded p := by
  induction h with
  | nil => simp
  | cut => simp
  | char c rest ih =>
    intro p hp
    rcases List.mem_cons.mp hp with rfl | hp
    · have := decodeRune_encode c []
      rw [List.append_nil] at this
      simp only [Decoded, Piece.bytes, this, Piece.rune]
    · exact ih p hp
  | bad long ill len rest ih =>
    rename_i b bs d t ps
    intro p hp
    rcases List.mem_cons.mp hp with rfl | hp
    · have := decodeRune_bad (b := b) (d := bs) (fun c e h => ill c (e ++ d) (by
        rw [h, List.append_assoc]))
      simp only [Decoded, Piece.bytes, this, Piece.rune]
      rfl
    · exact ih p hp

namespace Words

theorem wset_pieceProp (p : Piece) : wset (trie.pieceProp p) = p.wordClasses := by
  cases p with
  | char c => exact (wordClasses_eq c).symm
  | bad bs => exact wset_zero

theorem hasRune_piece (runes : Option (List Int)) {p : Piece} (h : Decoded p) :
    hasRune runes (trie.pieceChunk p) = decide (p.rune ∈ runes.getD []) := by
  unfold hasRune
  cases runes with
  | none => simp
  | some rs =>
    have : (Utf8.decodeRune (trie.pieceChunk p).2).1 = p.rune := h
    rw [Bool.eq_iff_iff]
    simp only [this, runesContain_iff, Option.getD_some, decide_eq_true_eq]

theorem joinCell_piece (M : Option (List Int)) {p : Piece} (h : Decoded p) :
    wset (joinCell M _MidNumLet (trie.pieceChunk p)) = middleClasses (M.getD []) p := by
  funext g
  rw [joinCell_eq, hasRune_piece M h]
  have e : wset (trie.pieceChunk p).1 = p.wordClasses := wset_pieceProp p
  by_cases hm : p.rune ∈ M.getD []
  · simp only [hm, decide_true, if_true, wset_or, e, middleClasses, Bool.and_true]
    congr 1
    cases g <;> decide
  · simp only [hm, decide_false, Bool.false_eq_true, if_false, e, middleClasses, Bool.and_false, Bool.or_false]

theorem startCell_piece (L : Option (List Int)) {p : Piece} (h : Decoded p) (ps : List Piece) :
    wset (startCell L (trie.pieceChunk p) (ps.map trie.pieceChunk)) = leadClasses (L.getD []) p ps.head? := by
  have e : wset (trie.pieceChunk p).1 = p.wordClasses := wset_pieceProp p
  unfold startCell leadClasses
  rw [hasRune_piece L h]
  by_cases hl : p.rune ∈ L.getD []
  case neg => simp [hl, e]
  have hn : is (trie.pieceChunk p).1 _NL = p.wordClasses.newline := by
    rw [← e]; simp [_NL, is_or, WSet.newline, wset, wbBit]
  simp only [hl, decide_true, Bool.not_true, Bool.false_eq_true, if_false, not_true, is_ignore, e, hn]
  have ha : ((ps.map trie.pieceChunk).head?.any fun y => is y.1 (_Numeric ||| _AHLetter))
      = ps.head?.any fun q => q.wordClasses.alnum false := by
    cases ps with
    | nil => rfl
    | cons q ps =>
      simp only [List.map_cons, List.head?_cons, Option.any_some]
      have : wset (trie.pieceChunk q).1 = q.wordClasses := wset_pieceProp q
      rw [← this]
      simp [is_or, _AHLetter, WSet.alnum, WSet.ahLetter, wset, wbBit, Bool.or_comm]
  rw [ha]
  split
  · exact e
  split
  · split
    · funext g; cases g <;> decide
    · exact e
  · funext g
    rw [wset_or, e, Bool.or_assoc]
    congr 1
    cases g <;> decide

theorem joinedWord {j : Option Joiners} {g rest : List Piece} (hg : g ≠ []) (hd : ∀ p ∈ g ++ rest, Decoded p)
    (h : g.length = firstPieces (j.bind (·.middle)) (j.bind (·.leading)) (g ++ rest)) :
    JoinedWord ((j.bind (·.middle)).getD []) ((j.bind (·.leading)).getD []) g rest := by
  obtain ⟨p, g, rfl⟩ := List.exists_cons_of_ne_nil hg
  rw [List.cons_append] at h hd
  generalize hM : j.bind (·.middle) = M at *
  generalize hL : j.bind (·.leading) = L at *
  let c0 := startCell L (trie.pieceChunk p) ((g ++ rest).map trie.pieceChunk)
  let cells := (g ++ rest).map fun q => joinCell M _MidNumLet (trie.pieceChunk q)
  have hcs : joinedClasses (M.getD []) (L.getD []) (p :: g ++ rest) = (c0 :: cells).map wset := by
    rw [List.cons_append, joinedClasses, List.map_cons]
    congr 1
    · exact (startCell_piece L (hd p List.mem_cons_self) _).symm
    · simp only [cells, List.map_map]
      exact List.map_congr_left fun q hq => (joinCell_piece M (hd q (List.mem_cons_of_mem _ hq))).symm
  have hg : grow J [c0] cells = g.length := by
    simp only [firstPieces, List.length_cons] at h
    simp only [c0, cells]
    omega
  have hclen : cells.length = g.length + rest.length := by simp [cells]
  have hbreak : ∀ n, n < cells.length →
      wordBreak (((c0 :: cells).map wset).take (n + 1)) (((c0 :: cells).map wset).drop (n + 1))
        = !J ((cells.take n).reverse ++ [c0]) (cells.drop n) := by
    intro n hn
    rw [← List.map_take, ← List.map_drop, wordBreak_eq (by simp) (by simpa using hn), J]
    simp [List.map_reverse]
  unfold JoinedWord
  rw [hcs]
  constructor
  · intro n hn hlt
    obtain ⟨n, rfl⟩ : ∃ m, n = m + 1 := ⟨n - 1, by omega⟩
    rw [List.length_cons] at hlt
    rw [hbreak n (by omega), grow_join (J := J) (right := cells) (left := [c0]) (i := n) (by omega)]
    rfl
  · intro hrest
    have := List.length_pos_iff.mpr hrest
    have hs := grow_stop (J := J) (right := cells) (left := [c0]) (by omega)
    rw [hg] at hs
    rw [List.length_cons, hbreak _ (by omega), hs]
    rfl

end Words

/-- **C50** The split function with joiners, on arbitrary bytes: each word is the first one of what is
left, by the word rules in which runes of the middle joiners count as MidNumLet after the first one,
and runes of the leading joiners as AHLetter at the start, with the exceptions of `leadClasses`; bytes
that are no encoding have no property and are U+FFFD for the joiners. -/
theorem C50_split (j : Option Words.Joiners) (data : Bytes) :
    ∃ ps t gs, Pieces data ps t ∧ Splits (Words.joinersSplitFunc j) data (tokenBytes t gs)
      ∧ gs.flatten = ps ∧ (∀ g ∈ gs, g ≠ [])
      ∧ ∀ A g B, gs = A ++ g :: B →
        JoinedWord ((j.bind (·.middle)).getD []) ((j.bind (·.leading)).getD []) g B.flatten := by
  obtain ⟨l, t, hdec⟩ := Words.wf.decodes data
  obtain ⟨ps, hp, -⟩ := hdec.pieces Words.wf Words.strict
  obtain ⟨gs, h1, h2, h3, h4⟩ := segs_first_pieces (goodAdv_of_good (Words.splitFunc_good j))
    (Words.firstPieces (j.bind (·.middle)) (j.bind (·.leading))) (Words.firstPieces_le _ _) (t := t)
    (fun d ps hd hp => Words.adv_pieces j hd hp) hp
  refine ⟨ps, t, gs, hp, (splits_iff (Words.splitFunc_good _)).2 h1.symm, h2, h3, ?_⟩
  intro A g B hAB
  refine Words.joinedWord (h3 g (by rw [hAB]; simp)) ?_ (h4 A g B hAB)
  intro p hpm
  refine hp.decoded p ?_
  rw [← h2, hAB]
  simp only [List.flatten_append, List.flatten_cons]
  exact List.mem_append_right _ hpm

/-- The encodings of the ASCII letters and digits. -/
theorem encode_alnum {b : UInt8} (h : Words.isASCIIAlphanumeric b = true) :
    String.utf8EncodeChar (Char.ofNat b.toNat) = [b] ∧ (Char.ofNat b.toNat).isAlphanum = true := by
  have := forall_uint8 (P := fun b => !Words.isASCIIAlphanumeric b
    || (String.utf8EncodeChar (Char.ofNat b.toNat) == [b] && (Char.ofNat b.toNat).isAlphanum)) (by decide +kernel) b
  rw [h] at this
  simpa using this

theorem alnum_encode {c : Char} (h : c.isAlphanum = true) :
    ∃ b, String.utf8EncodeChar c = [b] ∧ Words.isASCIIAlphanumeric b = true := by
  have hc : c.toNat < 128 := by
    simp only [Char.isAlphanum, Char.isAlpha, Char.isUpper, Char.isLower, Char.isDigit, Bool.or_eq_true,
      Bool.and_eq_true, decide_eq_true_eq, UInt32.le_iff_toNat_le, ge_iff_le] at h
    have : c.toNat = c.val.toNat := rfl
    simp at h
    omega
  have : ∀ n, n < 128 → (Char.ofNat n).isAlphanum = true →
      Words.isASCIIAlphanumeric (UInt8.ofNat n) = true ∧ String.utf8EncodeChar (Char.ofNat n) = [UInt8.ofNat n] := by
    decide +kernel
  have := this c.toNat hc
  rw [Char.ofNat_toNat] at this
  exact ⟨_, (this h).2, (this h).1⟩

theorem Spec.Pieces.alnum {run rest : Bytes} (h : ∀ b ∈ run, Words.isASCIIAlphanumeric b = true) {ps : List Piece}
    {t : Bytes} (hp : Pieces rest ps t) :
    Pieces (run ++ rest) (run.map (fun b => Piece.char (Char.ofNat b.toNat)) ++ ps) t := by
  induction run with
  | nil => exact hp
  | cons b run ih =>
    have h1 := (encode_alnum (h b List.mem_cons_self)).1
    have := Pieces.char (Char.ofNat b.toNat) (ih fun x hx => h x (List.mem_cons_of_mem _ hx))
    rw [h1] at this
    exact this

/-- The fast path of the iterator, on pieces. -/
theorem adv_fastWord (split : SplitFn) {d t : Bytes} {ps : List Piece} (hp : Pieces d ps t) (hd : d ≠ []) :
    Words.adv split d = match fastWord t ps with
      | some n => ((ps.take n).flatMap Piece.bytes).length
      | none => splitAdv split d := by
  obtain ⟨run, rest, rfl, h2, h3, h4⟩ := countWhile_split Words.isASCIIAlphanumeric d
  obtain ⟨l, t', hdec⟩ := Words.wf.decodes rest
  obtain ⟨ps', hp', -⟩ := hdec.pieces Words.wf Words.strict
  obtain ⟨rfl, rfl⟩ := hp.unique (hp'.alnum h3)
  have hflat := hp'.flatten
  have htw : (run.map (fun b => Piece.char (Char.ofNat b.toNat)) ++ ps').takeWhile Piece.asciiAlnum
      = run.map (fun b => Piece.char (Char.ofNat b.toNat)) := by
    rw [List.takeWhile_append_of_pos]
    · have : ps'.takeWhile Piece.asciiAlnum = [] := by
        cases ps' with
        | nil => rfl
        | cons p ps' =>
          rw [List.takeWhile_cons]
          cases p with
          | bad bs => rfl
          | char c =>
            cases hc : c.isAlphanum with
            | false => simp [Piece.asciiAlnum, hc]
            | true =>
              obtain ⟨b, e1, e2⟩ := alnum_encode hc
              have := h4 b (by
                rw [← hflat]
                simp [Piece.bytes, e1])
              rw [e2] at this
              cases this
      rw [this, List.append_nil]
    · intro p hpm
      obtain ⟨b, hb, rfl⟩ := List.mem_map.mp hpm
      exact (encode_alnum (h3 b hb)).2
  have hbytes : (run.map (fun b => Piece.char (Char.ofNat b.toNat))).flatMap Piece.bytes = run := by
    clear h2 hp htw hd
    induction run with
    | nil => rfl
    | cons b run ih =>
      rw [List.map_cons, List.flatMap_cons, ih fun x hx => h3 x (List.mem_cons_of_mem _ hx)]
      simp [Piece.bytes, (encode_alnum (h3 b List.mem_cons_self)).1]
  have hfw : fastWord t (run.map (fun b => Piece.char (Char.ofNat b.toNat)) ++ ps')
      = if run ≠ [] ∧ (rest = [] ∨ rest.head? = some 0x20) then some run.length else none := by
    unfold fastWord
    simp only [htw, List.length_map]
    rw [show run.length = (run.map (fun b => Piece.char (Char.ofNat b.toNat))).length by simp, List.drop_left, hflat]
    simp only [List.length_map, ne_eq, List.length_eq_zero_iff]
  rw [hfw]
  cases run with
  | nil =>
    rw [if_neg (by simp)]
    obtain ⟨b, rest, rfl⟩ := List.exists_cons_of_ne_nil (l := rest) (by simpa using hd)
    have := h4 b rfl
    simp [Words.adv, this]
  | cons b run =>
    have hb := h3 b List.mem_cons_self
    have h2' : 1 + countWhile Words.isASCIIAlphanumeric (run ++ rest) = (b :: run).length := by
      rw [List.cons_append, countWhile, if_pos hb] at h2
      omega
    rw [List.cons_append, Words.adv, if_pos hb]
    simp only [h2']
    by_cases hc : rest = [] ∨ rest.head? = some 0x20
    · rw [if_pos (c := b :: run ≠ [] ∧ _) ⟨by simp, hc⟩, if_pos]
      · simp only
        rw [show (b :: run).length = ((b :: run).map (fun b => Piece.char (Char.ofNat b.toNat))).length by simp,
          List.take_left, hbytes, List.length_map]
      · rcases hc with rfl | hc
        · simp
        · rw [Bool.or_eq_true]
          right
          rw [← List.cons_append, List.getElem?_append_right (Nat.le_refl _), Nat.sub_self, ← List.head?_eq_getElem?, hc]
          rfl
    · rw [if_neg (c := b :: run ≠ [] ∧ _) (fun h => hc h.2), if_neg]
      intro h
      rw [Bool.or_eq_true] at h
      rcases h with h | h
      · simp at h
        exact hc (.inl (List.eq_nil_of_length_eq_zero (by omega)))
      · rw [← List.cons_append, List.getElem?_append_right (Nat.le_refl _), Nat.sub_self, ← List.head?_eq_getElem?] at h
        exact hc (.inr (by simpa using h))

/-- The bytes at the end do not begin with a space. -/
theorem Spec.Pieces.tail_head {d t : Bytes} {ps : List Piece} (h : Pieces d ps t) : t.head? ≠ some 0x20 := by
  induction h with
  | nil => simp
  | cut short =>
    rename_i b rest
    intro hb
    simp only [List.head?_cons, Option.some.injEq] at hb
    subst hb
    have : announced 0x20 = 1 := by decide
    omega
  | char _ _ ih => exact ih
  | bad _ _ _ _ ih => exact ih

theorem fastWord_le {t : Bytes} {ps : List Piece} {n : Nat} (h : fastWord t ps = some n) : 0 < n ∧ n ≤ ps.length
    ∧ (n = ps.length → t.head? ≠ some 0x20 → t = []) := by
  unfold fastWord at h
  simp only at h
  split at h
  · rename_i hc
    cases h
    refine ⟨Nat.pos_of_ne_zero hc.1, (List.takeWhile_prefix _).length_le, ?_⟩
    intro hl ht
    rw [hl, List.drop_length, List.flatMap_nil, List.nil_append] at hc
    rcases hc.2 with hc | hc
    · exact hc
    · exact absurd hc ht
  · cases h

/-- **C50** The iterator with joiners, on arbitrary bytes: a word is the ASCII letters and digits that
are next if nothing or a space follows them, and otherwise the first one by the rules of `C50_split`.
(`C31_agree_partial` says when this makes no difference.) -/
theorem C50_iterator (j : Option Words.Joiners) (data : Bytes) :
    ∃ ps t gs, Pieces data ps t ∧ tokens .words j data = .ok (tokenBytes t gs)
      ∧ gs.flatten = ps ∧ (∀ g ∈ gs, g ≠ [])
      ∧ ∀ A g B, gs = A ++ g :: B →
        fastWord t (g ++ B.flatten) = some g.length
        ∨ fastWord t (g ++ B.flatten) = none
          ∧ JoinedWord ((j.bind (·.middle)).getD []) ((j.bind (·.leading)).getD []) g B.flatten := by
  obtain ⟨l, t, hdec⟩ := Words.wf.decodes data
  obtain ⟨ps, hp, -⟩ := hdec.pieces Words.wf Words.strict
  let n : List Piece → Nat := fun ps => (fastWord t ps).getD
    (Words.firstPieces (j.bind (·.middle)) (j.bind (·.leading)) ps)
  obtain ⟨gs, h1, h2, h3, h4⟩ := segs_first_pieces (Iterator.goodAdv .words j) n (by
      intro ps hps
      cases hf : fastWord t ps with
      | none => simpa [n, hf] using Words.firstPieces_le _ _ ps hps
      | some m => simpa [n, hf] using ⟨(fastWord_le hf).1, (fastWord_le hf).2.1⟩) (t := t) (by
      intro d ps hd hp
      refine (adv_fastWord (Words.joinersSplitFunc j) hp hd).trans ?_
      cases hf : fastWord t ps with
      | none => simpa [n, hf] using Words.adv_pieces j hd hp
      | some m =>
        have := (fastWord_le hf).2.2
        simp only [n, hf, Option.getD_some]
        split
        · rename_i hm
          rw [this hm hp.tail_head]; rfl
        · rfl) hp
  refine ⟨ps, t, gs, hp, (tokens_eq .words j data).trans (congrArg _ h1), h2, h3, ?_⟩
  intro A g B hAB
  have hlen := h4 A g B hAB
  cases hf : fastWord t (g ++ B.flatten) with
  | some m =>
    simp only [n, hf, Option.getD_some] at hlen
    rw [hlen]
    exact .inl rfl
  | none =>
    simp only [n, hf, Option.getD_none] at hlen
    refine .inr ⟨rfl, Words.joinedWord (h3 g (by rw [hAB]; simp)) ?_ hlen⟩
    intro p hpm
    refine hp.decoded p ?_
    rw [← h2, hAB]
    simp only [List.flatten_append, List.flatten_cons]
    exact List.mem_append_right _ hpm

/-- **C50** The scanner with joiners gives the words of `C50_split` for the bytes that the reader
delivers, if they are fewer than the limit. -/
theorem C50_scanner (j : Option Words.Joiners) (r : Scanner.Reader) (n max : Nat) (h : (deliver 0 r).1.length < max) :
    ∃ ps t gs, Pieces (deliver 0 r).1 ps t
      ∧ Scanner.tokens (scanner .words j r n max) = .ok (tokenBytes t gs, shownErr (deliver 0 r).2)
      ∧ gs.flatten = ps ∧ (∀ g ∈ gs, g ≠ [])
      ∧ ∀ A g B, gs = A ++ g :: B →
        JoinedWord ((j.bind (·.middle)).getD []) ((j.bind (·.leading)).getD []) g B.flatten := by
  obtain ⟨ps, t, gs, h1, h2, h3, h4, h5⟩ := C50_split j (deliver 0 r).1
  obtain ⟨ts, err, k1, k2⟩ := C16_errors .words j r n max
  refine ⟨ps, t, gs, h1, ?_, h3, h4, h5⟩
  rcases k2 with ⟨k2, k3⟩ | ⟨_, k3, _⟩
  · rw [k1, k2.unique h2, k3]
  · omega

-- a newline as a leading joiner is joined with a letter, and is a newline before anything else
example : tokens .words (some ⟨none, some ['\n'.toNat]⟩) (utf8 ['\n', 'a', '\n', '-', '\n'])
    = .ok [utf8 ['\n', 'a'], utf8 ['\n'], utf8 ['-'], utf8 ['\n']] := by decide +kernel
-- U+FFFD as a middle joiner joins letters with ill-formed bytes between them
example : tokens .words (some ⟨some [0xFFFD], none⟩) [0x61, 0xFF, 0x62, 0xFF] = .ok [[0x61, 0xFF, 0x62], [0xFF]] := by
  decide +kernel
example : JoinedWord [0xFFFD] [] [.char 'a', .bad [0xFF], .char 'b'] [.bad [0xFF]] := by
  constructor
  · intro n h1 h2
    have : n = 1 ∨ n = 2 := by simp at h2; omega
    rcases this with rfl | rfl <;> decide +kernel
  · intro _; decide +kernel
-- a space as a middle joiner counts after a letter that is not ASCII only
example : tokens .words (some ⟨some [0x20], none⟩) (utf8 ['a', ' ', 'b', ' ', 'é', ' ', 'c'])
    = .ok [utf8 ['a'], utf8 [' '], utf8 ['b'], utf8 [' '], utf8 ['é', ' ', 'c']] := by decide +kernel
example : fastWord [] [.char 'a', .char ' ', .char 'b'] = some 1 ∧ fastWord [] [.char 'é', .char ' ', .char 'c'] = none
    ∧ fastWord [] [.char 'a', .char '-'] = none ∧ fastWord [0xF0] [.char 'a'] = none := by decide +kernel
-- both kinds at once
example : tokens .words (some ⟨some ['-'.toNat], some ['#'.toNat]⟩) (utf8 ['#', 'a', '-', 'b', '-', '#'])
    = .ok [utf8 ['#', 'a', '-', 'b'], utf8 ['-'], utf8 ['#']] := by decide +kernel

end Uax29
