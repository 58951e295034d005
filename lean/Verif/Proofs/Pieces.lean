import Verif.Spec.Pieces
import Verif.Proofs.IllFormed
import Verif.Proofs.Conform
/-! # The chunks of lookup are the pieces of the specification -/
namespace Uax29
open Spec

theorem notCont_eq (b : UInt8) : notCont b.toNat = !continuation b := by
  unfold notCont continuation
  rw [Bool.eq_iff_iff]
  have e1 : (0x80 : UInt8).toNat = 0x80 := rfl
  have e2 : (0xBF : UInt8).toNat = 0xBF := rfl
  simp only [Bool.or_eq_true, decide_eq_true_eq, Bool.not_eq_true', Bool.and_eq_false_iff, decide_eq_false_iff_not,
    UInt8.le_iff_toNat_le, e1, e2]
  omega

/-- The width that lookup gives. -/
theorem lookup_width {T : Trie} {b : UInt8} {rest : Bytes} {v w : Nat} (h : T.lookup (b :: rest) = .ok (v, w)) :
    w = if rest.length + 1 < announced b then 0 else pieceLength (b :: rest) := by
  unfold announced pieceLength announced
  simp only [UInt8.lt_iff_toNat_lt]
  have e1 : (0xC2 : UInt8).toNat = 0xC2 := rfl
  have e2 : (0xE0 : UInt8).toNat = 0xE0 := rfl
  have e3 : (0xF0 : UInt8).toNat = 0xF0 := rfl
  have e4 : (0xF8 : UInt8).toNat = 0xF8 := rfl
  rw [e1, e2, e3, e4]
  simp only [Trie.lookup] at h
  by_cases h0 : b.toNat < 0x80
  · rw [if_pos h0] at h
    have h1 : b.toNat < 194 := by omega
    rw [if_pos h1]
    split at h
    · cases h
    · cases h; simp
  rw [if_neg h0] at h
  by_cases h1 : b.toNat < 0xC2
  · rw [if_pos h1] at h ⊢
    cases h; simp
  rw [if_neg h1] at h ⊢
  by_cases h2 : b.toNat < 0xE0
  · rw [if_pos h2] at h ⊢
    cases rest with
    | nil => cases h; simp
    | cons b1 rest =>
      simp only at h
      split at h
      · cases h
      rw [notCont_eq] at h
      split at h
      · rename_i hc
        cases h
        simp_all
      · rename_i hc
        split at h
        · cases h
        · cases h
          simp_all
  rw [if_neg h2] at h ⊢
  by_cases h3 : b.toNat < 0xF0
  · rw [if_pos h3] at h ⊢
    match rest, h with
    | [], h => cases h; simp
    | [_], h => cases h; simp
    | b1 :: b2 :: rest, h =>
      simp only at h
      split at h
      · cases h
      rw [notCont_eq, notCont_eq] at h
      split at h
      · rename_i hc
        cases h
        simp_all
      rename_i hc
      split at h
      · cases h
      split at h
      · rename_i hc
        cases h
        simp_all
      split at h
      · cases h
      · cases h
        simp_all
  rw [if_neg h3] at h ⊢
  by_cases h4 : b.toNat < 0xF8
  · rw [if_pos h4] at h ⊢
    match rest, h with
    | [], h => cases h; simp
    | [_], h => cases h; simp
    | [_, _], h => cases h; simp
    | b1 :: b2 :: b3 :: rest, h =>
      simp only at h
      split at h
      · cases h
      rw [notCont_eq, notCont_eq, notCont_eq] at h
      split at h
      · rename_i hc
        cases h
        simp_all
      rename_i hc
      split at h
      · cases h
      split at h
      · rename_i hc
        cases h
        simp_all
      split at h
      · cases h
      split at h
      · rename_i hc
        cases h
        simp_all
      split at h
      · cases h
      · cases h
        simp_all
  · rw [if_neg h4] at h ⊢
    cases h; simp

/-- The table entry of a piece. -/
def Trie.pieceProp (T : Trie) : Piece → Nat := Piece.classes T.prop 0

/-- The chunk of a piece. -/
def Trie.pieceChunk (T : Trie) (p : Piece) : Nat × Bytes := (T.pieceProp p, p.bytes)

theorem Trie.pieceProp_value {T : Trie} (hT : T.Wf) (p : Piece) : T.IsValue (T.pieceProp p) := by
  cases p with
  | char c => exact hT.prop_value c
  | bad bs => exact .inl rfl

theorem Decodes.pieces {T : Trie} (hT : T.Wf) (hs : T.Strict) {d t : Bytes} {l : List (Nat × Bytes)}
    (h : Decodes T d l t) : ∃ ps, Pieces d ps t ∧ l = ps.map T.pieceChunk := by
  induction h with
  | nil => exact ⟨[], .nil, rfl⟩
  | tail ne look =>
    obtain ⟨b, rest, rfl⟩ := List.exists_cons_of_ne_nil ne
    refine ⟨[], .cut ?_, rfl⟩
    have := lookup_width look
    split at this
    · assumption
    · simp only [pieceLength] at this
      omega
  | cons ne look val rest ih =>
    rename_i bs d t v l
    obtain ⟨ps, h1, rfl⟩ := ih
    by_cases hc : ∃ c e, bs ++ d = String.utf8EncodeChar c ++ e
    · obtain ⟨c, e, hc⟩ := hc
      have h2 := hT.lookup_encode c e
      rw [← hc, look] at h2
      simp only [Except.ok.injEq, Prod.mk.injEq] at h2
      obtain ⟨rfl, rfl⟩ := List.append_inj hc h2.2
      exact ⟨.char c :: ps, .char c h1, by rw [List.map_cons, h2.1]; rfl⟩
    · have hc' : ∀ c e, bs ++ d ≠ String.utf8EncodeChar c ++ e := fun c e h => hc ⟨c, e, h⟩
      have hv : v = 0 := Classical.byContradiction fun hv => by
        obtain ⟨c, e, h⟩ := hs.lookup_ne look hv
        exact hc' c e h
      subst hv
      obtain ⟨b, bs, rfl⟩ := List.exists_cons_of_ne_nil ne
      have hw := lookup_width look
      refine ⟨.bad (b :: bs) :: ps, .bad ?_ hc' ?_ h1, rfl⟩
      · split at hw
        · simp at hw
        · rename_i h
          have e : (bs.append d).length = bs.length + d.length := List.length_append
          rw [e] at h
          simp only [List.cons_append, List.length_cons, List.length_append]
          omega
      · split at hw
        · simp at hw
        · exact hw.symm

theorem Spec.Pieces.decodes {T : Trie} (hT : T.Wf) (hs : T.Strict) {d t : Bytes} {ps : List Piece}
    (h : Pieces d ps t) : Decodes T d (ps.map T.pieceChunk) t := by
  induction h with
  | nil => exact .nil
  | cut short =>
    rename_i b rest
    obtain ⟨v, w, h1, _, _, _⟩ := hT.lookup_ok (s := b :: rest) (by simp)
    have := lookup_width h1
    rw [if_pos short] at this
    subst this
    exact .tail (by simp) h1
  | char c rest ih =>
    refine .cons ?_ (hT.lookup_encode c _) (hT.prop_value c) ih
    have := encode_pos c
    rw [← List.length_pos_iff]
    exact this
  | bad long ill len rest ih =>
    rename_i b bs d t ps
    obtain ⟨v, w, h1, _, _, _⟩ := hT.lookup_ok (s := b :: bs ++ d) (by simp)
    have hw := lookup_width h1
    rw [if_neg (by simpa using long)] at hw
    have hv : v = 0 := Classical.byContradiction fun hv => by
      obtain ⟨c, e, h⟩ := hs.lookup_ne h1 hv
      exact ill c e h
    subst hv
    change w = pieceLength (b :: bs ++ d) at hw
    rw [hw, len] at h1
    exact .cons (by simp) h1 (.inl rfl) ih

/-- There is one way to take bytes apart. -/
theorem Spec.Pieces.unique {d t t' : Bytes} {ps ps' : List Piece} (h : Pieces d ps t) (h' : Pieces d ps' t') :
    ps = ps' ∧ t = t' := by
  have hd := (h.decodes Words.wf Words.strict).unique (h'.decodes Words.wf Words.strict)
  refine ⟨?_, hd.2⟩
  have hb : ps.map Piece.bytes = ps'.map Piece.bytes := by
    have := congrArg (List.map Prod.snd) hd.1
    simpa [Trie.pieceChunk, Function.comp_def] using this
  clear hd
  induction h generalizing ps' t' with
  | nil => cases ps' with
    | nil => rfl
    | cons _ _ => simp at hb
  | cut short => cases ps' with
    | nil => rfl
    | cons _ _ => simp at hb
  | char c rest ih =>
    rename_i d t ps
    generalize hd : String.utf8EncodeChar c ++ d = dd at h'
    cases h' with
    | nil => simp at hb
    | cut => simp at hb
    | char c' rest' =>
      simp only [List.map_cons, List.cons.injEq, Piece.bytes] at hb
      have hc : c = c' := by
        have h1 := decodeRune_encode c []
        have h2 := decodeRune_encode c' []
        rw [hb.1, h2] at h1
        simp only [Prod.mk.injEq] at h1
        exact (Char.ext (UInt32.toNat_inj.mp (by simpa using h1.1))).symm
      subst hc
      have := List.append_cancel_left hd
      subst this
      rw [ih rest' hb.2]
    | bad long ill len rest' => exact absurd hd.symm (ill c d)
  | bad long ill len rest ih =>
    rename_i b bs d t ps
    generalize hd : b :: bs ++ d = dd at h'
    cases h' with
    | nil => simp at hb
    | cut => simp at hb
    | char c' rest' => exact absurd hd (ill c' _)
    | bad long' ill' len' rest' =>
      simp only [List.map_cons, List.cons.injEq, Piece.bytes] at hb
      obtain ⟨⟨rfl, rfl⟩, hb⟩ := hb
      have := List.append_cancel_left hd
      subst this
      rw [ih rest' hb]

theorem glue_pieces {T : Trie} (t : Bytes) : ∀ gs : List (List Piece),
    glue t (gs.map (·.map T.pieceChunk)) = tokenBytes t gs
  | [] => rfl
  | [g] => by simp [glue, tokenBytes, Trie.pieceChunk, List.flatMap_map]
  | g :: g' :: gs => by
    have := glue_pieces (T := T) t (g' :: gs)
    rw [tokenBytes.eq_3 t g (g' :: gs) (by simp), ← this]
    simp only [List.map_cons]
    rw [glue.eq_3 t _ _ (by simp)]
    simp [Trie.pieceChunk, List.flatMap_map]

/-- The segmentation of arbitrary bytes, and its boundaries. -/
theorem Follows.contained {T : Trie} (hT : T.Wf) (hs : T.Strict) {J : Bool → List Nat → List Nat → Bool}
    {adv : Bytes → Nat} (h : Follows T Prod.fst Prod.fst J adv) (hg : GoodAdv adv)
    (hr : ∀ cut, Restart T.IsValue (J cut)) (data : Bytes) :
    ∃ ps t gs, Pieces data ps t ∧ segs adv data = tokenBytes t gs ∧ gs.flatten = ps ∧ (∀ g ∈ gs, g ≠ [])
      ∧ ∀ a b, ps = a ++ b → (Boundary gs a ↔
          a = [] ∨ b = [] ∨ J (!t.isEmpty) (a.map T.pieceProp).reverse (b.map T.pieceProp) = false) := by
  obtain ⟨l, t, hd⟩ := hT.decodes data
  obtain ⟨ps, hp, rfl⟩ := hd.pieces hT hs
  refine ⟨ps, t, greedy (fun l r => J (!t.isEmpty) (l.map T.pieceProp) (r.map T.pieceProp)) ps, hp, ?_,
    greedy_flatten _ ps, greedy_ne_nil _ ps, ?_⟩
  · rw [h.segs_eq hg hd]
    have h1 := greedy_map T.pieceChunk (onChunks Prod.fst (J (!t.isEmpty))) ps
    have h2 : (fun (l r : List Piece) => onChunks Prod.fst (J (!t.isEmpty)) (l.map T.pieceChunk) (r.map T.pieceChunk))
        = fun l r => J (!t.isEmpty) (l.map T.pieceProp) (r.map T.pieceProp) := by
      funext l r
      simp only [onChunks, List.map_map]
      rfl
    rw [h2] at h1
    rw [← h1, glue_pieces]
  · intro a b hab
    have hr' : Restart (fun _ : Piece => True)
        (fun l r => J (!t.isEmpty) (l.map T.pieceProp) (r.map T.pieceProp)) := by
      intro A B C hA hB _ _ _ hj
      have hc : ∀ c, T.IsValue (T.pieceProp c) := Trie.pieceProp_value hT
      have := hr _ (A.map T.pieceProp) (B.map T.pieceProp) (C.map T.pieceProp)
        (by simpa using hA) (by simpa using hB)
        (by simp; intro c _; exact hc c) (by simp; intro c _; exact hc c)
        (by simp; intro c _; exact hc c) (by simpa using hj)
      simpa [List.map_reverse] using this
    have := greedy_boundary hr' ps (fun _ _ => trivial) a b hab
    rw [this, List.map_reverse]

end Uax29
