import Verif.Proofs.Merge
import Verif.Props.Joiners
import Verif.Props.Unions
/-! # Property C63: joiners only merge words -/
namespace Uax29
open Spec

/-- If every first token ends at a boundary of the other tokens, every token does. -/
theorem merge {adv adv0 : Bytes → Nat} (h : GoodAdv adv) (h0 : GoodAdv adv0)
    (first : ∀ d t ts, segs adv d = t :: ts → Boundary (segs adv0 d) t) :
    ∀ (ts : List Bytes) (d : Bytes), segs adv d = ts → ∀ a, Boundary ts a → Boundary (segs adv0 d) a
  | [], _, _, a, ha => by
    obtain ⟨n, rfl⟩ := ha
    simpa using boundary_nil _
  | t :: ts, d, hd, a, ha => by
    rcases boundary_cons.mp ha with rfl | ⟨a', rfl, ha'⟩
    · exact boundary_nil _
    have hr := h.segs_resume d [t] ts hd
    obtain ⟨m, hm⟩ := merge h h0 first ts _ hr a' ha'
    obtain ⟨n, hn⟩ := first d t ts hd
    have hr0 := h0.segs_resume d ((segs adv0 d).take n) ((segs adv0 d).drop n) (List.take_append_drop _ _).symm
    rw [hn] at hr0
    simp only [List.flatten_cons, List.flatten_nil, List.append_nil, hr0] at hm
    refine ⟨n + m, ?_⟩
    rw [List.take_add, List.flatten_append, hn, hm]

theorem whole_boundary {ts : List Bytes} {d : Bytes} (h : ts.flatten = d) : Boundary ts d :=
  ⟨ts.length, by rw [List.take_length, h]⟩

/-- A joined word at the start of a text ends at a boundary without joiners. -/
theorem joined_first {M L : List Int} {data t : Bytes} {ps g rest : List Piece} (hp : Pieces data ps t) (hg : g ≠ [])
    (hrest : rest ≠ []) (hps : g ++ rest = ps) (hj : JoinedWord M L g rest) :
    Boundary (segs (splitAdv Words.splitFunc) data) (g.flatMap Piece.bytes) := by
  obtain ⟨ps', t', gs, k0, k1, k2, k3, k4⟩ := C42_words data
  obtain ⟨rfl, rfl⟩ := hp.unique k0
  rw [default_words_segs] at k1
  rw [Except.ok.inj k1]
  exact boundary_tokenBytes t ((k4 g rest hps.symm).mpr (wordBreak_of_joined M L hg (hj.2 hrest))) (k2.trans hps.symm) hrest

theorem scanner_first (j : Option Words.Joiners) (d t : Bytes) (ts : List Bytes)
    (h : segs (splitAdv (Words.joinersSplitFunc j)) d = t :: ts) : Boundary (segs (splitAdv Words.splitFunc) d) t := by
  have hg0 : GoodAdv (splitAdv Words.splitFunc) := goodAdv_of_good (Words.splitFunc_good none)
  obtain ⟨ps, t0, gs, h1, h2, h3, h4, h5⟩ := C50_split j d
  have h2 := (splits_iff (Words.splitFunc_good j)).1 h2
  have hfl := (goodAdv_of_good (Words.splitFunc_good j)).segs_flatten d
  rw [h] at h2 hfl
  have whole : ts = [] → Boundary (segs (splitAdv Words.splitFunc) d) t := by
    rintro rfl
    have : t = d := by simpa using hfl
    rw [this]
    exact whole_boundary (hg0.segs_flatten d)
  match gs, h2, h3, h4, h5 with
  | [], h2, _, _, _ =>
    unfold tokenBytes at h2
    by_cases ht : t0 = []
    · rw [if_pos ht] at h2
      cases h2
    · rw [if_neg ht] at h2
      exact whole (by injection h2 with _ h2; exact h2.symm)
  | [g], h2, _, _, _ => exact whole (by simp only [tokenBytes] at h2; injection h2 with _ h2; exact h2.symm)
  | g :: g' :: gs, h2, h3, h4, h5 =>
    rw [tokenBytes_cons] at h2
    injection h2 with h2 _
    rw [← h2]
    refine joined_first h1 (h4 g (by simp)) ?_ ?_ (h5 [] g (g' :: gs) rfl)
    · simp [h4 g' (by simp)]
    · rw [← h3]
      simp

theorem iterator_first (j : Option Words.Joiners) (d t : Bytes) (ts : List Bytes)
    (h : segs (Iterator.advOf .words j) d = t :: ts) : Boundary (segs (splitAdv Words.splitFunc) d) t := by
  have hg0 : GoodAdv (splitAdv Words.splitFunc) := goodAdv_of_good (Words.splitFunc_good none)
  obtain ⟨ps, t0, gs, h1, h2, h3, h4, h5⟩ := C50_iterator j d
  have h2 := Except.ok.inj ((tokens_eq .words j d).symm.trans h2)
  have hfl := (Iterator.goodAdv .words j).segs_flatten d
  rw [h] at h2 hfl
  have whole : ts = [] → Boundary (segs (splitAdv Words.splitFunc) d) t := by
    rintro rfl
    have : t = d := by simpa using hfl
    rw [this]
    exact whole_boundary (hg0.segs_flatten d)
  match gs, h2, h3, h4, h5 with
  | [], h2, _, _, _ =>
    unfold tokenBytes at h2
    by_cases ht : t0 = []
    · rw [if_pos ht] at h2
      cases h2
    · rw [if_neg ht] at h2
      exact whole (by injection h2)
  | [g], h2, _, _, _ => exact whole (by simp only [tokenBytes] at h2; injection h2)
  | g :: g' :: gs, h2, h3, h4, h5 =>
    rw [tokenBytes_cons] at h2
    injection h2 with h2 _
    rw [h2]
    have hrest : (g' :: gs).flatten ≠ [] := by simp [h4 g' (by simp)]
    have hps : g ++ (g' :: gs).flatten = ps := by rw [← h3]; simp
    rcases h5 [] g (g' :: gs) rfl with hf | ⟨_, hj⟩
    · -- the fast path is the same without joiners
      obtain ⟨ps', t', gs0, k1, k2, k3, k4, k5⟩ := C50_iterator none d
      obtain ⟨rfl, rfl⟩ := k1.unique h1
      rw [(C30_empty.2.2.2.1 d).1, default_words_segs] at k2
      rw [Except.ok.inj k2]
      cases gs0 with
      | nil =>
        rw [List.flatten_nil] at k3
        rw [← k3] at hps
        exact absurd (List.append_eq_nil_iff.mp hps).2 hrest
      | cons g0 gs0 =>
        have k6 : g0 ++ gs0.flatten = ps' := by rw [← k3]; simp
        have hlen : g0.length = g.length := by
          rcases k5 [] g0 gs0 rfl with k7 | ⟨k7, _⟩
          · rw [k6] at k7
            rw [hps, k7] at hf
            exact Option.some.inj hf
          · rw [k6] at k7
            rw [hps, k7] at hf
            cases hf
        have hgg : g0 = g := (List.append_inj (k6.trans hps.symm) hlen).1
        subst hgg
        refine boundary_tokenBytes t' ?_ (k3.trans hps.symm) hrest
        exact boundary_cons.mpr (.inr ⟨[], by simp, boundary_nil _⟩)
    · exact joined_first h1 (h4 g (by simp)) hrest hps hj

/-- **C63** for iterators: whatever the joiners and the bytes, every boundary with joiners is a boundary without them, and every
token with joiners is made up of whole words. -/
theorem C63_iterator (j : Option Words.Joiners) (data : Bytes) :
    ∃ ws js, defaultTokens .words data = .ok ws ∧ tokens .words j data = .ok js
      ∧ (∀ a, Boundary js a → Boundary ws a)
      ∧ ∃ G : List (List Bytes), G.flatten = ws ∧ G.map List.flatten = js := by
  have hg0 : GoodAdv (splitAdv Words.splitFunc) := goodAdv_of_good (Words.splitFunc_good none)
  have hB := merge (Iterator.goodAdv .words j) hg0 (iterator_first j) _ data rfl
  refine ⟨_, _, default_words_segs data, tokens_eq _ _ _, hB, unions ?_ (hg0.segs_ne_nil data) hB⟩
  rw [(Iterator.goodAdv .words j).segs_flatten, hg0.segs_flatten]

/-- **C63** for scanners: the same, whatever the reader does, if no token is longer than the buffer may become. -/
theorem C63_scanner (j : Option Words.Joiners) (r : Scanner.Reader) (n max : Nat) (h : (deliver 0 r).1.length < max) :
    ∃ ws js, defaultTokens .words (deliver 0 r).1 = .ok ws
      ∧ Scanner.tokens (scanner .words j r n max) = .ok (js, shownErr (deliver 0 r).2)
      ∧ (∀ a, Boundary js a → Boundary ws a)
      ∧ ∃ G : List (List Bytes), G.flatten = ws ∧ G.map List.flatten = js := by
  have hg0 : GoodAdv (splitAdv Words.splitFunc) := goodAdv_of_good (Words.splitFunc_good none)
  have hg := goodAdv_of_good (Words.splitFunc_good j)
  obtain ⟨ts, err, k1, k2⟩ := C16_errors .words j r n max
  rcases k2 with ⟨k2, k3⟩ | ⟨_, k3, _⟩
  · rw [(splits_iff (splitOf_good .words j)).1 k2] at k1
    have hB := merge hg hg0 (scanner_first j) _ (deliver 0 r).1 rfl
    refine ⟨_, _, default_words_segs _, by rw [k1, k3]; rfl, hB, unions ?_ (hg0.segs_ne_nil _) hB⟩
    rw [hg.segs_flatten, hg0.segs_flatten]
  · omega

-- an e-mail address: two joined words and a space, of eight words
example : tokens .words (some ⟨some ['@'.toNat, '-'.toNat], some ['#'.toNat]⟩) (utf8 "a-b@c.d #e".toList)
    = .ok [utf8 "a-b@c.d".toList, utf8 " ".toList, utf8 "#e".toList] := by decide +kernel
example : defaultTokens .words (utf8 "a-b@c.d #e".toList) = .ok [utf8 "a".toList, utf8 "-".toList, utf8 "b".toList,
    utf8 "@".toList, utf8 "c.d".toList, utf8 " ".toList, utf8 "#".toList, utf8 "e".toList] := by decide +kernel

end Uax29
