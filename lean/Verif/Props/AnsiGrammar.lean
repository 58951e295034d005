import Verif.Spec.AnsiGrammar
import Verif.Props.Ansi
import Verif.Props.GrammarBytes
/-! # Graphemes with the options for escape sequences, by a grammar: C97 -/
namespace Uax29
open Spec

theorem Spec.EscapesAndClusters.unique {s : List Char} {ts us : List (List Char)} (h : EscapesAndClusters s ts)
    (h' : EscapesAndClusters s us) : ts = us := by
  have nonempty : ∀ {e rest : List Char}, Escape7 (utf8 e) (utf8 rest) → e ≠ [] := by
    rintro e rest he rfl
    obtain ⟨b, e', h⟩ := Graphemes.Escape7.head he
    cases h
  induction h generalizing us with
  | nil =>
    generalize hs : ([] : List Char) = s at h'
    cases h' with
    | nil => rfl
    | escape he hrest =>
      rw [(List.append_eq_nil_iff.mp hs.symm).1] at he
      exact absurd rfl (nonempty he)
    | cluster hno ht hne => exact absurd (List.append_eq_nil_iff.mp hs.symm).1 hne
  | @escape e rest ts he hrest ih =>
    generalize hs : e ++ rest = s at h'
    cases h' with
    | nil => rw [(List.append_eq_nil_iff.mp hs).1] at he; exact absurd rfl (nonempty he)
    | @escape e' rest' us he' hrest' =>
      obtain ⟨h1, h2⟩ := C24_unique (by rw [← utf8_append, ← utf8_append, hs]) he he'
      obtain rfl := utf8_inj h1
      obtain rfl := utf8_inj h2
      rw [ih hrest']
    | cluster hno => exact absurd he (hno _ _ (by rw [← hs, utf8_append]))
  | @cluster t rest ts hno ht hne hmax hrest ih =>
    generalize hs : t ++ rest = s at h'
    cases h' with
    | nil => exact absurd (List.append_eq_nil_iff.mp hs).1 hne
    | escape he' => exact absurd he' (hno _ _ (by rw [hs, utf8_append]))
    | @cluster t' rest' us hno' ht' hne' hmax' hrest' =>
      have h1 : t' <+: t := hmax t' ht' ⟨rest', hs.symm⟩
      have h2 : t <+: t' := hmax' t ht ⟨rest, hs⟩
      obtain rfl := h1.eq_of_length_le h2.length_le
      rw [List.append_cancel_left hs] at ih
      rw [ih hrest']

/-- **C97** With the option for 7-bit escape sequences the graphemes of a text in UTF-8 are its escape sequences, and between these the
longest matches of the regular expression. (The option for 8-bit ones makes no difference to such a text, C26.) -/
theorem C97_ansi (b8 : Bool) (s : List Char) (ts : List (List Char)) :
    tokens .graphemes ⟨true, b8⟩ (utf8 s) = .ok (ts.map utf8) ↔ EscapesAndClusters s ts := by
  rw [C26_eight]
  have key : ∀ (ts : List (List Char)) (s : List Char), tokens .graphemes ⟨true, false⟩ (utf8 s) = .ok (ts.map utf8) →
      EscapesAndClusters s ts := by
    intro ts
    induction ts with
    | nil =>
      intro s h
      obtain ⟨us, k1, k2, -⟩ := C01_lossless .graphemes ⟨true, false⟩ (utf8 s)
      rw [h] at k1
      rw [← Except.ok.inj k1] at k2
      obtain rfl : [] = s := utf8_inj k2
      exact .nil
    | cons t ts ih =>
      intro s h
      obtain ⟨us, k1, k2, k3⟩ := C01_lossless .graphemes ⟨true, false⟩ (utf8 s)
      rw [h] at k1
      obtain rfl := Except.ok.inj k1
      have hne : t ≠ [] := by
        rintro rfl
        exact k3 (utf8 []) (by simp) rfl
      rw [utf8_flatten] at k2
      obtain rfl := utf8_inj k2
      rw [List.flatten_cons] at h ⊢
      have hg := Iterator.goodAdv .graphemes ⟨true, false⟩
      have hd : utf8 (t ++ ts.flatten) ≠ [] := fun e => hne (List.append_eq_nil_iff.mp (utf8_inj (e.trans (rfl : [] = utf8 [])))).1
      have hs := Except.ok.inj ((tokens_eq .graphemes ⟨true, false⟩ _).symm.trans h)
      rw [hg.segs_cons hd] at hs
      obtain ⟨hs1, hs2⟩ := List.cons.inj hs
      have hlen : Graphemes.adv ⟨true, false⟩ Graphemes.splitFunc (utf8 (t ++ ts.flatten)) = (utf8 t).length := by
        have hle := hg.le (utf8 (t ++ ts.flatten)) hd
        have := congrArg List.length hs1
        rw [List.length_take, Nat.min_eq_left hle] at this
        exact this
      have hrest := ih ts.flatten (by
        refine (tokens_eq .graphemes ⟨true, false⟩ _).trans ?_
        rw [← hs2]
        have e : (utf8 (t ++ ts.flatten)).drop (Graphemes.adv ⟨true, false⟩ Graphemes.splitFunc (utf8 (t ++ ts.flatten))) = utf8 ts.flatten := by
          rw [hlen, utf8_append, List.drop_left]
        exact congrArg (fun d => Except.ok (segs _ d)) e.symm)
      by_cases hesc : beginsEscape true false (utf8 (t ++ ts.flatten))
      · obtain ⟨e, v, hev, ⟨-, he⟩ | ⟨h0, -⟩⟩ := hesc
        · rw [hev, Graphemes.adv_escape7 rfl he] at hlen
          rw [utf8_append] at hev
          obtain ⟨rfl, rfl⟩ := List.append_inj hev hlen.symm
          exact .escape he hrest
        · cases h0
      · obtain ⟨us, l1, l2⟩ := C97_graphemes (t ++ ts.flatten)
        cases us with
        | nil =>
          generalize hx : t ++ ts.flatten = x at l2
          cases l2
          exact absurd (List.append_eq_nil_iff.mp hx).1 hne
        | cons u us =>
          have hg0 := Iterator.goodAdv .graphemes ({} : Graphemes.Options)
          have h0 := Except.ok.inj ((tokens_eq .graphemes ({} : Graphemes.Options) _).symm.trans l1)
          rw [hg0.segs_cons hd] at h0
          have e0 : Iterator.advOf .graphemes ({} : Graphemes.Options) (utf8 (t ++ ts.flatten)) = (utf8 t).length := by
            refine (Graphemes.adv_off _).trans ?_
            rw [← hlen]
            exact (Graphemes.adv_noEscape (o := ⟨true, false⟩) hesc).symm
          have hu : u = t := by
            have := (List.cons.inj h0).1
            rw [e0, utf8_append, List.take_left] at this
            exact (utf8_inj this).symm
          subst hu
          generalize hx : u ++ ts.flatten = x at l2
          cases l2 with
          | @cons _ rest _ ht hne' hmax hr =>
            obtain rfl := List.append_cancel_left hx
            refine .cluster ?_ ht hne hmax hrest
            intro e v hev he
            exact hesc ⟨e, v, hev, .inl ⟨rfl, he⟩⟩
  refine ⟨key ts s, fun h => ?_⟩
  obtain ⟨us, h1, h2⟩ := C07_iterator .graphemes ⟨true, false⟩ (utf8 s) ⟨s, rfl⟩
  have : ∃ vs : List (List Char), us = vs.map utf8 := by
    clear h1
    induction us with
    | nil => exact ⟨[], rfl⟩
    | cons u us ih =>
      obtain ⟨v, hv⟩ := h2 u (by simp)
      obtain ⟨vs, hvs⟩ := ih fun t ht => h2 t (by simp [ht])
      exact ⟨v :: vs, by rw [hv, hvs]; rfl⟩
  obtain ⟨vs, rfl⟩ := this
  rw [h.unique (key vs s h1), h1]

/-! ## Arbitrary bytes -/

theorem Spec.FirstCluster.unique {d t u : Bytes} (h : FirstCluster d t) (h' : FirstCluster d u) : t = u := by
  cases h with
  | cut hd hp =>
    cases h' with
    | cut => rfl
    | pieces hp' hne' =>
      have := (hp.unique hp').1
      exact absurd (List.append_eq_nil_iff.mp this.symm).1 hne'
  | @pieces g q tail hp hne hg hmax =>
    cases h' with
    | cut hd' hp' =>
      have := (hp.unique hp').1
      exact absurd (List.append_eq_nil_iff.mp this).1 hne
    | @pieces g' q' tail' hp' hne' hg' hmax' =>
      obtain ⟨e, rfl⟩ := hp.unique hp'
      have h1 : g'.map Piece.repaired <+: g.map Piece.repaired := hmax _ hg' (by rw [e, List.map_append]; exact List.prefix_append _ _)
      have h2 : g.map Piece.repaired <+: g'.map Piece.repaired := hmax' _ hg (by rw [← e, List.map_append]; exact List.prefix_append _ _)
      have hl : g.length = g'.length := by
        have h1 := h1.length_le
        have h2 := h2.length_le
        simp only [List.length_map] at h1 h2
        omega
      obtain ⟨rfl, rfl⟩ := List.append_inj e hl
      rfl

/-- The first grapheme of a text without options. -/
theorem firstCluster_of {d t : Bytes} {ts : List Bytes} (h : defaultTokens .graphemes d = .ok (t :: ts)) : FirstCluster d t := by
  obtain ⟨ps, tail, gs, h0, h1, rfl, h3, h4⟩ := C97_bytes d
  rw [h] at h1
  have h1 := Except.ok.inj h1
  cases gs with
  | nil =>
    obtain ⟨us, k1, k2, -⟩ := C01_lossless .graphemes ({} : Graphemes.Options) d
    have hd : tail ≠ [] := by
      rintro rfl
      simp [tokenBytes] at h1
    simp only [tokenBytes, hd, if_false] at h1
    obtain ⟨rfl, rfl⟩ := List.cons.inj h1
    have e : t = d := by
      have := Except.ok.inj (h.symm.trans k1)
      rw [← this] at k2
      simpa using k2
    subst e
    exact .cut hd h0
  | cons g gs =>
    have hg : FirstCluster d (g.flatMap Piece.bytes ++ if gs.flatten = [] then tail else []) := by
      generalize hx : ((g :: gs).flatten).map Piece.repaired = x at h4
      generalize hy : (g :: gs).map (·.map Piece.repaired) = y at h4
      cases h4 with
      | nil => cases hy
      | @cons t' rest ts' ht hne hmax hrest =>
        obtain ⟨rfl, rfl⟩ := List.cons.inj hy
        rw [List.flatten_cons] at h0 hx
        refine .pieces h0 (h3 g (by simp)) ht ?_
        intro u hu hpre
        rw [hx] at hpre
        exact hmax u hu hpre
    cases gs with
    | nil =>
      simp only [tokenBytes] at h1
      rw [(List.cons.inj h1).1]
      simpa using hg
    | cons g' gs =>
      simp only [tokenBytes] at h1
      rw [(List.cons.inj h1).1]
      have : g' ≠ [] := h3 g' (by simp)
      simpa [this] using hg

theorem Spec.EscapesAndClustersIn.unique {b7 b8 : Bool} {d : Bytes} {ts us : List Bytes} (h : EscapesAndClustersIn b7 b8 d ts)
    (h' : EscapesAndClustersIn b7 b8 d us) : ts = us := by
  have same : ∀ {e v e' v' : Bytes}, e ++ v = e' ++ v' → (b7 = true ∧ Escape7 e v ∨ b8 = true ∧ Escape8 e v) →
      (b7 = true ∧ Escape7 e' v' ∨ b8 = true ∧ Escape8 e' v') → e = e' ∧ v = v' := by
    rintro e v e' v' h (⟨-, h1⟩ | ⟨-, h1⟩) (⟨-, h2⟩ | ⟨-, h2⟩)
    · exact C24_unique h h1 h2
    · obtain ⟨b, x, rfl⟩ := Graphemes.Escape7.head h1
      obtain ⟨b', x', rfl, hb⟩ := Graphemes.Escape8.head h2
      have := hb.1
      rw [← (List.cons.inj h).1] at this
      exact absurd this (by decide)
    · obtain ⟨b, x, rfl⟩ := Graphemes.Escape7.head h2
      obtain ⟨b', x', rfl, hb⟩ := Graphemes.Escape8.head h1
      have := hb.1
      rw [(List.cons.inj h).1] at this
      exact absurd this (by decide)
    · exact C25_unique h h1 h2
  have nonempty : ∀ {e v : Bytes}, (b7 = true ∧ Escape7 e v ∨ b8 = true ∧ Escape8 e v) → e ≠ [] := by
    rintro e v (⟨-, h⟩ | ⟨-, h⟩) rfl
    · obtain ⟨b, x, h⟩ := Graphemes.Escape7.head h
      cases h
    · obtain ⟨b, x, h, -⟩ := Graphemes.Escape8.head h
      cases h
  have some_bytes : ∀ {t : Bytes}, FirstCluster [] t → False := by
    intro t h
    generalize hd : ([] : Bytes) = d at h
    cases h with
    | cut hne => exact hne hd.symm
    | pieces hp hne =>
      subst hd
      exact hne (List.append_eq_nil_iff.mp (hp.unique .nil).1).1
  induction h generalizing us with
  | nil =>
    generalize hs : ([] : Bytes) = s at h'
    cases h' with
    | nil => rfl
    | escape he hrest => exact absurd (List.append_eq_nil_iff.mp hs.symm).1 (nonempty he)
    | cluster hno ht => rw [← hs] at ht; exact (some_bytes ht).elim
  | @escape e rest ts he hrest ih =>
    generalize hs : e ++ rest = s at h'
    cases h' with
    | nil => exact absurd (List.append_eq_nil_iff.mp hs).1 (nonempty he)
    | @escape e' rest' us he' hrest' =>
      obtain ⟨rfl, rfl⟩ := same hs he he'
      rw [ih hrest']
    | cluster hno => exact absurd ⟨e, rest, hs.symm, he⟩ hno
  | @cluster t rest ts hno ht hrest ih =>
    generalize hs : t ++ rest = s at h'
    cases h' with
    | nil => rw [hs] at ht; exact (some_bytes ht).elim
    | @escape e' rest' us he' => exact absurd ⟨e', rest', hs, he'⟩ hno
    | @cluster t' rest' us hno' ht' hrest' =>
      rw [hs] at ht
      obtain rfl := ht.unique ht'
      obtain rfl := List.append_cancel_left hs
      rw [ih hrest']

/-- **C97** With any options, on arbitrary bytes: the graphemes are the escape sequences of the enabled kinds, and between these the
longest matches of the regular expression, with U+FFFD for every ill-formed piece. -/
theorem C97_ansi_bytes (o : Graphemes.Options) (data : Bytes) (ts : List Bytes) :
    tokens .graphemes o data = .ok ts ↔ EscapesAndClustersIn o.ansi7 o.ansi8 data ts := by
  have hg := Iterator.goodAdv .graphemes o
  have hg0 := Iterator.goodAdv .graphemes ({} : Graphemes.Options)
  have key : ∀ d : Bytes, EscapesAndClustersIn o.ansi7 o.ansi8 d (segs (Iterator.advOf .graphemes o) d) := by
    intro d
    induction d using hg.induction with
    | hnil => rw [segs_nil]; exact .nil
    | hcons d hd ih =>
      rw [hg.segs_cons hd]
      have e : d = d.take (Iterator.advOf .graphemes o d) ++ d.drop (Iterator.advOf .graphemes o d) := (List.take_append_drop _ _).symm
      by_cases hesc : beginsEscape o.ansi7 o.ansi8 d
      · obtain ⟨x, v, rfl, hx⟩ := hesc
        have hadv : Iterator.advOf .graphemes o (x ++ v) = x.length := by
          rcases hx with ⟨h7, hx⟩ | ⟨h8, hx⟩
          · exact Graphemes.adv_escape7 h7 hx
          · exact Graphemes.adv_escape8 h8 hx
        rw [hadv, List.drop_left] at ih
        rw [hadv, List.drop_left, List.take_left]
        exact .escape hx ih
      · have hadv : Iterator.advOf .graphemes o d = Iterator.advOf .graphemes ({} : Graphemes.Options) d :=
          (Graphemes.adv_noEscape hesc).trans (Graphemes.adv_off d).symm
        have hf : FirstCluster d (d.take (Iterator.advOf .graphemes o d)) := by
          rw [hadv]
          refine firstCluster_of (ts := segs (Iterator.advOf .graphemes ({} : Graphemes.Options))
              (d.drop (Iterator.advOf .graphemes ({} : Graphemes.Options) d)))
            ((tokens_eq .graphemes ({} : Graphemes.Options) d).trans ?_)
          rw [hg0.segs_cons hd]
        have := EscapesAndClustersIn.cluster (seven := o.ansi7) (eight := o.ansi8) (by rw [← e]; exact hesc) (by rw [← e]; exact hf) ih
        rwa [← e] at this
  constructor
  · intro h
    rw [← Except.ok.inj ((tokens_eq .graphemes o data).symm.trans h)]
    exact key data
  · intro h
    rw [h.unique (key data)]
    exact tokens_eq .graphemes o data

-- a color, a letter with an accent, a title that is cancelled, and an ESC that begins no sequence
example : EscapesAndClusters (chars "\x1b[31mé\x1b]ab\x18\x1b")
    [chars "\x1b[31m", chars "é", chars "\x1b]ab", ['\x18'], ['\x1b']] :=
  (C97_ansi false _ _).mp (by decide +kernel)
-- the longest matches of the regular expression alone are others
example : ¬ LongestMatches (Cluster graphemeClasses) (chars "\x1b[31m") [chars "\x1b[31m"] := by
  rw [← C97_iff]
  decide +kernel
-- an 8-bit sequence, a stray byte with an accent, a letter and a cut off encoding
example : EscapesAndClustersIn true true ([0x9B, 0x6D, 0xFF] ++ utf8 ['\u0301'] ++ [0x61, 0xE2])
    [[0x9B, 0x6D], 0xFF :: utf8 ['\u0301'], [0x61, 0xE2]] :=
  (C97_ansi_bytes ⟨true, true⟩ _ _).mp (by decide +kernel)

end Uax29
