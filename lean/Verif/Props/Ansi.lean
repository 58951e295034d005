import Verif.Proofs.AnsiText
import Verif.Props.Graphemes
/-!
# Escape sequences: C24 - C27

`Spec.Escape7 e rest` and `Spec.Escape8 e rest` are the documented grammars: the text `e ++ rest` begins
with the escape sequence `e`.
-/
namespace Uax29
open Spec

theorem graphemes_next_adv (o : Graphemes.Options) {it : Iter} (hs : it.split = Graphemes.splitFunc) {u d : Bytes}
    (hdata : it.data = u ++ d) (hpos : it.pos = u.length) (hd : d ≠ []) :
    Graphemes.next o it
      = ({ it with start := it.pos, pos := it.pos + Graphemes.adv o Graphemes.splitFunc d }, .ret true) := by
  have hl := List.length_pos_iff.mpr hd
  have h := (Graphemes.next_spec o Graphemes.good).next_lt it hs (by rw [hdata, hpos]; simp; omega)
  have hdrop : it.data.drop it.pos = d := by rw [hdata, hpos]; simp
  rw [hdrop] at h
  rw [h]

/-- **C24** With `AnsiEscapeSequences`, where the rest of the text begins with ESC: `Next` takes exactly
the escape sequence it begins with, and does what it does without options if it begins with none. -/
theorem C24_next (o : Graphemes.Options) (ho : o.ansi7 = true) (it : Iter) (hs : it.split = Graphemes.splitFunc)
    (u d : Bytes) (hdata : it.data = u ++ 0x1B :: d) (hpos : it.pos = u.length) :
    (∀ e v, 0x1B :: d = e ++ v → Escape7 e v →
      Graphemes.next o it = ({ it with start := it.pos, pos := it.pos + e.length }, .ret true)) ∧
    ((¬ ∃ e v, 0x1B :: d = e ++ v ∧ Escape7 e v) → Graphemes.next o it = Graphemes.next {} it) := by
  have hn := fun o => graphemes_next_adv o hs hdata hpos (by simp)
  constructor
  · intro e v he h7
    rw [hn, he, Graphemes.adv_escape7 ho h7]
  · intro hno
    rw [hn, hn, Graphemes.adv_off, Graphemes.adv_noEscape]
    rintro ⟨e, v, he, ⟨_, h7⟩ | ⟨_, h8⟩⟩
    · exact hno ⟨e, v, he, h7⟩
    · obtain ⟨b, e', rfl, hb⟩ := Graphemes.Escape8.head h8
      simp only [List.cons_append, List.cons.injEq] at he
      have := hb.1
      rw [← he.1] at this
      exact absurd this (by decide)

/-- C24: a text begins with at most one escape sequence. -/
theorem C24_unique {e v e' v' : Bytes} (h : e ++ v = e' ++ v') (h1 : Escape7 e v) (h2 : Escape7 e' v') :
    e = e' ∧ v = v' := by
  have h3 := Graphemes.ansiEscapeLength_of h1
  rw [h, Graphemes.ansiEscapeLength_of h2] at h3
  exact List.append_inj h h3.symm

-- "ESC [ 3 1 m" is one; "ESC [ ! 1" is none (a parameter after an intermediate byte)
example : Escape7 [0x1B, 0x5B, 0x33, 0x31, 0x6D] [0x61] :=
  .csi ⟨[0x33, 0x31], [], 0x6D, rfl, by simp [byteIn], by simp, by simp [byteIn]⟩
example : tokens .graphemes ⟨true, false⟩ [0x1B, 0x5B, 0x33, 0x31, 0x6D, 0x61]
    = .ok [[0x1B, 0x5B, 0x33, 0x31, 0x6D], [0x61]] := by decide +kernel
example : tokens .graphemes ⟨true, false⟩ [0x1B, 0x5B, 0x21, 0x31, 0x6D]
    = .ok [[0x1B], [0x5B], [0x21], [0x31], [0x6D]] := by decide +kernel
-- an OSC cancelled by CAN, and one ended by ESC \ with an ESC inside
example : tokens .graphemes ⟨true, false⟩ [0x1B, 0x5D, 0x61, 0x18, 0x62]
    = .ok [[0x1B, 0x5D, 0x61], [0x18], [0x62]] := by decide +kernel
example : tokens .graphemes ⟨true, false⟩ [0x1B, 0x5D, 0x1B, 0x1B, 0x5C, 0x62]
    = .ok [[0x1B, 0x5D, 0x1B, 0x1B, 0x5C], [0x62]] := by decide +kernel
-- DCS does not end with BEL; nF; two bytes
example : tokens .graphemes ⟨true, false⟩ [0x1B, 0x50, 0x07, 0x1B, 0x5C, 0x1B, 0x28, 0x42, 0x1B, 0x37]
    = .ok [[0x1B, 0x50, 0x07, 0x1B, 0x5C], [0x1B, 0x28, 0x42], [0x1B, 0x37]] := by decide +kernel

/-- **C25** With `AnsiEscapeSequences8Bit`, where the rest of the text begins with a byte 0x80–0x9F:
`Next` takes exactly the escape sequence it begins with, and does what it does without options if it
begins with none. -/
theorem C25_next (o : Graphemes.Options) (ho : o.ansi8 = true) (it : Iter) (hs : it.split = Graphemes.splitFunc)
    (u d : Bytes) (b : UInt8) (hb : byteIn 0x80 0x9F b) (hdata : it.data = u ++ b :: d) (hpos : it.pos = u.length) :
    (∀ e v, b :: d = e ++ v → Escape8 e v →
      Graphemes.next o it = ({ it with start := it.pos, pos := it.pos + e.length }, .ret true)) ∧
    ((¬ ∃ e v, b :: d = e ++ v ∧ Escape8 e v) → Graphemes.next o it = Graphemes.next {} it) := by
  have hn := fun o => graphemes_next_adv o hs hdata hpos (by simp)
  constructor
  · intro e v he h8
    rw [hn, he, Graphemes.adv_escape8 ho h8]
  · intro hno
    rw [hn, hn, Graphemes.adv_off, Graphemes.adv_noEscape]
    rintro ⟨e, v, he, ⟨_, h7⟩ | ⟨_, h8⟩⟩
    · obtain ⟨b', e', rfl⟩ := Graphemes.Escape7.head h7
      simp only [List.cons_append, List.cons.injEq] at he
      have := hb.1
      rw [he.1] at this
      exact absurd this (by decide)
    · exact hno ⟨e, v, he, h8⟩

/-- C25: a text begins with at most one escape sequence. -/
theorem C25_unique {e v e' v' : Bytes} (h : e ++ v = e' ++ v') (h1 : Escape8 e v) (h2 : Escape8 e' v') :
    e = e' ∧ v = v' := by
  have h3 := Graphemes.ansiEscapeLength8Bit_of h1
  rw [h, Graphemes.ansiEscapeLength8Bit_of h2] at h3
  exact List.append_inj h h3.symm

/-- C24, C25: at any other byte the options make no difference. -/
theorem C25_elsewhere (o : Graphemes.Options) (it : Iter) (hs : it.split = Graphemes.splitFunc)
    (u d : Bytes) (b : UInt8) (h7 : o.ansi7 = true → b ≠ 0x1B) (h8 : o.ansi8 = true → ¬ byteIn 0x80 0x9F b)
    (hdata : it.data = u ++ b :: d) (hpos : it.pos = u.length) :
    Graphemes.next o it = Graphemes.next {} it := by
  have hn := fun o => graphemes_next_adv o hs hdata hpos (by simp)
  rw [hn, hn, Graphemes.adv_off, Graphemes.adv_noEscape (Graphemes.not_beginsEscape ⟨h7, h8⟩)]

-- C1 CSI "1 m"; C1 OSC ended by C1 ST, where ESC \ does not end it; a single C1 control
example : Escape8 [0x9D, 0x1B, 0x5C, 0x9C] [0x61] :=
  .osc ⟨[0x1B, 0x5C], [0x9C], rfl, .inl (by simp [ST8]), by
    intro x y h hy s hs
    have : y = [0x1B, 0x5C] ∨ y = [0x5C] := by
      match x, h with
      | [], h => exact .inl h.symm
      | [_], h => simp at h; exact .inr h.2.symm
      | [_, _], h => simp at h; exact absurd h.2.2 hy
      | _ :: _ :: _ :: _, h => simp at h
    simp [BEL, ST8, cancels] at hs
    rcases this with rfl | rfl <;> rcases hs with rfl | rfl | rfl | rfl <;> decide⟩
example : tokens .graphemes ⟨false, true⟩ [0x9B, 0x31, 0x6D, 0x9D, 0x1B, 0x5C, 0x9C, 0x85, 0x61]
    = .ok [[0x9B, 0x31, 0x6D], [0x9D, 0x1B, 0x5C, 0x9C], [0x85], [0x61]] := by decide +kernel
-- a C1 OSC that does not end is none
example : tokens .graphemes ⟨false, true⟩ [0x9D, 0x61] = .ok [[0x9D], [0x61]] := by decide +kernel

/-- **C26** Without ESC in the text, `AnsiEscapeSequences` changes nothing. -/
theorem C26_seven (b7 b8 : Bool) (data : Bytes) (h : (0x1B : UInt8) ∉ data) :
    tokens .graphemes ⟨b7, b8⟩ data = tokens .graphemes ⟨false, b8⟩ data := by
  refine (tokens_eq .graphemes ⟨b7, b8⟩ data).trans (.trans ?_ (tokens_eq .graphemes ⟨false, b8⟩ data).symm)
  have hg := Iterator.goodAdv .graphemes ⟨false, b8⟩
  have h0 := segs_agree hg (Iterator.goodAdv .graphemes ⟨b7, b8⟩) (segs (Iterator.advOf .graphemes ⟨false, b8⟩) data) []
    data (by simp) ?_
  · rw [h0]; simp [segs_nil]
  intro A1 t A2 hA
  have hmem : t ∈ segs (Iterator.advOf .graphemes ⟨false, b8⟩) data := by rw [hA]; simp
  obtain ⟨x, t', rfl⟩ := List.exists_cons_of_ne_nil (hg.segs_ne_nil data t hmem)
  have hx : x ∈ data := by
    rw [← hg.segs_flatten data]
    exact List.mem_flatten.mpr ⟨_, hmem, by simp⟩
  have hne : x.toNat ≠ Graphemes.esc := by
    intro he
    rw [Graphemes.toNat_esc] at he
    exact h (he ▸ hx)
  simp [Iterator.advOf, Graphemes.adv, Graphemes.adv8, hne]

/-- C26: on UTF-8, `AnsiEscapeSequences8Bit` changes nothing. -/
theorem C26_eight (b7 b8 : Bool) (s : List Char) :
    tokens .graphemes ⟨b7, b8⟩ (utf8 s) = tokens .graphemes ⟨b7, false⟩ (utf8 s) := by
  refine (tokens_eq .graphemes ⟨b7, b8⟩ _).trans (.trans ?_ (tokens_eq .graphemes ⟨b7, false⟩ _).symm)
  congr 1
  have hg := Iterator.goodAdv .graphemes ⟨b7, b8⟩
  have hg' := Iterator.goodAdv .graphemes ⟨b7, false⟩
  generalize hn : (utf8 s).length = n
  induction n using Nat.strongRecOn generalizing s with
  | _ n ih =>
    by_cases hs : s = []
    · subst hs; simp [utf8, segs_nil]
    · obtain ⟨h1, s1, s2, _, h3⟩ := Graphemes.adv_utf8 ⟨b7, b8⟩ hs
      have hne : utf8 s ≠ [] := by
        obtain ⟨c, s', rfl⟩ := List.exists_cons_of_ne_nil hs
        obtain ⟨b, l, hb, _⟩ := Graphemes.encode_head c
        rw [utf8_cons, hb]; simp
      have h4 := hg.pos _ hne
      have h5 := hg.le _ hne
      rw [hg.segs_cons hne, hg'.segs_cons hne]
      have h1' : Iterator.advOf .graphemes ⟨b7, b8⟩ (utf8 s) = Iterator.advOf .graphemes ⟨b7, false⟩ (utf8 s) := h1
      have h3' : (utf8 s).drop (Iterator.advOf .graphemes ⟨b7, b8⟩ (utf8 s)) = utf8 s2 := h3
      rw [← h1', h3', ih _ ?_ s2 rfl]
      rw [← h3', List.length_drop]; omega

/-- C26: the tokens are those without options up to the first token before which the rest of the text
begins with an escape sequence of an enabled kind; from there on they are the tokens of that rest. -/
theorem C26_prefix (o : Graphemes.Options) (data : Bytes) (A B : List Bytes)
    (h : defaultTokens .graphemes data = .ok (A ++ B))
    (hno : ∀ A1 A2, A = A1 ++ A2 → A2 ≠ [] → ¬ beginsEscape o.ansi7 o.ansi8 (A2.flatten ++ B.flatten)) :
    ∃ C, tokens .graphemes o B.flatten = .ok C ∧ tokens .graphemes o data = .ok (A ++ C) := by
  rw [graphemes_segs] at h
  simp only [Except.ok.injEq] at h
  have hg := goodAdv_of_good Graphemes.splitFunc_good
  refine ⟨_, tokens_eq .graphemes o _, (tokens_eq .graphemes o data).trans ?_⟩
  rw [segs_agree hg (Iterator.goodAdv .graphemes o) A B data h]
  intro A1 t A2 hA
  have h1 := hno A1 (t :: A2) hA (by simp)
  have hne : t ≠ [] := hg.segs_ne_nil data t (by rw [h, hA]; simp)
  rw [List.flatten_cons] at h1
  refine (Graphemes.adv_noEscape h1).trans (Graphemes.advPlain_eq ?_)
  simp [hne]

example : defaultTokens .graphemes [0x61, 0x85, 0x1B, 0x5B] = tokens .graphemes ⟨true, false⟩ [0x61, 0x85, 0x1B, 0x5B] := by
  decide +kernel
-- the hypotheses of C26 are needed
example : tokens .graphemes ⟨true, false⟩ [0x1B, 0x37] ≠ defaultTokens .graphemes [0x1B, 0x37] := by decide +kernel
example : tokens .graphemes ⟨false, true⟩ [0x9B, 0x6D] ≠ defaultTokens .graphemes [0x9B, 0x6D] := by decide +kernel

/-- **C27** A text, an escape sequence, more text: the tokens of the text, the sequence as one token, the
tokens of the rest. The text before is UTF-8 without ESC. -/
theorem C27_between (o : Graphemes.Options) (ho : o.ansi7 = true) (u : List Char) (hu : '\x1b' ∉ u) (e v : Bytes)
    (he : Escape7 e v) :
    ∃ us vs, defaultTokens .graphemes (utf8 u) = .ok us ∧ tokens .graphemes o (utf8 u) = .ok us ∧
      tokens .graphemes o v = .ok vs ∧ tokens .graphemes o (utf8 u ++ e ++ v) = .ok (us ++ [e] ++ vs) := by
  have hu' : o.ansi7 = true → ∀ c ∈ u, c.val.toNat ≠ 0x1B := by
    intro _ c hc h
    refine hu ?_
    have : c = '\x1b' := by
      apply Char.ext
      apply UInt32.toNat_inj.mp
      rw [h]; rfl
    exact this ▸ hc
  refine ⟨_, _, graphemes_segs _, (tokens_eq .graphemes o _).trans ?_, tokens_eq .graphemes o v,
    (tokens_eq .graphemes o _).trans ?_⟩
  · exact congrArg _ (Graphemes.segs_noesc o u hu')
  · congr 1
    obtain ⟨b, e', rfl⟩ := Graphemes.Escape7.head he
    have h1 := Graphemes.segs_before_esc o u hu' (b :: e' ++ v)
    have hg := Iterator.goodAdv .graphemes o
    have h2 := hg.segs_cons (d := 0x1B :: (b :: e' ++ v)) (by simp)
    have h3 : Iterator.advOf .graphemes o (0x1B :: (b :: e' ++ v)) = (0x1B :: b :: e').length :=
      Graphemes.adv_escape7 ho he
    rw [h3] at h2
    simp only [List.append_assoc, List.cons_append] at h1 h2 ⊢
    refine h1.trans ?_
    refine congrArg _ (h2.trans ?_)
    simp

example : tokens .graphemes ⟨true, false⟩ (utf8 ['e', '́', '\r'] ++ [0x1B, 0x5B, 0x6D] ++ utf8 ['́', 'x'])
    = .ok [utf8 ['e', '́'], [0x0D], [0x1B, 0x5B, 0x6D], utf8 ['́'], [0x78]] := by decide +kernel
-- There is no such theorem for 8-bit sequences: their first byte has no property in the table, so
-- Prepend (here U+0600) joins it by GB9b, and the sequence is not seen.
example : tokens .graphemes ⟨false, true⟩ (utf8 ['؀'] ++ [0x9B, 0x6D]) = .ok [[0xD8, 0x80, 0x9B], [0x6D]] := by
  decide +kernel
-- nor for a text before that is cut short: the three bytes are taken together as a truncated encoding
example : tokens .graphemes ⟨true, false⟩ ([0xF0, 0x1B, 0x63]) = .ok [[0xF0, 0x1B, 0x63]] := by decide +kernel

end Uax29
