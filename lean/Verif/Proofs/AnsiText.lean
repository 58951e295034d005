import Verif.Proofs.Ansi
import Verif.Proofs.Ascii
import Verif.Proofs.Concat
import Verif.Proofs.GraphemeConf
import Verif.Proofs.Segs
import Verif.Proofs.Splits
/-! # Escape sequences inside texts -/
namespace Uax29
open Spec

/-- Two advance functions that agree on the rests before the first tokens agree on these tokens. -/
theorem segs_agree {a1 a2 : Bytes → Nat} (h1 : GoodAdv a1) (h2 : GoodAdv a2) : ∀ (A B : List Bytes) (d : Bytes),
    segs a1 d = A ++ B →
    (∀ A1 t A2, A = A1 ++ t :: A2 → a2 (t ++ A2.flatten ++ B.flatten) = a1 (t ++ A2.flatten ++ B.flatten)) →
    segs a2 d = A ++ segs a2 B.flatten := by
  intro A
  induction A with
  | nil =>
    intro B d hd _
    have : d = B.flatten := by rw [← h1.segs_flatten d, hd]; rfl
    rw [this]; rfl
  | cons t A ih =>
    intro B d hd hag
    have hfl : d = t ++ A.flatten ++ B.flatten := by rw [← h1.segs_flatten d, hd]; simp
    have hne : d ≠ [] := by
      rintro rfl
      rw [segs_nil] at hd
      cases hd
    have he := hag [] t A rfl
    rw [← hfl] at he
    rw [h1.segs_cons hne] at hd
    simp only [List.cons_append, List.cons.injEq] at hd
    rw [h2.segs_cons hne, he, hd.1, List.cons_append, ih B _ hd.2]
    intro A1 t' A2 hA
    exact hag (t :: A1) t' A2 (by rw [hA]; rfl)

namespace Graphemes

theorem Escape7.head {e v : Bytes} (h : Escape7 e v) : ∃ b e', e = 0x1B :: b :: e' := by
  cases h with
  | csi => exact ⟨_, _, rfl⟩
  | osc => exact ⟨_, _, rfl⟩
  | str => exact ⟨_, _, rfl⟩
  | two => exact ⟨_, _, rfl⟩
  | nF hne hi hf =>
    rename_i is f
    cases is with
    | nil => exact absurd rfl hne
    | cons x is => exact ⟨x, is ++ [f], rfl⟩

theorem Escape8.head {e v : Bytes} (h : Escape8 e v) : ∃ b e', e = b :: e' ∧ byteIn 0x80 0x9F b := by
  cases h with
  | csi => exact ⟨_, _, rfl, by decide, by decide⟩
  | osc => exact ⟨_, _, rfl, by decide, by decide⟩
  | str hc =>
    refine ⟨_, _, rfl, ?_⟩
    simp only [List.mem_cons, List.not_mem_nil, or_false] at hc
    rcases hc with rfl | rfl | rfl | rfl <;> exact ⟨by decide, by decide⟩
  | single hc => exact ⟨_, _, rfl, hc⟩

/-- With the 7-bit option a 7-bit escape sequence is consumed as a whole. -/
theorem adv_escape7 {o : Options} (h : o.ansi7 = true) {e v : Bytes} (he : Escape7 e v) :
    adv o splitFunc (e ++ v) = e.length := by
  obtain ⟨b, e', rfl⟩ := Escape7.head he
  have hl := ansiEscapeLength_of he
  simp only [List.cons_append] at hl ⊢
  simp only [adv, h]
  rw [if_pos (by decide), hl, if_pos (by simp)]

/-- With the 8-bit option an 8-bit escape sequence is consumed as a whole. -/
theorem adv_escape8 {o : Options} (h : o.ansi8 = true) {e v : Bytes} (he : Escape8 e v) :
    adv o splitFunc (e ++ v) = e.length := by
  obtain ⟨b, e', rfl, hb⟩ := Escape8.head he
  have h1 := hb.1; have h2 := hb.2
  have hl := ansiEscapeLength8Bit_of he
  simp only [List.cons_append] at hl ⊢
  have hesc : (o.ansi7 && b.toNat == esc) = false := by
    simp [esc]; intro _; omega
  have h8 : (o.ansi8 && decide (0x80 ≤ b.toNat) && decide (b.toNat ≤ 0x9F)) = true := by simp [h, h1, h2]
  simp only [adv, adv8, hesc, h8]
  rw [hl]; simp

/-- Anywhere else the options make no difference. -/
theorem adv_noEscape {o : Options} {d : Bytes} (h : ¬ beginsEscape o.ansi7 o.ansi8 d) :
    adv o splitFunc d = advPlain splitFunc d := by
  cases d with
  | nil => rfl
  | cons b d =>
    have h7 : o.ansi7 = true → ansiEscapeLength (b :: d) = 0 := by
      intro ho
      apply Classical.byContradiction
      intro hne
      obtain ⟨e, v, he, hesc, _⟩ := ansiEscapeLength_ne hne
      exact h ⟨e, v, he, .inl ⟨ho, hesc⟩⟩
    have h8 : o.ansi8 = true → ansiEscapeLength8Bit (b :: d) = 0 := by
      intro ho
      apply Classical.byContradiction
      intro hne
      obtain ⟨e, v, he, hesc, _⟩ := ansiEscapeLength8Bit_ne hne
      exact h ⟨e, v, he, .inr ⟨ho, hesc⟩⟩
    have e8 : adv8 o splitFunc (b :: d) = advPlain splitFunc (b :: d) := by
      simp only [adv8]
      split
      · rename_i hc
        rw [h8 (by simp at hc; exact hc.1.1)]
        simp
      · rfl
    simp only [adv]
    split
    · rename_i hc
      rw [h7 (by simp at hc; exact hc.1)]
      simpa using e8
    · exact e8

theorem adv_off (d : Bytes) : adv {} splitFunc d = advPlain splitFunc d := by
  cases d <;> simp [adv, adv8, advPlain]

/-- No escape sequence of an enabled kind can begin with this byte. -/
def plainByte (o : Options) (b : UInt8) : Prop :=
  (o.ansi7 = true → b ≠ 0x1B) ∧ (o.ansi8 = true → ¬ byteIn 0x80 0x9F b)

theorem not_beginsEscape {o : Options} {b : UInt8} {d : Bytes} (h : plainByte o b) :
    ¬ beginsEscape o.ansi7 o.ansi8 (b :: d) := by
  rintro ⟨e, v, he, ⟨ho, h7⟩ | ⟨ho, h8⟩⟩
  · obtain ⟨x, e', rfl⟩ := Escape7.head h7
    simp only [List.cons_append, List.cons.injEq] at he
    exact h.1 ho he.1
  · obtain ⟨x, e', rfl, hx⟩ := Escape8.head h8
    simp only [List.cons_append, List.cons.injEq] at he
    exact h.2 ho (he.1 ▸ hx)

/-- The first byte of a character is no C1 control, and it is ESC only for the character ESC. -/
theorem encode_head (c : Char) : ∃ b l, String.utf8EncodeChar c = b :: l ∧ ¬ byteIn 0x80 0x9F b ∧
    (b = 0x1B → c.val.toNat = 0x1B) := by
  rcases encode_cases c with ⟨h1, b0, he, h2⟩ | ⟨h1, h1', b0, b1, he, h2, h3⟩ |
    ⟨h1, h1', b0, b1, b2, he, h2, h3, h4⟩ | ⟨h1, h1', b0, b1, b2, b3, he, h2, h3, h4, h5⟩
  all_goals
    refine ⟨b0, _, he, ?_, ?_⟩
    · rintro ⟨h6, h7⟩; omega
    · rintro rfl
      have : (0x1B : UInt8).toNat = 0x1B := rfl
      omega

/-- Text without the bytes that begin an escape sequence, before a control character. -/
theorem segs_before_esc (o : Options) (s : List Char)
    (hs : o.ansi7 = true → ∀ c ∈ s, c.val.toNat ≠ 0x1B) (w : Bytes) :
    segs (adv o splitFunc) (utf8 s ++ 0x1B :: w)
      = segs (splitAdv splitFunc) (utf8 s) ++ segs (adv o splitFunc) (0x1B :: w) := by
  have hg := goodAdv_of_good splitFunc_good
  have hgo : GoodAdv (adv o splitFunc) := Iterator.goodAdv .graphemes o
  obtain ⟨l, t, hw⟩ := wf.decodes w
  obtain ⟨hl, hv⟩ := wf.lookup_ascii (b := 0x1B) (by decide) w
  have hdec : Decodes trie (0x1B :: w) ((trie.ascii 0x1B, [0x1B]) :: l) t :=
    Decodes.cons (bs := [0x1B]) (by simp) hl hv hw
  have happ : segs (splitAdv splitFunc) (utf8 s ++ 0x1B :: w)
      = segs (splitAdv splitFunc) (utf8 s) ++ segs (splitAdv splitFunc) (0x1B :: w) := by
    refine follows.segs_append hg (wf.decodes_utf8 s) (wf.decodes_utf8_append s hdec) hdec (.inl (by simp)) ?_ ?_
    · intro left right hl hr _
      obtain ⟨x, l, rfl⟩ := List.exists_cons_of_ne_nil hl
      obtain ⟨y, r, rfl⟩ := List.exists_cons_of_ne_nil hr
      rfl
    · intro _ left _ hl
      obtain ⟨x, l', rfl⟩ := List.exists_cons_of_ne_nil hl
      have h1 : (gset (trie.ascii 0x1B)).control = true ∧ gset (trie.ascii 0x1B) .LF = false := by decide +kernel
      simp [J, graphemeJoins, h1.1, h1.2]
  obtain ⟨gs, h1, h2, h3⟩ : ∃ gs : List (List Char), segs (splitAdv splitFunc) (utf8 s) = gs.map utf8 ∧ gs.flatten = s
      ∧ ∀ g ∈ gs, g ≠ [] := by
    obtain ⟨gs, h1, h2, h3, _⟩ := follows.conform wf hg (P := trie.IsValue) (fun _ h => h) restart s
    exact ⟨gs, h1, h2, h3⟩
  rw [segs_agree hg hgo _ _ _ happ ?_, hg.segs_flatten]
  intro A1 t A2 hA
  have ht : t ∈ gs.map utf8 := by rw [← h1, hA]; simp
  obtain ⟨g, hg', rfl⟩ := List.mem_map.mp ht
  obtain ⟨c, g', rfl⟩ := List.exists_cons_of_ne_nil (h3 g hg')
  obtain ⟨b, l, hb, h4, h5⟩ := encode_head c
  have hc : c ∈ s := by rw [← h2]; exact List.mem_flatten.mpr ⟨_, hg', by simp⟩
  rw [utf8_cons, hb]
  simp only [List.cons_append]
  rw [adv_noEscape (not_beginsEscape ⟨fun h7 hb => hs h7 c hc (h5 hb), fun _ => h4⟩)]
  exact advPlain_eq (by simp)

/-- The same at the end of the text. -/
theorem segs_noesc (o : Options) (s : List Char)
    (hs : o.ansi7 = true → ∀ c ∈ s, c.val.toNat ≠ 0x1B) :
    segs (adv o splitFunc) (utf8 s) = segs (splitAdv splitFunc) (utf8 s) := by
  have hg := goodAdv_of_good splitFunc_good
  have hgo : GoodAdv (adv o splitFunc) := Iterator.goodAdv .graphemes o
  obtain ⟨gs, h1, h2, h3, _⟩ := follows.conform wf hg (P := trie.IsValue) (fun _ h => h) restart s
  have h0 := segs_agree hg hgo (segs (splitAdv splitFunc) (utf8 s)) [] (utf8 s) (by simp) ?_
  · rw [h0]; simp [segs_nil]
  intro A1 t A2 hA
  have ht : t ∈ gs.map utf8 := by rw [← h1, hA]; simp
  obtain ⟨g, hg', rfl⟩ := List.mem_map.mp ht
  obtain ⟨c, g', rfl⟩ := List.exists_cons_of_ne_nil (h3 g hg')
  obtain ⟨b, l, hb, h4, h5⟩ := encode_head c
  have hc : c ∈ s := by rw [← h2]; exact List.mem_flatten.mpr ⟨_, hg', by simp⟩
  rw [utf8_cons, hb]
  simp only [List.cons_append]
  rw [adv_noEscape (not_beginsEscape ⟨fun h7 hb => hs h7 c hc (h5 hb), fun _ => h4⟩)]
  exact advPlain_eq (by simp)

/-- In UTF-8, what is before an ASCII byte is UTF-8, and what is from it on is too. -/
theorem utf8_cut : ∀ (s : List Char) (a : Bytes) (b : UInt8) (r : Bytes), utf8 s = a ++ b :: r → b.toNat < 0x80 →
    ∃ s1 s2, s = s1 ++ s2 ∧ a = utf8 s1 ∧ b :: r = utf8 s2
  | [], a, b, r, h, _ => by
    have := congrArg List.length h
    simp [utf8] at this
  | c :: s, a, b, r, h, hb => by
    by_cases ha : a = []
    · subst ha
      exact ⟨[], c :: s, rfl, rfl, h.symm⟩
    · rw [utf8_cons] at h
      have hlen : (String.utf8EncodeChar c).length ≤ a.length := by
        apply Classical.byContradiction
        intro hlt
        -- `b` would be a byte inside the encoding of `c`, but not the first
        have hpre : (utf8 (c :: s))[a.length]? = some b := by rw [utf8_cons, h]; simp
        have hin : (String.utf8EncodeChar c)[a.length]? = some b := by
          rw [utf8_cons, List.getElem?_append_left (by omega)] at hpre
          exact hpre
        have hpos : 0 < a.length := List.length_pos_iff.mpr ha
        rcases encode_cases c with ⟨h1, b0, he, h2⟩ | ⟨h1, h1', b0, b1, he, h2, h3⟩ |
          ⟨h1, h1', b0, b1, b2, he, h2, h3, h4⟩ | ⟨h1, h1', b0, b1, b2, b3, he, h2, h3, h4, h5⟩
        · rw [he] at hlt; simp at hlt; exact ha hlt
        · rw [he] at hlt hin; simp at hlt
          have : a.length = 1 := by omega
          rw [this] at hin; simp at hin; subst hin; omega
        · rw [he] at hlt hin; simp at hlt
          have : a.length = 1 ∨ a.length = 2 := by omega
          rcases this with this | this <;> (rw [this] at hin; simp at hin; subst hin; omega)
        · rw [he] at hlt hin; simp at hlt
          have : a.length = 1 ∨ a.length = 2 ∨ a.length = 3 := by omega
          rcases this with this | this | this <;> (rw [this] at hin; simp at hin; subst hin; omega)
      obtain ⟨a', rfl⟩ : ∃ a', a = String.utf8EncodeChar c ++ a' := by
        refine ⟨a.drop (String.utf8EncodeChar c).length, ?_⟩
        have h1 := congrArg (List.take (String.utf8EncodeChar c).length) h
        rw [List.take_append_of_le_length (Nat.le_refl _), List.take_length,
          List.take_append_of_le_length hlen] at h1
        have h2 := List.take_append_drop (String.utf8EncodeChar c).length a
        rw [← h1] at h2
        exact h2.symm
      rw [List.append_assoc, List.append_cancel_left_eq] at h
      obtain ⟨s1, s2, rfl, rfl, h2⟩ := utf8_cut s a' b r h hb
      exact ⟨c :: s1, s2, rfl, by rw [utf8_cons], h2⟩

theorem utf8_cons_inv {s : List Char} {b : UInt8} {r : Bytes} (h : b :: r = utf8 s) (hb : b.toNat < 0x80) :
    ∃ s', r = utf8 s' := by
  cases s with
  | nil => simp [utf8] at h
  | cons c s =>
    rw [utf8_cons] at h
    rcases encode_cases c with ⟨h1, b0, he, h2⟩ | ⟨h1, h1', b0, b1, he, h2, h3⟩ |
      ⟨h1, h1', b0, b1, b2, he, h2, h3, h4⟩ | ⟨h1, h1', b0, b1, b2, b3, he, h2, h3, h4, h5⟩
    · rw [he] at h; simp at h; exact ⟨s, h.2⟩
    all_goals
      rw [he] at h
      simp only [List.cons_append, List.cons.injEq] at h
      rw [h.1] at hb
      omega

/-- A 7-bit escape sequence ends with an ASCII byte or before one. -/
theorem Escape7.last {e v : Bytes} (h : Escape7 e v) :
    (∃ e' b, e = e' ++ [b] ∧ b.toNat < 0x80) ∨ ∃ b v', v = b :: v' ∧ b.toNat < 0x80 := by
  have str : ∀ {terms body} (a : Bytes), controlString terms body v → (∀ t ∈ terms, t = BEL ∨ t = ST7) →
      (∃ e' b, a ++ body = e' ++ [b] ∧ b.toNat < 0x80) ∨ ∃ b v', v = b :: v' ∧ b.toNat < 0x80 := by
    rintro terms body a ⟨p, t, rfl, ht | ⟨rfl, c, hc, hv⟩, _⟩ hterms
    · left
      rcases hterms t ht with rfl | rfl
      · exact ⟨a ++ p, 0x07, by simp [BEL], by decide⟩
      · exact ⟨a ++ p ++ [0x1B], 0x5C, by simp [ST7], by decide⟩
    · right
      obtain ⟨v', rfl⟩ := hv
      simp only [cancels, List.mem_cons, List.not_mem_nil, or_false] at hc
      rcases hc with rfl | rfl
      · exact ⟨0x18, v', rfl, by decide⟩
      · exact ⟨0x1A, v', rfl, by decide⟩
  cases h with
  | csi h =>
    obtain ⟨ps, is, f, rfl, _, _, hf⟩ := h
    have := hf.2
    exact .inl ⟨0x1B :: 0x5B :: (ps ++ is), f, by simp, by omega⟩
  | osc h => exact str [0x1B, 0x5D] h (by simp)
  | str hc h => exact str [0x1B, _] h (by simp)
  | two hc =>
    have := hc.2
    exact .inl ⟨[0x1B], _, rfl, by omega⟩
  | nF hne hi hf =>
    have := hf.2
    exact .inl ⟨_, _, rfl, by omega⟩

/-- In UTF-8 a 7-bit escape sequence and what follows it are UTF-8. -/
theorem Escape7.utf8 {e v : Bytes} (h : Escape7 e v) {s : List Char} (hs : Spec.utf8 s = e ++ v) :
    ∃ s1 s2, e = Spec.utf8 s1 ∧ v = Spec.utf8 s2 := by
  rcases Escape7.last h with ⟨e', b, rfl, hb⟩ | ⟨b, v', rfl, hb⟩
  · rw [List.append_assoc, List.singleton_append] at hs
    obtain ⟨s1, s2, _, h1, h2⟩ := utf8_cut s e' b v hs hb
    obtain ⟨s', h3⟩ := utf8_cons_inv h2 hb
    refine ⟨s1 ++ s2.take 1, s', ?_, h3⟩
    cases s2 with
    | nil => simp [Spec.utf8] at h2
    | cons c s2 =>
      rw [h3, utf8_cons] at h2
      rw [utf8_append, ← h1]
      rcases encode_head c with ⟨b', l, he, _⟩
      have hl : l = [] := by
        rcases encode_cases c with ⟨g1, b0, ge, g2⟩ | ⟨g1, g1', b0, b1, ge, g2, g3⟩ |
          ⟨g1, g1', b0, b1, b2, ge, g2, g3, g4⟩ | ⟨g1, g1', b0, b1, b2, b3, ge, g2, g3, g4, g5⟩
        · rw [ge] at he; simp at he; exact he.2
        all_goals
          rw [ge] at h2
          simp only [List.cons_append, List.cons.injEq] at h2
          rw [h2.1] at hb
          omega
      rw [he, hl] at h2
      simp only [List.cons_append, List.cons.injEq] at h2
      simp [Spec.utf8, he, hl, h2.1]
  · obtain ⟨s1, s2, _, h1, h2⟩ := utf8_cut s e b v' hs hb
    exact ⟨s1, s2, h1, h2⟩

/-- On UTF-8 every step goes over whole characters, and the 8-bit option does nothing. -/
theorem adv_utf8 (o : Options) {s : List Char} (hs : s ≠ []) :
    adv o splitFunc (utf8 s) = adv { o with ansi8 := false } splitFunc (utf8 s) ∧
    ∃ s1 s2, (utf8 s).take (adv o splitFunc (utf8 s)) = utf8 s1 ∧ (utf8 s).drop (adv o splitFunc (utf8 s)) = utf8 s2 := by
  obtain ⟨c, s', rfl⟩ := List.exists_cons_of_ne_nil hs
  obtain ⟨b, l, hb, h4, h5⟩ := encode_head c
  have hcons : utf8 (c :: s') = b :: (l ++ utf8 s') := by rw [utf8_cons, hb]; rfl
  by_cases hesc : o.ansi7 = true ∧ ∃ e v, utf8 (c :: s') = e ++ v ∧ Escape7 e v
  · obtain ⟨ho, e, v, he, h7⟩ := hesc
    obtain ⟨s1, s2, h1, h2⟩ := Escape7.utf8 h7 he
    rw [he, adv_escape7 ho h7, adv_escape7 (o := { o with ansi8 := false }) ho h7]
    refine ⟨rfl, s1, s2, ?_, ?_⟩
    · rw [List.take_left']; exact h1; rfl
    · rw [List.drop_left']; exact h2; rfl
  · have hno : ∀ o' : Options, o'.ansi7 = o.ansi7 → ¬ beginsEscape o'.ansi7 o'.ansi8 (utf8 (c :: s')) := by
      rintro o' ho' ⟨e, v, he, ⟨ho, h7⟩ | ⟨ho, h8⟩⟩
      · exact hesc ⟨ho' ▸ ho, e, v, he, h7⟩
      · obtain ⟨x, e', rfl, hx⟩ := Escape8.head h8
        rw [hcons] at he
        simp only [List.cons_append, List.cons.injEq] at he
        exact h4 (he.1 ▸ hx)
    have hne : utf8 (c :: s') ≠ [] := by rw [hcons]; simp
    have e1 := adv_noEscape (hno o rfl)
    have e2 := adv_noEscape (hno { o with ansi8 := false } rfl)
    rw [advPlain_eq hne] at e1 e2
    refine ⟨e1.trans e2.symm, ?_⟩
    rw [e1]
    have hg := goodAdv_of_good splitFunc_good
    obtain ⟨gs, h1, h2, h3, _⟩ := follows.conform wf hg (P := trie.IsValue) (fun _ h => h) restart (c :: s')
    rw [hg.segs_cons hne] at h1
    cases gs with
    | nil => simp at h1
    | cons g gs =>
      simp only [List.map_cons, List.cons.injEq] at h1
      refine ⟨g, gs.flatten, h1.1, ?_⟩
      rw [← hg.segs_flatten (List.drop _ _), h1.2]
      simp [Spec.utf8, List.flatMap, List.map_flatten, List.flatten_flatten]
      rfl

end Graphemes
end Uax29
