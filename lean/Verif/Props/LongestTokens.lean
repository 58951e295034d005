import Verif.Props.ClusterGrammar
import Verif.Props.Packages
/-! # Tokens are the longest texts that are one token: C98 -/
namespace Uax29
open Spec

/-- If what a boundary divides is segmented alone in the same way, then tokens are as long as they can be. -/
theorem GoodAdv.longest {adv : Bytes → Nat} (hg : GoodAdv adv)
    (hdiv : ∀ a b, a ≠ [] → Complete a → adv (a ++ b) < a.length → adv a = adv (a ++ b))
    {d : Bytes} {A B : List Bytes} {t : Bytes} (h : segs adv d = A ++ t :: B) {u b : Bytes} (hu : u ++ b = (t :: B).flatten)
    (hc : Complete u) (h1 : segs adv u = [u]) : u <+: t := by
  have hr := hg.segs_resume d A (t :: B) h
  have hne : u ≠ [] := hg.segs_ne_nil u u (by rw [h1]; simp)
  have hd : d.drop A.flatten.length = u ++ b := by
    rw [hu, ← hr, hg.segs_flatten]
  rw [hd] at hr
  have ht : t = (u ++ b).take (adv (u ++ b)) := by
    rw [hg.segs_cons (by simp [hne])] at hr
    exact (List.cons.inj hr).1.symm
  have hau : adv u = u.length := by
    rw [hg.segs_cons hne] at h1
    have := congrArg List.length (List.cons.inj h1).1
    have := hg.le u hne
    simp only [List.length_take] at *
    omega
  have hle : u.length ≤ adv (u ++ b) := by
    rcases Nat.lt_or_ge (adv (u ++ b)) u.length with hlt | hge
    · have := hdiv u b hne hc hlt
      omega
    · exact hge
  rw [ht, List.take_append, List.take_of_length_le hle]
  exact List.prefix_append _ _

/-- **C98** Any token is, alone, one token, and it is the longest part of the text from its start on that is one: no part that
ends with a whole encoding is longer. The bytes may be any. -/
theorem C98_bytes (p : Pkg) (data : Bytes) (A : List Bytes) (t : Bytes) (B : List Bytes)
    (h : defaultTokens p data = .ok (A ++ t :: B)) :
    defaultTokens p t = .ok [t]
      ∧ ∀ u, u <+: (t :: B).flatten → Complete u → defaultTokens p u = .ok [u] → u <+: t := by
  obtain ⟨ts, h1, h2⟩ := C17_atomic p data
  rw [h] at h1
  refine ⟨h2 t (by rw [← Except.ok.inj h1]; simp), ?_⟩
  rintro u ⟨b, hb⟩ hc hu
  rw [default_segs] at h hu
  exact (splitAdv_good p).longest (fun a b ha hw h => divide_default p ha hw (Nat.le_of_lt h)) (Except.ok.inj h) hb hc
    (Except.ok.inj hu)

/-- With joiners, whatever they are. -/
theorem C98_joiners (j : Option Words.Joiners) (data : Bytes) (A : List Bytes) (t : Bytes) (B : List Bytes)
    (h : tokens .words j data = .ok (A ++ t :: B)) :
    ∀ u, u <+: (t :: B).flatten → Complete u → tokens .words j u = .ok [u] → u <+: t := by
  rintro u ⟨b, hb⟩ hc hu
  have h := (tokens_eq (p := .words) j data).symm.trans h
  have hu := (tokens_eq (p := .words) j u).symm.trans hu
  exact (Iterator.goodAdv .words j).longest (fun a b ha hw h => Words.iter_divide j ha hw (Nat.le_of_lt h))
    (Except.ok.inj h) hb hc (Except.ok.inj hu)

/-- With the options for escape sequences. -/
theorem C98_ansi (o : Graphemes.Options) (data : Bytes) (A : List Bytes) (t : Bytes) (B : List Bytes)
    (h : tokens .graphemes o data = .ok (A ++ t :: B)) :
    ∀ u, u <+: (t :: B).flatten → Complete u → tokens .graphemes o u = .ok [u] → u <+: t := by
  rintro u ⟨b, hb⟩ hc hu
  have h := (tokens_eq (p := .graphemes) o data).symm.trans h
  have hu := (tokens_eq (p := .graphemes) o u).symm.trans hu
  exact (Iterator.goodAdv .graphemes o).longest (fun a b ha hw h => Graphemes.iter_divide o ha hw (.inl h) (Nat.le_of_lt h))
    (Except.ok.inj h) hb hc (Except.ok.inj hu)

/-- The tokens of a text in UTF-8, exactly: the division of the text into the longest parts that are one token alone. -/
theorem C98_longest (p : Pkg) (s : List Char) (ts : List (List Char)) :
    defaultTokens p (utf8 s) = .ok (ts.map utf8)
      ↔ LongestMatches (fun u => defaultTokens p (utf8 u) = .ok [utf8 u]) s ts := by
  have key : ∀ (ts : List (List Char)) (s : List Char), defaultTokens p (utf8 s) = .ok (ts.map utf8) →
      LongestMatches (fun u => defaultTokens p (utf8 u) = .ok [utf8 u]) s ts := by
    intro ts
    induction ts with
    | nil =>
      intro s h
      have : utf8 s = utf8 [] := by
        have := (splitAdv_good p).segs_flatten (utf8 s)
        rw [default_segs] at h
        rw [Except.ok.inj h] at this
        simpa [utf8] using this.symm
      rw [utf8_inj this]
      exact .nil
    | cons t ts ih =>
      intro s h
      have hf : utf8 (t ++ ts.flatten) = utf8 s := by
        have := (splitAdv_good p).segs_flatten (utf8 s)
        have h' := h
        rw [default_segs] at h'
        rw [Except.ok.inj h', utf8_flatten, List.flatten_cons] at this
        exact this
      rw [← utf8_inj hf] at h ⊢
      obtain ⟨h1, h2⟩ := C98_bytes p _ [] (utf8 t) (ts.map utf8) h
      have hrest := (C74_utf8 p _ [utf8 t] (ts.map utf8) h).2
      rw [utf8_flatten] at hrest
      refine .cons h1 ?_ ?_ (ih _ hrest)
      · rintro rfl
        rw [default_segs] at h
        exact (splitAdv_good p).segs_ne_nil _ [] (by rw [Except.ok.inj h]; simp [utf8]) rfl
      · intro u hu hpre
        rcases List.prefix_or_prefix_of_prefix hpre (List.prefix_append t ts.flatten) with h3 | ⟨r, hr⟩
        · exact h3
        · have hpre' : utf8 u <+: (utf8 t :: ts.map utf8).flatten := by
            obtain ⟨q, hq⟩ := hpre
            exact ⟨utf8 q, by rw [← utf8_append, hq, utf8_append, List.flatten_cons, utf8_flatten]⟩
          have h3 := (h2 (utf8 u) hpre' (complete_utf8 u) hu).length_le
          rw [← hr, utf8_append, List.length_append] at h3
          have : utf8 r = utf8 [] := List.eq_nil_of_length_eq_zero (by omega)
          rw [← hr, utf8_inj this, List.append_nil]
          exact List.prefix_refl _
  refine ⟨key ts s, fun h => ?_⟩
  obtain ⟨vs, h2⟩ : ∃ vs : List (List Char), defaultTokens p (utf8 s) = .ok (vs.map utf8) := by
    cases p with
    | graphemes => exact (C08_conform s).imp fun _ h => h.1
    | words => exact (C09_conform s).imp fun _ h => h.1
    | phrases => exact (C11_conform s).imp fun _ h => h.1
    | sentences => exact (C10_conform s).imp fun _ h => h.1
  rw [C97_unique h (key vs s h2), h2]

-- "3.a" has three words although "3.1" is one; "a.b" is one word, so that "a" is not the first word of it
example : defaultTokens .words (utf8 ['3', '.', 'a', '.', 'b']) = .ok [utf8 ['3'], utf8 ['.'], utf8 ['a', '.', 'b']]
    ∧ defaultTokens .words (utf8 ['a', '.', 'b']) = .ok [utf8 ['a', '.', 'b']]
    ∧ defaultTokens .words (utf8 ['a', '.']) = .ok [utf8 ['a'], utf8 ['.']] := by decide +kernel
-- "a. " and "a. b" are one sentence, "a. B" is not
example : defaultTokens .sentences (utf8 ['a', '.', ' ', 'b', '.', ' ', 'B']) = .ok [utf8 ['a', '.', ' ', 'b', '.', ' '], utf8 ['B']]
    ∧ defaultTokens .sentences (utf8 ['a', '.', ' ']) = .ok [utf8 ['a', '.', ' ']] := by decide +kernel
-- the condition on the end of the parts cannot be left out: "a" and the first byte of "é" are one grapheme alone
example : defaultTokens .graphemes [0x61, 0xC3, 0xA9] = .ok ([] ++ [0x61] :: [[0xC3, 0xA9]])
    ∧ defaultTokens .graphemes [0x61, 0xC3] = .ok [[0x61, 0xC3]] := by decide +kernel
-- with "-" in the middle of words, "a-b" is the longest
example : tokens .words (some ⟨some [0x2D], none⟩) (utf8 ['a', '-', 'b', '-']) = .ok ([] ++ utf8 ['a', '-', 'b'] :: [utf8 ['-']]) := by
  decide +kernel
-- a control string up to the BEL, not up to the ESC in it
example : tokens .graphemes ⟨true, false⟩ [0x1B, 0x5D, 0x1B, 0x78, 0x07, 0x78] = .ok ([] ++ [0x1B, 0x5D, 0x1B, 0x78, 0x07] :: [[0x78]])
    ∧ tokens .graphemes ⟨true, false⟩ [0x1B, 0x5D, 0x1B, 0x78, 0x07] = .ok [[0x1B, 0x5D, 0x1B, 0x78, 0x07]]
    ∧ tokens .graphemes ⟨true, false⟩ [0x1B, 0x5D] = .ok [[0x1B], [0x5D]] := by decide +kernel

end Uax29
