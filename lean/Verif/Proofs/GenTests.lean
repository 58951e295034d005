import Verif.Proofs.GenParse
import Verif.Spec.Text
/-! # Reading files of tests -/
namespace Uax29.Spec.PropFile
open Gen hiding Name

theorem encode_length_ge : ∀ s : List Char, s.length ≤ (encode s).length
  | [] => Nat.le_refl _
  | c :: s => by
    have := encode_length_ge s
    have h1 : 0 < (String.utf8EncodeChar c).length := by
      rw [String.length_utf8EncodeChar]; exact Char.utf8Size_pos c
    simp only [encode, List.flatMap_cons, List.length_append, List.length_cons] at *
    omega

theorem Blank.encode_length {s : List Char} (h : Blank s) : (encode s).length = s.length := by
  induction s with
  | nil => rfl
  | cons c s ih =>
    have := ih fun x hx => h x (List.mem_cons_of_mem _ hx)
    have h1 : (String.utf8EncodeChar c).length = 1 := by
      rcases h c List.mem_cons_self with rfl | rfl <;> decide
    simp only [encode, List.flatMap_cons, List.length_append, List.length_cons] at *
    omega

theorem ofNat_toNat' (c : Char) : Char.ofNat c.toNat = c := Char.ofNat_toNat c

theorem parseVals_hex {s : List Char} {c : Char} (h : Hex s c.toNat) (h4 : 4 ≤ s.length) (vs : List (List Char))
    {b : Bytes} (hb : parseVals vs = .ok (some b)) : parseVals (s :: vs) = .ok (some (String.utf8EncodeChar c ++ b)) := by
  have hc : c.toNat.isValidChar := c.valid
  have hlt : c.toNat < 2 ^ 31 := by
    simp only [Nat.isValidChar] at hc
    omega
  rw [parseVals, if_neg (by have := encode_length_ge s; omega), h.parse hlt]
  simp only
  rw [if_pos hc, hb]
  simp only
  rw [ofNat_toNat']

theorem Segment.plain {s cs : List Char} (h : Segment s cs) : '÷' ∉ s ∧ '#' ∉ s := by
  induction h with
  | one h _ => exact ⟨fun hc => (h.plain _ hc).2.2.2.2.2 rfl, fun hc => (h.plain _ hc).2.2.2.1 rfl⟩
  | more h _ _ ih =>
    constructor
    · intro hc
      rcases List.mem_append.mp hc with hc | hc
      · exact (h.plain _ hc).2.2.2.2.2 rfl
      · simp at hc
        exact ih.1 hc
    · intro hc
      rcases List.mem_append.mp hc with hc | hc
      · exact (h.plain _ hc).2.2.2.1 rfl
      · simp at hc
        exact ih.2 hc

theorem Hex.no_space {s : List Char} {n : Nat} (h : Hex s n) : ' ' ∉ s := fun hc => by
  have := (h.plain _ hc).2.2.2.2.1
  revert this; decide

theorem Segment.vals {s cs : List Char} (h : Segment s cs) :
    parseVals (splitChar ' ' (s ++ [' '])) = .ok (some (utf8 cs)) := by
  induction h with
  | one h h4 =>
    rw [splitChar_mid h.no_space, parseVals_hex h h4 _ (b := []) (by decide)]
    simp [utf8]
  | @more s c t cs h h4 _ ih =>
    have e : splitChar ' ' (s ++ ' ' :: '×' :: ' ' :: t ++ [' ']) = s :: ['×'] :: splitChar ' ' (t ++ [' ']) := by
      rw [List.append_assoc, List.cons_append, splitChar_mid h.no_space]
      exact congrArg (s :: ·) (splitChar_mid (s := ['×']) (by decide) _)
    rw [e, parseVals_hex h h4 _ (b := utf8 cs) (by rw [parseVals, if_pos (by decide), ih])]
    rfl

theorem Segment.length {s cs : List Char} (h : Segment s cs) : 4 ≤ s.length := by
  cases h with
  | one _ h => exact h
  | more _ h _ => rw [List.length_append]; omega

theorem Segments.no_hash {t : List Char} {css : List (List Char)} (h : Segments t css) : '#' ∉ t := by
  induction h with
  | nil => simp
  | cons h _ ih =>
    intro hc
    simp at hc
    rcases hc with hc | hc
    · exact h.plain.2 hc
    · exact ih hc

theorem Segments.parse {t : List Char} {css : List (List Char)} (h : Segments t css) {a : List Char} (ha : Blank a)
    (h3 : a.length ≤ 3) : parseSegments (splitChar '÷' (t ++ a)) = .ok (some (css.map utf8)) := by
  induction h with
  | nil =>
    rw [List.nil_append, splitChar_none (ha.notMem (by decide) (by decide)), parseSegments,
      if_pos (by rw [ha.encode_length]; omega)]
    rfl
  | @cons s cs t css h _ ih =>
    have hn : '÷' ∉ ' ' :: s ++ [' '] := by
      simp only [List.cons_append, List.mem_cons, List.mem_append, not_or]
      exact ⟨by decide, h.plain.1, by simp⟩
    have e : splitChar '÷' (' ' :: s ++ ' ' :: '÷' :: t ++ a) = (' ' :: s ++ [' ']) :: splitChar '÷' (t ++ a) := by
      rw [show ' ' :: s ++ ' ' :: '÷' :: t ++ a = (' ' :: s ++ [' ']) ++ '÷' :: (t ++ a) by simp, splitChar_mid hn]
    have hl : ¬ (encode (' ' :: s ++ [' '])).length < 4 := by
      have h1 := encode_length_ge (' ' :: s ++ [' '])
      have h2 := h.length
      simp only [List.cons_append, List.length_cons, List.length_append] at h1
      simp only [List.cons_append]
      omega
    have hv : parseVals (splitChar ' ' (' ' :: s ++ [' '])) = .ok (some (utf8 cs)) := by
      rw [List.cons_append, splitChar_sep, parseVals, if_pos (by decide), h.vals]
    rw [e, parseSegments, if_neg hl, hv]
    simp only
    rw [ih]
    rfl

theorem utf8_flatten : ∀ css : List (List Char), (css.map utf8).flatten = utf8 css.flatten
  | [] => rfl
  | cs :: css => by
    rw [List.map_cons, List.flatten_cons, utf8_flatten css, List.flatten_cons]
    simp [utf8]

theorem TestLine.parse {l : List Char} {css : List (List Char)} (h : TestLine l css) :
    ∃ t, parseTest l = .ok (some (some t)) ∧ t.input = utf8 css.flatten ∧ t.expected = css.map utf8 := by
  cases h with
  | @mk t _ a k h ha h3 =>
    have hh : '#' ∉ '÷' :: t ++ a := by
      simp only [List.cons_append, List.mem_cons, List.mem_append, not_or]
      exact ⟨by decide, h.no_hash, ha.notMem (by decide) (by decide)⟩
    obtain ⟨p, ps, hp⟩ : ∃ p ps, splitChar '#' k = p :: ps := by
      cases hk : splitChar '#' k with
      | nil => exact absurd hk (splitChar_ne_nil _ _)
      | cons p ps => exact ⟨p, ps, rfl⟩
    have e := splitChar_mid hh k
    refine ⟨⟨utf8 css.flatten, css.map utf8, trimSpace p⟩, ?_, rfl, rfl⟩
    simp only [List.cons_append] at e ⊢
    rw [parseTest.eq_2, if_neg (by decide), e, hp]
    simp only
    rw [splitChar_sep, parseSegments, if_pos (by decide), h.parse ha h3]
    simp only
    rw [utf8_flatten]

theorem TestLine.ne_nil {l : List Char} {css : List (List Char)} (h : TestLine l css) : l ≠ [] := by
  cases h; simp

theorem dropCR_self {l : List Char} (h : '\r' ∉ l) : dropCR l = l :=
  if_neg fun e => h (List.mem_of_getLast? e)

theorem textLines_line (t : List Char) : ∀ (l cur : List Char), '\n' ∉ l →
    textLines cur (l ++ '\n' :: t) = (cur.reverse ++ l) :: textLines [] t
  | [], cur, _ => by simp [textLines]
  | c :: l, cur, h => by
    have hc : c ≠ '\n' := fun e => h (by simp [e])
    rw [List.cons_append, textLines, if_neg hc, textLines_line t l _ fun e => h (List.mem_cons_of_mem _ e)]
    simp

theorem textLines_last : ∀ (l cur : List Char), '\n' ∉ l → l ++ cur ≠ [] → textLines cur l = [cur.reverse ++ l]
  | [], cur, _, hne => by
    rw [textLines, if_neg (by simpa using hne), List.append_nil]
  | c :: l, cur, h, _ => by
    have hc : c ≠ '\n' := fun e => h (by simp [e])
    rw [textLines, if_neg hc, textLines_last l _ (fun e => h (List.mem_cons_of_mem _ e)) (by simp)]
    simp

theorem dropCR_hash (k : List Char) : ∃ k', dropCR ('#' :: k) = '#' :: k' := by
  unfold dropCR
  split
  · rename_i e
    cases k with
    | nil => simp at e
    | cons x k => exact ⟨_, rfl⟩
  · exact ⟨k, rfl⟩

theorem ShortLines.tail {l t : List Char} (h : ShortLines (l ++ '\n' :: t)) : ShortLines t :=
  fun x hx => h x (hx.trans ((List.suffix_cons _ t).trans (List.suffix_append l _)).isInfix)

theorem ShortLines.head {l t : List Char} (h : ShortLines (l ++ t)) (hn : '\n' ∉ l) : ¬ 65536 ≤ (encode l).length :=
  Nat.not_le_of_lt (h l (List.prefix_append l t).isInfix hn)

theorem TestFile.parse {text : List Char} {tests : List (List (List Char))} (h : TestFile text tests) (hs : ShortLines text) :
    ∃ ts, readTests text = .ok (some ts)
      ∧ ts.map (fun t => (t.input, t.expected)) = tests.map fun css => (utf8 css.flatten, css.map utf8) := by
  unfold readTests
  induction h with
  | nil => exact ⟨[], rfl, rfl⟩
  | @last l css h hn hr =>
    obtain ⟨t, h1, h2, h3⟩ := h.parse
    rw [textLines_last l [] hn (by simpa using h.ne_nil), List.reverse_nil, List.nil_append, parseTests,
      if_neg (ShortLines.head (t := []) (by rwa [List.append_nil]) hn), dropCR_self hr]
    exact ⟨[t], by simp [parseTests, h1], by simp [h2, h3]⟩
  | @comment k t tests hn _ ih =>
    obtain ⟨ts, h1, h2⟩ := ih hs.tail
    obtain ⟨k', hk⟩ := dropCR_hash k
    have hn' : '\n' ∉ '#' :: k := by simp [hn]
    refine ⟨ts, ?_, h2⟩
    rw [textLines_line t ('#' :: k) [] hn', List.reverse_nil, List.nil_append, parseTests, if_neg (hs.head hn'), hk, parseTest, if_pos rfl]
    simp only
    rw [h1]
    rfl
  | @line l css t tests h hn hr _ ih =>
    obtain ⟨ts, h1, h2⟩ := ih hs.tail
    obtain ⟨u, h3, h4, h5⟩ := h.parse
    rw [textLines_line t l [] hn, List.reverse_nil, List.nil_append, parseTests, if_neg (hs.head hn), dropCR_self hr, h3]
    simp only
    rw [h1]
    exact ⟨u :: ts, rfl, by simp [h2, h4, h5]⟩

end Uax29.Spec.PropFile
