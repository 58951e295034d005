import Verif.Props.Graphemes
import Verif.Props.Words
import Verif.Props.Phrases
import Verif.Props.Sentences
import Verif.Proofs.Lines
/-! # Properties of all four packages: C12, C15, C17, C18, C39 -/
namespace Uax29
open Spec Scanner

/-- `SplitFunc` of a package. -/
def splitFunc : Pkg → SplitFn
  | .graphemes => Graphemes.splitFunc
  | .words => Words.splitFunc
  | .phrases => Phrases.splitFunc
  | .sentences => Sentences.splitFunc

theorem splitFunc_eq (p : Pkg) : splitFunc p = splitOf p (Iterator.defaultConfig p) := by
  cases p <;> rfl

theorem splitFunc_good (p : Pkg) (d : Bytes) (eof : Bool) : GoodSplit d eof (splitFunc p d eof) := by
  rw [splitFunc_eq]; exact splitOf_good _ _ _ _

theorem default_segs (p : Pkg) (data : Bytes) :
    defaultTokens p data = .ok (segs (splitAdv (splitFunc p)) data) := by
  cases p with
  | graphemes => exact graphemes_segs data
  | words => exact default_words_segs data
  | phrases => exact phrases_segs data
  | sentences => exact sentences_segs data

/-- **C12** The tokens of the iterator, with its ASCII fast path, are those one gets by applying the
package's `SplitFunc` repeatedly to the rest of the text. -/
theorem C12_fast_path (p : Pkg) (data : Bytes) :
    ∃ ts, defaultTokens p data = .ok ts ∧ Splits (splitFunc p) data ts :=
  ⟨_, default_segs p data, (splits_iff (splitFunc_good p)).2 rfl⟩

-- the fast path runs over "aa" and the last "b", and the middle needs the split function
example : defaultTokens .words (utf8 ['a', 'a', '.', 'a', ' ', 'b'])
    = .ok [utf8 ['a', 'a', '.', 'a'], utf8 [' '], utf8 ['b']] := by decide +kernel
example : Splits (splitFunc .words) ([0x61, 0x61, 0x2E, 0x61] ++ ([0x20] ++ ([0x62] ++ [])))
    [[0x61, 0x61, 0x2E, 0x61], [0x20], [0x62]] :=
  .cons (tok := [0x61, 0x61, 0x2E, 0x61]) (by decide) (by decide +kernel) (.cons (tok := [0x20]) (by decide)
    (by decide +kernel) (.cons (tok := [0x62]) (by decide) (by decide +kernel) .nil))

/-- **C15** A scanner that ends without error yields the tokens of the iterator over all that the
reader delivers; it does not matter in which pieces, nor which buffer is set. It does end so if the
reader ends with `io.EOF` and the maximum token size exceeds the length of the input. -/
theorem C15_chunking (p : Pkg) (r : Reader) (n max : Nat) :
    (∀ ts, Scanner.tokens (scanner p (Iterator.defaultConfig p) r n max) = .ok (ts, none) →
      defaultTokens p (deliver 0 r).1 = .ok ts)
    ∧ ((deliver 0 r).2 = .eof → (deliver 0 r).1.length < max →
      ∃ ts, Scanner.tokens (scanner p (Iterator.defaultConfig p) r n max) = .ok (ts, none)) := by
  obtain ⟨ts, err, k1, k2⟩ := C16_errors p (Iterator.defaultConfig p) r n max
  rw [← splitFunc_eq] at k2
  refine ⟨?_, ?_⟩
  · intro ts' h
    rw [k1] at h
    cases h
    rcases k2 with ⟨k2, k3⟩ | ⟨k2, _⟩
    · rw [default_segs, (splits_iff (splitFunc_good p)).1 k2]
    · cases k2
  · intro h1 h2
    rcases k2 with ⟨k2, k3⟩ | ⟨_, k3, _⟩
    · exact ⟨ts, by rw [k1, k3, h1]; rfl⟩
    · omega

theorem deliver_chunks : ∀ (cs : List Bytes) (k : Nat), (deliver k (cs.map fun c => (c, none))).2 = .eof →
    (deliver k (cs.map fun c => (c, none))).1 = cs.flatten
  | [], _, _ => rfl
  | c :: cs, k, h => by
    simp only [List.map_cons, deliver] at h ⊢
    by_cases hc : c = []
    · subst hc
      simp only [if_true] at h ⊢
      by_cases hk : k = 100
      · simp [hk] at h
      · simp only [hk, if_false] at h ⊢
        rw [deliver_chunks cs _ h]; rfl
    · simp only [hc, if_false] at h ⊢
      rw [deliver_chunks cs _ h]; rfl

theorem deliver_err : ∀ (cs : List Bytes) (k : Nat), (deliver k (cs.map fun c => (c, none))).2 = .eof
    ∨ (deliver k (cs.map fun c => (c, none))).2 = .noProgress
  | [], _ => .inl rfl
  | c :: cs, k => by
    simp only [List.map_cons, deliver]
    by_cases hc : c = []
    · simp only [hc, if_true]
      split
      · exact .inr rfl
      · exact deliver_err cs _
    · simp only [hc, if_false]
      exact deliver_err cs _

/-- **C15** Two readers that deliver the same bytes in different pieces give the same tokens, if both
scans end without error. -/
theorem C15_same (p : Pkg) (cs cs' : List Bytes) (n max n' max' : Nat) (ts ts' : List Bytes)
    (hcs : cs.flatten = cs'.flatten)
    (h : Scanner.tokens (scanner p (Iterator.defaultConfig p) (cs.map fun c => (c, none)) n max) = .ok (ts, none))
    (h' : Scanner.tokens (scanner p (Iterator.defaultConfig p) (cs'.map fun c => (c, none)) n' max') = .ok (ts', none)) :
    ts = ts' ∧ defaultTokens p cs.flatten = .ok ts := by
  have all : ∀ (cs : List Bytes) n max ts,
      Scanner.tokens (scanner p (Iterator.defaultConfig p) (cs.map fun c => (c, none)) n max) = .ok (ts, none) →
      defaultTokens p cs.flatten = .ok ts := by
    intro cs n max ts h
    have h1 := (C15_chunking p _ n max).1 ts h
    obtain ⟨ts2, err, k1, k2⟩ := C16_errors p (Iterator.defaultConfig p) (cs.map fun c => (c, none)) n max
    rw [h] at k1
    cases k1
    rcases k2 with ⟨_, k3⟩ | ⟨k2, _⟩
    · rcases deliver_err cs 0 with h3 | h3
      · rw [← deliver_chunks cs 0 h3]; exact h1
      · rw [h3] at k3; cases k3
    · cases k2
  have h1 := all _ _ _ _ h
  have h2 := all _ _ _ _ h'
  rw [← hcs, h1] at h2
  cases h2
  exact ⟨rfl, h1⟩

-- CR LF and "can't" in two kinds of pieces
example : Scanner.tokens (scanner .words none [([0x63, 0x61], none), ([], none), ([0x6E, 0x27], none),
      ([0x74, 0x0D], none), ([0x0A], none)] 0 20)
    = .ok ([[0x63, 0x61, 0x6E, 0x27, 0x74], [0x0D, 0x0A]], none) := by decide +kernel
example : Scanner.tokens (scanner .words none [([0x63, 0x61, 0x6E], none), ([0x27, 0x74, 0x0D, 0x0A], none)] 3 30)
    = .ok ([[0x63, 0x61, 0x6E, 0x27, 0x74], [0x0D, 0x0A]], none) := by decide +kernel

/-! ## tokens are atomic -/

/-- The rule of a package on table entries; the first argument says that the text ends within an
encoding. -/
def ruleOf : Pkg → Bool → List Nat → List Nat → Bool
  | .graphemes => fun _ => Graphemes.J
  | .words => fun _ => Words.J
  | .phrases => fun _ => Phrases.J
  | .sentences => Sentences.J

theorem follows (p : Pkg) : Follows (trieOf p) Prod.fst Prod.fst (ruleOf p) (splitAdv (splitFunc p)) := by
  cases p with
  | graphemes => exact Graphemes.follows
  | words => exact Words.follows
  | phrases => exact Phrases.follows
  | sentences => exact Sentences.follows

theorem restart (p : Pkg) (cut : Bool) : Restart (trieOf p).IsValue (ruleOf p cut) := by
  cases p with
  | graphemes => exact Graphemes.restart
  | words => exact Words.restart
  | phrases => exact Phrases.restart
  | sentences => exact Sentences.restart cut

theorem local_rules (p : Pkg) : Local (trieOf p).IsValue (ruleOf p) := by
  cases p with
  | graphemes => exact Graphemes.local_rules
  | words => exact Words.local_rules
  | phrases => exact Phrases.local_rules
  | sentences => exact Sentences.local_rules

theorem splitAdv_good (p : Pkg) : GoodAdv (splitAdv (splitFunc p)) := goodAdv_of_good (splitFunc_good p)

/-- **C17** A token, tokenized again, is one token. -/
theorem C17_atomic (p : Pkg) (data : Bytes) :
    ∃ ts, defaultTokens p data = .ok ts ∧ ∀ t ∈ ts, defaultTokens p t = .ok [t] := by
  refine ⟨_, default_segs p data, ?_⟩
  intro t ht
  rw [default_segs, (follows p).segs_token (trieOf_wf p) (splitAdv_good p) (local_rules p) data t ht]

-- look-ahead: the apostrophe in "can't" is joined because of the letter after it
example : defaultTokens .words (utf8 ['c', 'a', 'n', '\'', 't', ' ', 'x'])
    = .ok [utf8 ['c', 'a', 'n', '\'', 't'], utf8 [' '], utf8 ['x']] := by decide +kernel
example : defaultTokens .words (utf8 ['c', 'a', 'n', '\'', 't']) = .ok [utf8 ['c', 'a', 'n', '\'', 't']] := by
  decide +kernel
-- the byte F0 alone is a token of its own, both before an "a" and as a cut off encoding
example : defaultTokens .words [0xF0, 0x61, 0x62, 0x63] = .ok [[0xF0], [0x61, 0x62, 0x63]] := by decide +kernel
example : defaultTokens .words [0xF0] = .ok [[0xF0]] := by decide +kernel

/-! ## texts put together -/

theorem lineEnd (p : Pkg) : LineEnd (ruleOf p) ((trieOf p).prop '\n') := by
  cases p with
  | graphemes => exact Graphemes.lineEnd
  | words => exact Words.lineEnd
  | phrases => exact Phrases.lineEnd
  | sentences => exact Sentences.lineEnd

/-- The bytes are the start of an encoding, by their first byte, and are too few for it. -/
def Spec.TooShort (b : Bytes) : Prop := ∃ x rest, b = x :: rest ∧ rest.length + 1 < announced x

/-- **C18** (partial: `b` is not just a few bytes that are too short for the encoding they start; see
the counterexample below.) The tokens of `a`, a line feed and `b` are the tokens of `a` with the line
feed, and then the tokens of `b`. -/
theorem C18_lines_partial (p : Pkg) (a : List Char) (b : Bytes) (hb : ¬ TooShort b) :
    ∃ ts us, defaultTokens p (utf8 a ++ [0x0A]) = .ok ts ∧ defaultTokens p b = .ok us
      ∧ defaultTokens p (utf8 a ++ [0x0A] ++ b) = .ok (ts ++ us) := by
  refine ⟨_, _, default_segs p _, default_segs p _, ?_⟩
  rw [default_segs, (follows p).segs_line (trieOf_wf p) (splitAdv_good p) (lineEnd p) a b]
  intro v h
  cases b with
  | nil => simp [Trie.lookup] at h
  | cons x rest =>
    obtain ⟨v', w, h1, _, _, h4⟩ := C37_total p x rest
    rw [h] at h1
    cases h1
    exact hb ⟨x, rest, rfl, h4.mp rfl⟩

example : defaultTokens .sentences (utf8 ['a', '.', ' ', '\n', 'b'])
    = .ok [utf8 ['a', '.', ' ', '\n'], utf8 ['b']] := by decide +kernel

theorem utf8_not_short (s : List Char) : ¬ TooShort (utf8 s) := by
  rintro ⟨x, rest, h, hl⟩
  cases s with
  | nil => simp [utf8] at h
  | cons c s =>
    obtain ⟨v, hv⟩ := C37_char .words c
    obtain ⟨v', w, h1, _, _, h4⟩ := C37_total .words x rest
    have h2 := hv (utf8 s)
    rw [← utf8_cons, h, h1] at h2
    have hw : w = 0 := h4.mpr hl
    subst hw
    simp only [Except.ok.injEq, Prod.mk.injEq] at h2
    have := encode_pos c
    omega

/-- C18 in full for well-formed UTF-8. -/
theorem C18_lines_utf8 (p : Pkg) (a b : List Char) :
    ∃ ts us, defaultTokens p (utf8 (a ++ ['\n'])) = .ok ts ∧ defaultTokens p (utf8 b) = .ok us
      ∧ defaultTokens p (utf8 (a ++ ['\n'] ++ b)) = .ok (ts ++ us) := by
  have := C18_lines_partial p a (utf8 b) (utf8_not_short b)
  rw [utf8_append (a ++ ['\n']), utf8_append, show utf8 ['\n'] = [0x0A] by decide]
  exact this

/-- A cut off encoding is joined to the line feed before it. -/
theorem C18_tail_fails : defaultTokens .words (utf8 ['a'] ++ [0x0A] ++ [0xE2]) = .ok [[0x61], [0x0A, 0xE2]]
    ∧ defaultTokens .words (utf8 ['a'] ++ [0x0A]) = .ok [[0x61], [0x0A]]
    ∧ defaultTokens .words [0xE2] = .ok [[0xE2]] := by decide +kernel

/-- **C39** All graphemes of `a` but the last are the first graphemes of `a` with anything after it. -/
theorem C39_append (a : List Char) (b : Bytes) :
    ∃ ts us, defaultTokens .graphemes (utf8 a) = .ok ts ∧ defaultTokens .graphemes (utf8 a ++ b) = .ok us
      ∧ ts.dropLast <+: us := by
  refine ⟨_, _, graphemes_segs _, graphemes_segs _, ?_⟩
  have hg := goodAdv_of_good Graphemes.splitFunc_good
  obtain ⟨l2, t, h2⟩ := Graphemes.wf.decodes b
  rw [Graphemes.follows.segs_eq hg (Graphemes.wf.decodes_utf8 a),
    Graphemes.follows.segs_eq hg (Graphemes.wf.decodes_utf8_append a h2), glue_nil]
  by_cases ha : a = []
  · subst ha; simp [greedy_nil]
  · obtain ⟨gs, g, hg, e1, e2⟩ := greedy_prefix (J := onChunks Prod.fst Graphemes.J) (J' := onChunks Prod.fst Graphemes.J) l2
      (a.map fun c => (Graphemes.trie.prop c, String.utf8EncodeChar c)) (by simpa using ha) (by
        intro left right hl hr _
        obtain ⟨x, l, rfl⟩ := List.exists_cons_of_ne_nil hl
        obtain ⟨y, r, rfl⟩ := List.exists_cons_of_ne_nil hr
        rfl)
    rw [e1, e2, glue_append]
    · simp
    · left; intro h; simp [greedy_eq_nil, hg] at h

-- "e" and a combining accent: the last grapheme of "xe" changes, the one before does not
example : defaultTokens .graphemes (utf8 ['x', 'e']) = .ok [utf8 ['x'], utf8 ['e']] := by decide +kernel
example : defaultTokens .graphemes (utf8 ['x', 'e'] ++ utf8 ['\u0301'])
    = .ok [utf8 ['x'], utf8 ['e', '\u0301']] := by decide +kernel

end Uax29
