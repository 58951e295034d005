import Verif.Proofs.Segs
import Verif.Proofs.Encode
import Verif.Spec.Pieces
/-! # Properties of lookup and of the split functions: C13, C14, C37 -/
namespace Uax29
open Spec

/-- The split function of package `p`: `graphemes.SplitFunc`, `words.SplitFunc` or the split function
of joiners, `phrases.SplitFunc`, `sentences.SplitFunc`. -/
abbrev splitOf (p : Pkg) (c : Config p) : SplitFn := Iterator.splitOf p c

theorem splitOf_good (p : Pkg) (c : Config p) (d : Bytes) (eof : Bool) :
    GoodSplit d eof (splitOf p c d eof) := by
  cases p with
  | graphemes => exact Graphemes.splitFunc_good d eof
  | words => exact Words.splitFunc_good c d eof
  | phrases => exact Phrases.splitFunc_good d eof
  | sentences => exact Sentences.splitFunc_good d eof

theorem splitOf_stable (p : Pkg) (c : Config p) : StableSplit (splitOf p c) := by
  cases p with
  | graphemes => exact Graphemes.splitFunc_stable
  | words => exact Words.splitFunc_stable c
  | phrases => exact Phrases.splitFunc_stable
  | sentences => exact Sentences.splitFunc_stable

/-- **C13** A token found in a buffer that may still grow is found in every longer buffer, whether or
not that one is the end. -/
theorem C13_final (p : Pkg) (c : Config p) (data more : Bytes) (eof : Bool) (k : Int) (tok : Bytes)
    (h : splitOf p c data false = .ok ⟨k, some tok, none⟩) :
    splitOf p c (data ++ more) eof = .ok ⟨k, some tok, none⟩ :=
  splitOf_stable p c data more eof k tok h

-- "a b" is enough to know the word "a", "a'" is not enough
example : splitOf .words none [0x61, 0x20] false = .ok ⟨1, some [0x61], none⟩ := by decide +kernel
example : splitOf .words none [0x61, 0x27] false = .ok ⟨0, none, none⟩ := by decide +kernel

/-- **C14** The contract of `bufio.SplitFunc`: no error and no fault; either no token and no advance,
or a non-empty prefix of the buffer and its length; at the end of the data a token unless the buffer
is empty; for the empty buffer nothing. -/
theorem C14_contract (p : Pkg) (c : Config p) (data : Bytes) (eof : Bool) :
    ∃ r, splitOf p c data eof = .ok r ∧ r.err = none
      ∧ ((r.advance = 0 ∧ r.token = none ∧ (data = [] ∨ eof = false))
        ∨ ∃ tok rest, data = tok ++ rest ∧ tok ≠ [] ∧ r.token = some tok ∧ r.advance = tok.length) := by
  rcases splitOf_good p c data eof with ⟨h1, h2⟩ | ⟨k, h1, h2, h3⟩
  · exact ⟨_, h1, rfl, .inl ⟨rfl, rfl, h2⟩⟩
  · refine ⟨_, h3, rfl, .inr ⟨data.take k, data.drop k, by simp, ?_, rfl, by simp; omega⟩⟩
    intro h0
    have := congrArg List.length h0
    simp at this
    rcases this with h | h
    · omega
    · rw [h] at h2; simp at h2; omega

example : splitOf .sentences () [0x61, 0xF0, 0x9F] true = .ok ⟨3, some [0x61, 0xF0, 0x9F], none⟩ := by
  decide +kernel

/-- The table of a package. -/
def trieOf : Pkg → Trie
  | .graphemes => Graphemes.trie
  | .words => Words.trie
  | .phrases => Phrases.trie
  | .sentences => Sentences.trie

theorem trieOf_wf (p : Pkg) : (trieOf p).Wf := by
  cases p
  · exact Graphemes.wf
  · exact Words.wf
  · exact Phrases.wf
  · exact Sentences.wf

/-- **C37** Lookup returns for every non-empty input: it does not index the tables out of range and
takes at most the available bytes. It takes none only if the input ends before the announced length. -/
theorem C37_total (p : Pkg) (b : UInt8) (rest : Bytes) :
    ∃ v w, (trieOf p).lookup (b :: rest) = .ok (v, w) ∧ w ≤ rest.length + 1 ∧ w ≤ announced b
      ∧ (w = 0 ↔ rest.length + 1 < announced b) := by
  obtain ⟨v, w, h1, h2, _, _⟩ := (trieOf_wf p).lookup_ok (s := b :: rest) (by simp)
  refine ⟨v, w, h1, h2, ?_⟩
  unfold announced
  simp only [UInt8.lt_iff_toNat_lt]
  have e1 : (0xC2 : UInt8).toNat = 0xC2 := rfl
  have e2 : (0xE0 : UInt8).toNat = 0xE0 := rfl
  have e3 : (0xF0 : UInt8).toNat = 0xF0 := rfl
  have e4 : (0xF8 : UInt8).toNat = 0xF8 := rfl
  rw [e1, e2, e3, e4]
  match rest, h1 with
  | [], h1 =>
    simp only [Trie.lookup] at h1
    repeat' split at h1
    all_goals cases h1
    all_goals (simp only [List.length_nil]; repeat' split)
    all_goals first | omega | (simp; done) | decide
  | [_], h1 =>
    simp only [Trie.lookup] at h1
    repeat' split at h1
    all_goals cases h1
    all_goals (simp only [List.length_cons, List.length_nil]; repeat' split)
    all_goals first | omega | (simp; done) | decide
  | [_, _], h1 =>
    simp only [Trie.lookup] at h1
    repeat' split at h1
    all_goals cases h1
    all_goals (simp only [List.length_cons, List.length_nil]; repeat' split)
    all_goals first | omega | (simp; done) | decide
  | _ :: _ :: _ :: _, h1 =>
    simp only [Trie.lookup] at h1
    repeat' split at h1
    all_goals cases h1
    all_goals (simp only [List.length_cons]; repeat' split)
    all_goals first | omega | (simp; done) | decide

/-- **C37** For the encoding of a character lookup takes exactly that encoding and gives the same
property whatever follows. -/
theorem C37_char (p : Pkg) (c : Char) :
    ∃ v, ∀ rest, (trieOf p).lookup (String.utf8EncodeChar c ++ rest)
      = .ok (v, (String.utf8EncodeChar c).length) :=
  ⟨_, (trieOf_wf p).lookup_encode c⟩

example : (trieOf .graphemes).lookup [0xCC, 0x81, 0xFF] = .ok (36, 2) := by decide +kernel
example : (trieOf .graphemes).lookup [0xE2, 0x80] = .ok (0, 0) := by decide +kernel

end Uax29
