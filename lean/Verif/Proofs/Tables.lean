import Verif.Proofs.Lookup
/-! # Checks of the shipped tables -/
namespace Uax29

theorem Graphemes.wf : Graphemes.trie.Wf := .of_wf (by decide +kernel)
theorem Words.wf : Words.trie.Wf := .of_wf (by decide +kernel)
theorem Phrases.wf : Phrases.trie.Wf := .of_wf (by decide +kernel)
theorem Sentences.wf : Sentences.trie.Wf := .of_wf (by decide +kernel)

/-- All values of a trie, in the table and the default `0`, satisfy `p`. -/
def Trie.allValues (T : Trie) (p : Nat → Bool) : Bool := p 0 && T.values.all fun b => b.all p

theorem Trie.IsValue.of_all {T : Trie} {p : Nat → Bool} (h : T.allValues p = true) {v : Nat}
    (hv : T.IsValue v) : p v = true := by
  simp only [Trie.allValues, Bool.and_eq_true, List.all_eq_true] at h
  rcases hv with rfl | ⟨b, hb, hvb⟩
  · exact h.1
  · exact h.2 b hb v hvb

end Uax29
