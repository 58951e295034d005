import Verif.Spec.Split
/-! # Specification of iterators with a split function of the user -/
namespace Uax29.Spec

/-- At the end of the data the split function takes a non-empty token from the front of every
non-empty rest. -/
def WellBehaved (f : SplitFn) : Prop :=
  ∀ d, d ≠ [] → ∃ tok rest, d = tok ++ rest ∧ tok ≠ [] ∧ f d true = .ok ⟨tok.length, some tok, none⟩

/-- `[a-zA-Z0-9]` -/
def asciiAlnum (b : UInt8) : Prop :=
  (0x61 ≤ b.toNat ∧ b.toNat ≤ 0x7A) ∨ (0x41 ≤ b.toNat ∧ b.toNat ≤ 0x5A) ∨ (0x30 ≤ b.toNat ∧ b.toNat ≤ 0x39)

/-- `tok` consists of ASCII letters and digits and is followed by a space or by nothing. -/
def FastWord (tok rest : Bytes) : Prop :=
  tok ≠ [] ∧ (∀ b ∈ tok, asciiAlnum b) ∧ (rest = [] ∨ rest.head? = some 0x20)

/-- Like `Splits`, but where a fast word begins it is taken without asking `f`. -/
inductive FastSplits (f : SplitFn) : Bytes → List Bytes → Prop
  | nil : FastSplits f [] []
  | fast {tok rest : Bytes} {more : List Bytes} (word : FastWord tok rest)
      (others : FastSplits f rest more) : FastSplits f (tok ++ rest) (tok :: more)
  | slow {tok rest : Bytes} {more : List Bytes} (ne : tok ≠ [])
      (noFast : ∀ a b, tok ++ rest = a ++ b → ¬ FastWord a b)
      (first : f (tok ++ rest) true = .ok ⟨tok.length, some tok, none⟩)
      (others : FastSplits f rest more) : FastSplits f (tok ++ rest) (tok :: more)

end Uax29.Spec
