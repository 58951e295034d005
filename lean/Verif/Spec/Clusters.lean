import Verif.Spec.GraphemeRules
/-! # Specification of particular grapheme clusters -/
namespace Uax29.Spec

/-- Pairs from the left; the last one may be single. -/
def pairs {α : Type} : List α → List (List α)
  | [] => []
  | [a] => [[a]]
  | a :: b :: l => [a, b] :: pairs l

/-- One of the 26 regional indicator symbols, U+1F1E6 to U+1F1FF. -/
def regionalIndicator (c : Char) : Prop := 0x1F1E6 ≤ c.toNat ∧ c.toNat ≤ 0x1F1FF

/-- Elements, each a character and others that extend it, joined by ZWJ. -/
def zwjSequence : List (Char × List Char) → List Char
  | [] => []
  | [(p, ext)] => p :: ext
  | (p, ext) :: l => p :: ext ++ '‍' :: zwjSequence l

/-- A Hangul syllable block by classes: `L* (V+ | LV V* | LVT) T*`, `L+` or `T+`, with a function that
gives the classes of a character. -/
inductive Hangul (cl : Char → GSet) : List Char → Prop
  | vowels (l v t : List Char) (hl : ∀ c ∈ l, cl c .L = true) (hv : ∀ c ∈ v, cl c .V = true)
      (ht : ∀ c ∈ t, cl c .T = true) (hne : v ≠ []) : Hangul cl (l ++ v ++ t)
  | lv (l v t : List Char) (x : Char) (hl : ∀ c ∈ l, cl c .L = true) (hx : cl x .LV = true)
      (hv : ∀ c ∈ v, cl c .V = true) (ht : ∀ c ∈ t, cl c .T = true) : Hangul cl (l ++ x :: v ++ t)
  | lvt (l t : List Char) (x : Char) (hl : ∀ c ∈ l, cl c .L = true) (hx : cl x .LVT = true)
      (ht : ∀ c ∈ t, cl c .T = true) : Hangul cl (l ++ x :: t)
  | leading (l : List Char) (hl : ∀ c ∈ l, cl c .L = true) (hne : l ≠ []) : Hangul cl l
  | trailing (t : List Char) (ht : ∀ c ∈ t, cl c .T = true) (hne : t ≠ []) : Hangul cl t

/-- The graphemes of ASCII text: single bytes, and CR LF. -/
def asciiGraphemes : List UInt8 → List (List UInt8)
  | [] => []
  | [a] => [[a]]
  | a :: b :: l => if a = 0x0D ∧ b = 0x0A then [a, b] :: asciiGraphemes l else [a] :: asciiGraphemes (b :: l)

end Uax29.Spec
