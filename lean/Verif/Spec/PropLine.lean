import Verif.Spec.PropFile
/-!
# Specification: any text as a file of the Unicode Character Database

What the generator is to do with a text that need not be in the format of `Spec/PropFile.lean`. Nothing
here mentions the model.
-/
namespace Uax29.Spec.PropFile

/-- White space: the property `White_Space`. -/
def White (c : Char) : Prop :=
  c.toNat ∈ [0x20, 0x85, 0xA0, 0x1680, 0x2028, 0x2029, 0x202F, 0x205F, 0x3000] ∨ (9 ≤ c.toNat ∧ c.toNat ≤ 13)
    ∨ (0x2000 ≤ c.toNat ∧ c.toNat ≤ 0x200A)

/-- `t` is `s` without the white space around it. -/
def Trimmed (s t : List Char) : Prop :=
  ∃ a b, s = a ++ t ++ b ∧ (∀ c ∈ a, White c) ∧ (∀ c ∈ b, White c) ∧ (∀ c, t.head? = some c → ¬ White c)
    ∧ ∀ c, t.getLast? = some c → ¬ White c

/-- `p` is the part of `s` before the first separator, and `r` what follows the separator, if there is one. -/
def Cut (sep s p : List Char) : Option (List Char) → Prop
  | none => s = p ∧ ¬ sep <:+: s
  | some r => s = p ++ sep ++ r ∧ ¬ sep <:+: p ++ sep.dropLast

/-- A hexadecimal number in Go, after `0x`: single underscores may stand before digits. -/
inductive Literal : List Char → Nat → Prop
  | one {c d} : Digit c d → Literal [c] d
  | under {c d} : Digit c d → Literal ['_', c] d
  | more {s n c d} : Literal s n → Digit c d → Literal (s ++ [c]) (16 * n + d)
  | moreUnder {s n c d} : Literal s n → Digit c d → Literal (s ++ ['_', c]) (16 * n + d)

/-- A number that fits Go's `int32`. -/
def Number (s : List Char) (n : Nat) : Prop := Literal s n ∧ n < 2 ^ 31

/-- The first and the last number of a field; `none` if there is a text that is not a number. A second
pair of dots ends the field. -/
inductive Codes : List Char → Option (Nat × Nat) → Prop
  | one {s p n} : Cut ['.', '.'] s p none → Number p n → Codes s (some (n, n))
  | two {s p r q x lo hi} : Cut ['.', '.'] s p (some r) → Number p lo → Cut ['.', '.'] r q x → Number q hi →
      Codes s (some (lo, hi))
  | first {s p x} : Cut ['.', '.'] s p x → (∀ n, ¬ Number p n) → Codes s none
  | second {s p r q x} : Cut ['.', '.'] s p (some r) → Cut ['.', '.'] r q x → (∀ n, ¬ Number q n) → Codes s none

/-- How reading may stop. -/
inductive Stop where
  /-- with an error -/
  | refused
  /-- with a panic -/
  | crash
  /-- not at all -/
  | endless
  deriving DecidableEq

/-- The name in a text that may end with a comment. -/
def Named (s n : List Char) : Prop := ∃ p x, Cut ['#'] s p x ∧ Trimmed p n

/-- The codes of a line, in the field before its first semicolon, and what follows the semicolon. -/
def Starts (l : List Char) (k : Option (Nat × Nat)) (r : Option (List Char)) : Prop :=
  (∀ c, l.head? = some c → c ≠ '\n' ∧ c ≠ '#') ∧ ∃ f t, Cut [';'] l f r ∧ Trimmed f t ∧ Codes t k

/-- What a line with its newline means: nothing, an entry with a name and two numbers, or the end of reading. -/
inductive Reads : List Char → Except Stop (Option (List Char × Nat × Nat)) → Prop
  | skip {l c} : l.head? = some c → c = '\n' ∨ c = '#' → Reads l (.ok none)
  | refused {l r} : Starts l none r → Reads l (.error .refused)
  | endless {l lo hi r} : Starts l (some (lo, hi)) r → lo ≠ hi → hi = 2 ^ 31 - 1 → Reads l (.error .endless)
  | crash {l lo hi} : Starts l (some (lo, hi)) none → lo = hi ∨ hi ≠ 2 ^ 31 - 1 → Reads l (.error .crash)
  | value {l lo hi r n} : Starts l (some (lo, hi)) (some r) → lo = hi ∨ hi ≠ 2 ^ 31 - 1 → ';' ∉ r → Named r n →
      Reads l (.ok (some (n, lo, hi)))
  | propertyValue {l lo hi r g n r' u x v} : Starts l (some (lo, hi)) (some r) → lo = hi ∨ hi ≠ 2 ^ 31 - 1 →
      Cut [';'] r g (some r') → Trimmed g n → Cut [';'] r' u x → Named u v →
      Reads l (.ok (some (n ++ '_' :: v, lo, hi)))

/-- What the lines mean: the entries, or how reading stops at the first line that stops it. -/
inductive ReadsAll : List (List Char) → Except Stop (List (List Char × Nat × Nat)) → Prop
  | nil : ReadsAll [] (.ok [])
  | stop {l ls s} : Reads l (.error s) → ReadsAll (l :: ls) (.error s)
  | next {l ls o es} : Reads l (.ok o) → ReadsAll ls (.ok es) → ReadsAll (l :: ls) (.ok (o.toList ++ es))
  | later {l ls o s} : Reads l (.ok o) → ReadsAll ls (.error s) → ReadsAll (l :: ls) (.error s)

/-- The lines of a text, each with its newline. What follows the last newline is not a line. -/
def Lines (text : List Char) (ls : List (List Char)) : Prop :=
  ∃ tail, text = ls.flatten ++ tail ∧ '\n' ∉ tail ∧ ∀ l ∈ ls, ∃ s, l = s ++ ['\n'] ∧ '\n' ∉ s

end Uax29.Spec.PropFile
