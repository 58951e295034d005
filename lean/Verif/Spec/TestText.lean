import Verif.Spec.PropLine
import Verif.Spec.Text
/-!
# Specification: any text as a file of tests

What the generator is to do with a text that need not be in the format of `Spec/PropFile.lean`. Nothing
here mentions the model.
-/
namespace Uax29.Spec.PropFile

/-- The lines of a text without their newlines. After the last newline there is a line only if it is not empty. -/
inductive TextLines : List Char → List (List Char) → Prop
  | nil : TextLines [] []
  | last {l} : l ≠ [] → '\n' ∉ l → TextLines l [l]
  | line {l t ls} : '\n' ∉ l → TextLines t ls → TextLines (l ++ '\n' :: t) (l :: ls)

/-- `b` is the line `l` without a carriage return at its end. -/
def Bare (l b : List Char) : Prop := l = b ++ ['\r'] ∨ (l = b ∧ l.getLast? ≠ some '\r')

/-- The parts of a text between separators. -/
inductive Parts (sep : Char) : List Char → List (List Char) → Prop
  | last {s} : sep ∉ s → Parts sep s [s]
  | cons {p r ps} : sep ∉ p → Parts sep r ps → Parts sep (p ++ sep :: r) (p :: ps)

/-- If `R` tells what each item means, this is what a list of items means: all that its items mean, or how
reading stops at the first that stops it. -/
inductive Each {α β : Type} (R : α → Except Stop (List β) → Prop) : List α → Except Stop (List β) → Prop
  | nil : Each R [] (.ok [])
  | stop {a as s} : R a (.error s) → Each R (a :: as) (.error s)
  | later {a as x s} : R a (.ok x) → Each R as (.error s) → Each R (a :: as) (.error s)
  | next {a as x y} : R a (.ok x) → Each R as (.ok y) → Each R (a :: as) (.ok (x ++ y))

/-- What stands between spaces: nothing, if it has fewer than four bytes, or a character by its number. -/
inductive Value : List Char → Except Stop (List Char) → Prop
  | short {v} : (utf8 v).length < 4 → Value v (.ok [])
  | refused {v} : 4 ≤ (utf8 v).length → (∀ n, ¬ Number v n) → Value v (.error .refused)
  | crash {v n} : 4 ≤ (utf8 v).length → Number v n → (∀ c : Char, c.toNat ≠ n) → Value v (.error .crash)
  | char {v} {c : Char} : 4 ≤ (utf8 v).length → Number v c.toNat → Value v (.ok [c])

/-- What stands between signs `÷`: nothing, if it has fewer than four bytes, or a segment. -/
inductive Expects : List Char → Except Stop (List (List Char)) → Prop
  | short {s} : (utf8 s).length < 4 → Expects s (.ok [])
  | stop {s vs e} : 4 ≤ (utf8 s).length → Parts ' ' s vs → Each Value vs (.error e) → Expects s (.error e)
  | segment {s vs cs} : 4 ≤ (utf8 s).length → Parts ' ' s vs → Each Value vs (.ok cs) → Expects s (.ok [cs])

/-- What a line means: nothing, or a test with its segments and its comment. A line of 65536 bytes is too long. -/
inductive Tests : List Char → Except Stop (List (List (List Char) × List Char)) → Prop
  | long {l} : 65536 ≤ (utf8 l).length → Tests l (.error .refused)
  | comment {l k} : (utf8 l).length < 65536 → l = '#' :: k → Tests l (.ok [])
  | crash {l b} : (utf8 l).length < 65536 → Bare l b → '#' ∉ b → Tests l (.error .crash)
  | stop {l b d r ss e} : (utf8 l).length < 65536 → Bare l b → Cut ['#'] b d (some r) → d ≠ [] → Parts '÷' d ss →
      Each Expects ss (.error e) → Tests l (.error e)
  | test {l b d r k x c ss css} : (utf8 l).length < 65536 → Bare l b → Cut ['#'] b d (some r) → d ≠ [] → Parts '÷' d ss →
      Each Expects ss (.ok css) → Cut ['#'] r k x → Trimmed k c → Tests l (.ok [(css, c)])

end Uax29.Spec.PropFile
