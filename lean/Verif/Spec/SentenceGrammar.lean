import Verif.Spec.SentenceRules
/-!
# Specification: a grammar for sentences

UAX #29 gives no regular expression for sentences. This is one, written over the property of the characters, without the rules.
-/
namespace Uax29.Spec

variable (cl : Char → SB)

/-- `(Extend | Format)*`, which may come after every character. -/
def SMarks (m : List Char) : Prop := ∀ d ∈ m, cl d = .Extend ∨ cl d = .Format

/-- Terminators, each with closing characters and blanks after it: `((STerm | ATerm) Close* Sp*)+`. The argument is the last of
the terminators. -/
inductive Closings : Char → List Char → Prop
  | one (t : Char) (y z : List Char) (ht : cl t = .STerm ∨ cl t = .ATerm)
      (hy : ∀ d ∈ y, cl d = .Close ∨ cl d = .Extend ∨ cl d = .Format) (hz : ∀ d ∈ z, cl d = .Sp ∨ cl d = .Extend ∨ cl d = .Format) :
      Closings t (t :: (y ++ z))
  | more {t : Char} {s : List Char} (t' : Char) (y z : List Char) (hs : Closings t s) (ht : cl t' = .STerm ∨ cl t' = .ATerm)
      (hy : ∀ d ∈ y, cl d = .Close ∨ cl d = .Extend ∨ cl d = .Format) (hz : ∀ d ∈ z, cl d = .Sp ∨ cl d = .Extend ∨ cl d = .Format) :
      Closings t' (s ++ t' :: (y ++ z))

/-- The inside of a sentence, where terminators only are with what shows that the sentence goes on: a comma or such, a lower case
letter before any other letter (after a full stop), a digit or a capital letter directly after a full stop. The argument is the
last character. -/
inductive Inner : Option Char → List Char → Prop
  | nil : Inner none []
  | char {o : Option Char} {s : List Char} (c : Char) (m : List Char) (hs : Inner o s)
      (hc : cl c ≠ .STerm ∧ cl c ≠ .ATerm ∧ cl c ≠ .CR ∧ cl c ≠ .LF ∧ cl c ≠ .Sep) (hm : SMarks cl m) : Inner (some c) (s ++ c :: m)
  /-- "?, " -/
  | comma {o : Option Char} {s : List Char} {t : Char} {g : List Char} (c : Char) (m : List Char) (hs : Inner o s)
      (hg : Closings cl t g) (hc : cl c = .SContinue) (hm : SMarks cl m) : Inner (some c) (s ++ g ++ c :: m)
  /-- "etc.) (and" -/
  | lower {o : Option Char} {s : List Char} {t : Char} {g : List Char} (n : List Char) (c : Char) (m : List Char) (hs : Inner o s)
      (hg : Closings cl t g) (ht : cl t = .ATerm) (hn : ∀ d ∈ n, cl d ≠ .OLetter ∧ cl d ≠ .Upper ∧ cl d ≠ .Lower ∧ cl d ≠ .STerm
        ∧ cl d ≠ .ATerm ∧ cl d ≠ .CR ∧ cl d ≠ .LF ∧ cl d ≠ .Sep)
      (hc : cl c = .Lower) (hm : SMarks cl m) : Inner (some c) (s ++ g ++ n ++ c :: m)
  /-- "3.4" -/
  | number {o : Option Char} {s : List Char} {t : Char} {g : List Char} (m : List Char) (c : Char) (m' : List Char) (hs : Inner o s)
      (hg : Closings cl t (g ++ t :: m)) (ht : cl t = .ATerm) (hm : SMarks cl m) (hc : cl c = .Numeric) (hm' : SMarks cl m') :
      Inner (some c) (s ++ (g ++ t :: m) ++ c :: m')
  /-- "U.S" -/
  | initial {u : Char} {s : List Char} (t : Char) (m : List Char) (c : Char) (m' : List Char) (hs : Inner (some u) s)
      (hu : cl u = .Upper ∨ cl u = .Lower) (ht : cl t = .ATerm) (hm : SMarks cl m) (hc : cl c = .Upper) (hm' : SMarks cl m') :
      Inner (some c) (s ++ t :: m ++ c :: m')

/-- A sentence: the inside, terminators, and a line end or separator; each of them may be missing. -/
inductive SentenceForm : List Char → Prop
  | mk {o : Option Char} {s : List Char} (g e : List Char) (hs : Inner cl o s) (hg : g = [] ∨ ∃ t, Closings cl t g)
      (he : e = [] ∨ (∃ c, e = [c] ∧ (cl c = .CR ∨ cl c = .LF ∨ cl c = .Sep)) ∨ ∃ c d, e = [c, d] ∧ cl c = .CR ∧ cl d = .LF)
      (hne : s ++ g ++ e ≠ []) : SentenceForm (s ++ g ++ e)

end Uax29.Spec
