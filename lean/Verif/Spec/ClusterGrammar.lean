import Verif.Spec.Clusters
/-!
# Specification: the regular expression for grapheme clusters

UAX #29 gives, besides the rules, a regular expression for extended grapheme clusters (section 3, Tables 1b and 1c):

    crlf | Control | precore* core postcore*

It is written here over the properties of the characters. It does not use the rules.
-/
namespace Uax29.Spec

variable {cl : Char → GSet}

/-- `xpicto-sequence := \p{Extended_Pictographic} (Extend* ZWJ \p{Extended_Pictographic})*` -/
inductive Picto (cl : Char → GSet) : List Char → Prop
  | one (p : Char) (hp : cl p .ExtendedPictographic = true) : Picto cl [p]
  | more (s ext : List Char) (z p : Char) (hs : Picto cl s) (he : ∀ e ∈ ext, cl e .Extend = true)
      (hz : cl z .ZWJ = true) (hp : cl p .ExtendedPictographic = true) : Picto cl (s ++ ext ++ [z, p])

/-- `conjunctCluster := \p{InCB=Consonant} ([\p{InCB=Extend} \p{InCB=Linker}]* \p{InCB=Linker} [\p{InCB=Extend} \p{InCB=Linker}]*
\p{InCB=Consonant})*`. In UAX #29 the last star is a plus; a single consonant is a `core` anyway. -/
inductive Conjuncts (cl : Char → GSet) : List Char → Prop
  | one (c : Char) (hc : cl c .InCBConsonant = true) : Conjuncts cl [c]
  | more (s m : List Char) (c : Char) (hs : Conjuncts cl s) (hm : ∀ e ∈ m, cl e .InCBExtend = true ∨ cl e .InCBLinker = true)
      (hl : ∃ e ∈ m, cl e .InCBLinker = true) (hc : cl c .InCBConsonant = true) : Conjuncts cl (s ++ m ++ [c])

/-- `core := hangul-syllable | RI-sequence | xpicto-sequence | conjunctCluster | [^Control CR LF]` -/
inductive Core (cl : Char → GSet) : List Char → Prop
  | hangul {s : List Char} (h : Hangul cl s) : Core cl s
  | flag (a b : Char) (ha : cl a .RegionalIndicator = true) (hb : cl b .RegionalIndicator = true) : Core cl [a, b]
  | picto {s : List Char} (h : Picto cl s) : Core cl s
  | conjuncts {s : List Char} (h : Conjuncts cl s) : Core cl s
  | other (c : Char) (h : cl c .Control = false ∧ cl c .CR = false ∧ cl c .LF = false) : Core cl [c]

/-- `crlf | Control | precore* core postcore*`, where `precore := Prepend`, `postcore := [Extend ZWJ SpacingMark]`, and `Control`
stands for `Control`, `CR` and `LF`. -/
inductive Cluster (cl : Char → GSet) : List Char → Prop
  | crlf (c d : Char) (hc : cl c .CR = true) (hd : cl d .LF = true) : Cluster cl [c, d]
  | control (c : Char) (h : cl c .Control = true ∨ cl c .CR = true ∨ cl c .LF = true) : Cluster cl [c]
  | cluster (pre core post : List Char) (hpre : ∀ c ∈ pre, cl c .Prepend = true) (hcore : Core cl core)
      (hpost : ∀ c ∈ post, cl c .Extend = true ∨ cl c .ZWJ = true ∨ cl c .SpacingMark = true) :
      Cluster cl (pre ++ core ++ post)

/-- `ts` is `s`, divided from left to right, where each part is the longest match of `R` in what is left. -/
inductive LongestMatches {α : Type} (R : List α → Prop) : List α → List (List α) → Prop
  | nil : LongestMatches R [] []
  | cons {t rest : List α} {ts : List (List α)} (ht : R t) (hne : t ≠ []) (hmax : ∀ u, R u → u <+: t ++ rest → u <+: t)
      (hrest : LongestMatches R rest ts) : LongestMatches R (t ++ rest) (t :: ts)

end Uax29.Spec
