import Verif.Spec.Pieces
import Verif.Spec.WordClasses
/-! # Specification: the properties of the pieces of a text when joiners are set, exactly -/
namespace Uax29.Spec

/-- The rune of a piece: U+FFFD for ill-formed bytes. -/
def Piece.rune : Piece → Int
  | .char c => (c.val.toNat : Int)
  | .bad _ => 0xFFFD

/-- The properties of a piece without joiners. -/
def Piece.wordClasses : Piece → WSet := Piece.classes Spec.wordClasses fun _ => false

/-- The properties of a piece after the first one of a token: those of `M` count as MidNumLet, too. -/
def middleClasses (M : List Int) (p : Piece) : WSet := fun g =>
  p.wordClasses g || (g == .MidNumLet && decide (p.rune ∈ M))

/-- The properties of the first piece of a token, where `next` is the piece after it: those of `L`
count as AHLetter, too, except that
* those that WB4 ignores stay as they are;
* newlines count as AHLetter, and no longer as newlines, before a letter or number, and stay as they
  are before anything else. -/
def leadClasses (L : List Int) (p : Piece) (next : Option Piece) : WSet :=
  if p.rune ∉ L then p.wordClasses
  else if p.wordClasses.ignorable then p.wordClasses
  else if p.wordClasses.newline then
    if next.any fun q => q.wordClasses.alnum false then fun g => g == .ALetter || g == .HebrewLetter
    else p.wordClasses
  else fun g => p.wordClasses g || g == .ALetter || g == .HebrewLetter

/-- The properties of the pieces of a text at whose start a token begins. -/
def joinedClasses (M L : List Int) : List Piece → List WSet
  | [] => []
  | p :: ps => leadClasses L p ps.head? :: ps.map (middleClasses M)

/-- `g` is the first word of the pieces `g ++ rest`, by the word rules for these properties. -/
def JoinedWord (M L : List Int) (g rest : List Piece) : Prop :=
  (∀ n, 0 < n → n < g.length →
    wordBreak ((joinedClasses M L (g ++ rest)).take n) ((joinedClasses M L (g ++ rest)).drop n) = false)
  ∧ (rest ≠ [] →
    wordBreak ((joinedClasses M L (g ++ rest)).take g.length) ((joinedClasses M L (g ++ rest)).drop g.length) = true)

/-- The properties of the pieces of a text; those whose rune is in `L` count as AHLetter at its start. -/
def leadingPieces (L : List Int) : List Piece → List WSet
  | [] => []
  | p :: ps => (fun g => p.wordClasses g || ((g == .ALetter || g == .HebrewLetter) && decide (p.rune ∈ L)))
      :: ps.map Piece.wordClasses

/-- Is the piece an ASCII letter or digit? -/
def Piece.asciiAlnum : Piece → Bool
  | .char c => c.isAlphanum
  | .bad _ => false

/-- The number of ASCII letters and digits at the start, if there are any and if nothing or a space
follows them; `t` are the bytes after the pieces. -/
def fastWord (t : Bytes) (ps : List Piece) : Option Nat :=
  let n := (ps.takeWhile Piece.asciiAlnum).length
  let rest := (ps.drop n).flatMap Piece.bytes ++ t
  if n ≠ 0 ∧ (rest = [] ∨ rest.head? = some 0x20) then some n else none

end Uax29.Spec
