import Verif.Spec.Text
/-! # Specification: arbitrary bytes as a sequence of pieces -/
namespace Uax29.Spec

/-- The length a first byte announces; 1 for the bytes that cannot start an encoding. -/
def announced (b : UInt8) : Nat :=
  if b < 0xC2 then 1 else if b < 0xE0 then 2 else if b < 0xF0 then 3 else if b < 0xF8 then 4 else 1

/-- The bytes 80 to BF. -/
def continuation (b : UInt8) : Bool := 0x80 ≤ b && b ≤ 0xBF

/-- The first byte and the continuation bytes after it, as long as it announces more. -/
def pieceLength : Bytes → Nat
  | [] => 0
  | b :: rest => 1 + ((rest.take (announced b - 1)).takeWhile continuation).length

/-- An encoded character, or bytes that are not one. -/
inductive Piece
  | char (c : Char)
  | bad (bs : Bytes)

/-- The bytes of a piece. -/
def Piece.bytes : Piece → Bytes
  | .char c => String.utf8EncodeChar c
  | .bad bs => bs

/-- The properties of a piece: those of the character, or the given ones of ill-formed bytes. -/
def Piece.classes {σ : Type} (ofChar : Char → σ) (ofBad : σ) : Piece → σ
  | .char c => ofChar c
  | .bad _ => ofBad

/-- `Pieces d ps t`: `d` is taken apart into the pieces `ps`, and bytes `t` at the end that are fewer
than their first byte announces. -/
inductive Pieces : Bytes → List Piece → Bytes → Prop
  | nil : Pieces [] [] []
  | cut {b : UInt8} {rest : Bytes} (short : rest.length + 1 < announced b) : Pieces (b :: rest) [] (b :: rest)
  | char {d t : Bytes} {ps : List Piece} (c : Char) (rest : Pieces d ps t) :
      Pieces (String.utf8EncodeChar c ++ d) (.char c :: ps) t
  | bad {b : UInt8} {bs d t : Bytes} {ps : List Piece} (long : announced b ≤ (b :: bs ++ d).length)
      (ill : ∀ c e, b :: bs ++ d ≠ String.utf8EncodeChar c ++ e) (len : pieceLength (b :: bs ++ d) = (b :: bs).length)
      (rest : Pieces d ps t) : Pieces (b :: bs ++ d) (.bad (b :: bs) :: ps) t

/-- The bytes of tokens given by their pieces; the bytes `t` at the end belong to the last token. -/
def tokenBytes (t : Bytes) : List (List Piece) → List Bytes
  | [] => if t = [] then [] else [t]
  | [g] => [g.flatMap Piece.bytes ++ t]
  | g :: gs => g.flatMap Piece.bytes :: tokenBytes t gs

end Uax29.Spec
