import Verif.Spec.Text
/-! # Specification: a program that tokenizes text as it arrives -/
namespace Uax29.Spec

/-- A program that gets a text in parts and tokenizes with `T`. When a part comes, it tokenizes what it has kept together with
the part, passes on all tokens but the last `k` and keeps these. In the end it passes on the tokens of what it has kept. The
result is what it passes on after each part, and in the end. -/
def passedOn (T : List UInt8 → List (List UInt8)) (k : Nat) : List UInt8 → List (List UInt8) → List (List (List UInt8))
  | kept, [] => [T kept]
  | kept, part :: parts =>
    (T (kept ++ part)).take ((T (kept ++ part)).length - k)
      :: passedOn T k ((T (kept ++ part)).drop ((T (kept ++ part)).length - k)).flatten parts

end Uax29.Spec
