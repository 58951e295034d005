import Verif.Model.Go
/-!
# `unicode/utf8` from Go's standard library, as far as the repository uses it

Not in /repo; written from the documented algorithm of `utf8.DecodeRune`.
-/
namespace Uax29.Utf8

/-- `utf8.RuneError` = U+FFFD. -/
def runeError : Nat := 0xFFFD

/-- `utf8.RuneSelf`. -/
def runeSelf : Nat := 0x80

/-- The row of `utf8.first`/`utf8.acceptRanges` for a first byte `p0 ≥ 0x80`: the size of the
encoding and the range allowed for the second byte; `none` for an illegal first byte. -/
def first (p0 : Nat) : Option (Nat × Nat × Nat) :=
  if p0 < 0xC2 then none
  else if p0 < 0xE0 then some (2, 0x80, 0xBF)
  else if p0 = 0xE0 then some (3, 0xA0, 0xBF)
  else if p0 < 0xED then some (3, 0x80, 0xBF)
  else if p0 = 0xED then some (3, 0x80, 0x9F)
  else if p0 < 0xF0 then some (3, 0x80, 0xBF)
  else if p0 = 0xF0 then some (4, 0x90, 0xBF)
  else if p0 < 0xF4 then some (4, 0x80, 0xBF)
  else if p0 = 0xF4 then some (4, 0x80, 0x8F)
  else none

/-- `utf8.DecodeRune` / `utf8.DecodeRuneInString`: the first rune of `p` and its width, with
`(RuneError, 0)` for empty input and `(RuneError, 1)` for an invalid encoding. -/
def decodeRune (p : Bytes) : Nat × Nat :=
  match p with
  | [] => (runeError, 0)
  | b0 :: rest =>
    let p0 := b0.toNat
    if p0 < 0x80 then (p0, 1)
    else
      match first p0 with
      | none => (runeError, 1)
      | some (sz, lo, hi) =>
        if p.length < sz then (runeError, 1)
        else
          match rest with
          | [] => (runeError, 1)
          | b1 :: rest =>
            let c1 := b1.toNat
            if c1 < lo ∨ hi < c1 then (runeError, 1)
            else if sz ≤ 2 then (p0 % 32 * 64 + c1 % 64, 2)
            else
              match rest with
              | [] => (runeError, 1)
              | b2 :: rest =>
                let c2 := b2.toNat
                if c2 < 0x80 ∨ 0xBF < c2 then (runeError, 1)
                else if sz ≤ 3 then (p0 % 16 * 4096 + c1 % 64 * 64 + c2 % 64, 3)
                else
                  match rest with
                  | [] => (runeError, 1)
                  | b3 :: _ =>
                    let c3 := b3.toNat
                    if c3 < 0x80 ∨ 0xBF < c3 then (runeError, 1)
                    else (p0 % 8 * 262144 + c1 % 64 * 4096 + c2 % 64 * 64 + c3 % 64, 4)

end Uax29.Utf8
