import Verif.Model.TrieGen
/-!
# `hash/crc64` from Go's standard library, as far as the generator uses it

Not in /repo; written from the documented algorithm: `crc64.New(crc64.MakeTable(crc64.ISO))`
(triegen.go:399, 406, 445), fed by `binary.Write(hasher, binary.BigEndian, x)`.
-/
namespace Uax29.Gen

/-- `crc64.ISO`. -/
def crcIso : Nat := 0xD800000000000000

/-- One round of `crc64.makeTable`. -/
def crcRound (crc : Nat) : Nat := if crc % 2 = 1 then (crc >>> 1) ^^^ crcIso else crc >>> 1

/-- The entry `i` of `crc64.MakeTable(crc64.ISO)`: eight rounds. -/
def crcEntry (i : Nat) : Nat :=
  crcRound (crcRound (crcRound (crcRound (crcRound (crcRound (crcRound (crcRound i)))))))

/-- One byte of `crc64.update`: `tab[byte(crc)^v] ^ (crc >> 8)`. -/
def crcByte (crc v : Nat) : Nat := crcEntry ((crc ^^^ v) % 256) ^^^ (crc >>> 8)

/-- The complement `^crc` of a `uint64`. -/
def not64 (x : Nat) : Nat := x ^^^ 0xFFFFFFFFFFFFFFFF

/-- The eight bytes of a `uint64` in `binary.BigEndian`. -/
def bigEndian (w : Nat) : List Nat :=
  [(w >>> 56) % 256, (w >>> 48) % 256, (w >>> 40) % 256, (w >>> 32) % 256,
   (w >>> 24) % 256, (w >>> 16) % 256, (w >>> 8) % 256, w % 256]

/-- The CRC-64 of a sequence of `uint64`s. -/
def crc64 (words : List Nat) : Nat := not64 ((words.flatMap bigEndian).foldl crcByte (not64 0))

end Uax29.Gen
