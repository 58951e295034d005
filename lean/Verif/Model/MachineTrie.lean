import Verif.Model.Trie
/-!
# The lookup with the integers of Go

`Model/Trie.lean` has natural numbers for the entries of the tables and for the indexes. Here entries are numbers of `w` bits,
`type property uint32` (graphemes/trie.go:6, words/trie.go:6, phrases/trie.go:6) or `uint16` (sentences/trie.go:6), indexes are
`uint32`, and sums and shifts drop what does not fit.
-/
namespace Uax29

/-- `table[o]`, an entry of type `property`. -/
def entryAt (w : Nat) (table : List (List Nat)) (o : UInt32) : Res (BitVec w) :=
  match tableAt table o.toNat with
  | .error f => .error f
  | .ok v => .ok (BitVec.ofNat w v)

/-- The conversion `uint32(i)` of a `property` — e.g. graphemes/trie.go:47,57. -/
def toUInt32 {w : Nat} (i : BitVec w) : UInt32 := UInt32.ofBitVec (i.setWidth 32)

/-- `lookupValue(n uint32, b byte) property` — graphemes/trie.go:99-104 (and copies): `values[n<<6+uint32(b)]`. -/
def Trie.lookupValueW (w : Nat) (T : Trie) (n : UInt32) (b : UInt8) : Res (BitVec w) :=
  entryAt w T.values ((n <<< 6) + b.toUInt32)

/-- `lookup[T](s T) (v property, sz int)` — graphemes/trie.go:31-89, words/trie.go:34-92, phrases/trie.go:33-91,
sentences/trie.go:28-86. -/
def Trie.lookupW (w : Nat) (T : Trie) (s : Bytes) : Res (BitVec w × Nat) :=
  match s with
  | [] => .error .bounds
  | c0 :: t0 =>
    if c0 < 0x80 then
      match entryAt w T.values c0.toUInt32 with
      | .error f => .error f
      | .ok v => .ok (v, 1)
    else if c0 < 0xC2 then .ok (0, 1)
    else if c0 < 0xE0 then
      match t0 with
      | c1 :: _ =>
        match entryAt w T.index c0.toUInt32 with
        | .error f => .error f
        | .ok i =>
          if c1 < 0x80 || 0xC0 ≤ c1 then .ok (0, 1)
          else
            match T.lookupValueW w (toUInt32 i) c1 with
            | .error f => .error f
            | .ok v => .ok (v, 2)
      | _ => .ok (0, 0)
    else if c0 < 0xF0 then
      match t0 with
      | c1 :: c2 :: _ =>
        match entryAt w T.index c0.toUInt32 with
        | .error f => .error f
        | .ok i =>
          if c1 < 0x80 || 0xC0 ≤ c1 then .ok (0, 1)
          else
            match entryAt w T.index ((toUInt32 i <<< 6) + c1.toUInt32) with
            | .error f => .error f
            | .ok i =>
              if c2 < 0x80 || 0xC0 ≤ c2 then .ok (0, 2)
              else
                match T.lookupValueW w (toUInt32 i) c2 with
                | .error f => .error f
                | .ok v => .ok (v, 3)
      | _ => .ok (0, 0)
    else if c0 < 0xF8 then
      match t0 with
      | c1 :: c2 :: c3 :: _ =>
        match entryAt w T.index c0.toUInt32 with
        | .error f => .error f
        | .ok i =>
          if c1 < 0x80 || 0xC0 ≤ c1 then .ok (0, 1)
          else
            match entryAt w T.index ((toUInt32 i <<< 6) + c1.toUInt32) with
            | .error f => .error f
            | .ok i =>
              if c2 < 0x80 || 0xC0 ≤ c2 then .ok (0, 2)
              else
                match entryAt w T.index ((toUInt32 i <<< 6) + c2.toUInt32) with
                | .error f => .error f
                | .ok i =>
                  if c3 < 0x80 || 0xC0 ≤ c3 then .ok (0, 3)
                  else
                    match T.lookupValueW w (toUInt32 i) c3 with
                    | .error f => .error f
                    | .ok v => .ok (v, 4)
      | _ => .ok (0, 0)
    else .ok (0, 1)

/-- `lookup.is(properties)` — `(lookup & properties) != 0`, graphemes/splitfunc.go:8-10 (and copies). -/
def isW {w : Nat} (lookup properties : BitVec w) : Bool := lookup &&& properties != 0

end Uax29
