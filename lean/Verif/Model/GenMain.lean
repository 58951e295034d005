import Verif.Model.TrieGen
/-!
# The classes of the runes in the generator

internal/gen/main.go reads lists of runes for named properties and numbers the properties as bits. A Go
`map[string][]rune` is a list of pairs with different names here; the order in which Go visits it does
not matter for the results below.
-/
namespace Uax29.Gen

/-- `properties`, sorted — internal/gen/main.go:200-205. Go compares the bytes of strings, Lean the
characters; for UTF-8 this is the same order. -/
def properties (runesByProperty : List (String × List Nat)) : List String :=
  (runesByProperty.map (·.1)).mergeSort fun a b => decide (a ≤ b)

/-- `iotasByProperty[property]`, a `uint64` — internal/gen/main.go:207-210. A name that is not there
gives the zero value. -/
def iotaOf (runesByProperty : List (String × List Nat)) (property : String) : Nat :=
  match (properties runesByProperty).idxOf? property with
  | some i => (1 <<< i) % 2 ^ 64
  | none => 0

/-- `iotasByRune[r]` — internal/gen/main.go:212-217. -/
def iotasOf (runesByProperty : List (String × List Nat)) (r : Nat) : Nat :=
  runesByProperty.foldl (fun iotas e => if r ∈ e.2 then iotas ||| iotaOf runesByProperty e.1 else iotas) 0

end Uax29.Gen
