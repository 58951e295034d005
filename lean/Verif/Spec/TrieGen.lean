import Verif.Model.TrieGen
/-! # Specification: what the generator of the tries is to do -/
namespace Uax29.Spec

/-- The value that a list of pairs (rune, value), applied in order, gives a rune: the last value
other than 0 that is there for it, and 0 if there is none. -/
def lastValue (l : List (Nat × Nat)) (r : Nat) : Nat :=
  match l with
  | [] => 0
  | (r', v) :: rest =>
    if lastValue rest r ≠ 0 then lastValue rest r else if r' = r then v else 0

/-- `Below n m`: `m` is the node `n` or lies below it. -/
inductive Below : Gen.Node → Gen.Node → Prop
  | here (n : Gen.Node) : Below n n
  | child {n : Gen.Node} {hasChildren : Bool} {children : Nat → Gen.Node}
      {values : Option (List Nat)} (i : Nat) (h : Below (children i) n) :
      Below (.mk hasChildren children values) n

/-- The hash of a node, computed from the tree alone: the sum over the hashes of the 64 children and
the values; 0 where there is no node. -/
def nodeHash (crc : List Nat → Nat) : Gen.Node → Nat
  | .nil => 0
  | .mk hasChildren children values =>
    if hasChildren || values.isSome then
      crc ((if hasChildren then (List.range 64).map fun i => nodeHash crc (children i) else [])
        ++ values.getD [])
    else 0

/-- No two different nodes of the tree have the same hash. (No node counts as a node: no other node has
hash 0.) -/
def NoClash (crc : List Nat → Nat) (root : Gen.Node) : Prop :=
  (∀ m n, Below root m → Below root n → nodeHash crc m = nodeHash crc n → m = n)
  ∧ ∀ m, Below root m → nodeHash crc m = 0 → m = .nil

/-- The rune `r` is listed under the name `p`. -/
def Listed (m : List (String × List Nat)) (p : String) (r : Nat) : Prop := ∃ e ∈ m, e.1 = p ∧ r ∈ e.2

/-- The pairs of runes and values visit a map from runes to values, in any order: every pair is one of
the map, and every rune listed under some name is visited. -/
def Visits (m : List (String × List Nat)) (value : Nat → Nat) (l : List (Nat × Nat)) : Prop :=
  (∀ p ∈ l, p.2 = value p.1) ∧ ∀ r, (∃ p, Listed m p r) → ∃ v, (r, v) ∈ l

/-- The number of nodes of a tree. -/
def nodes : Gen.Node → Nat
  | .nil => 0
  | .mk hasChildren children _ =>
    1 + ((List.range (if hasChildren then 64 else 0)).map fun i => nodes (children i)).sum

end Uax29.Spec
