import Verif.Spec.GoText
/-!
# Specification: the sizes in the comments of a file with tables

A reader of the comments `// name: … blocks, … entries, … bytes` and `// nameTrie. Total size: … bytes …`. Nothing here
mentions the model.
-/
namespace Uax29.Spec.GoText

/-- The number in decimal digits after `pre`, and what follows it. -/
def numberAfter (pre l : List Char) : Option (Nat × List Char) :=
  if pre.isPrefixOf l then
    let s := l.drop pre.length
    (decimalNumber 0 (s.takeWhile fun c => decide ('0' ≤ c ∧ c ≤ '9'))).map
      fun n => (n, s.dropWhile fun c => decide ('0' ≤ c ∧ c ≤ '9'))
  else none

/-- The numbers of blocks, of entries and of bytes in the comment on the table `name`, from squeezed lines. -/
def tableSizes (name : List Char) : List (List Char) → Option (Nat × Nat × Nat)
  | [] => none
  | l :: ls =>
    match numberAfter (chars "//" ++ name ++ chars ":") l with
    | none => tableSizes name ls
    | some (blocks, s) =>
      match numberAfter (chars "blocks,") s with
      | none => none
      | some (entries, s) =>
        match numberAfter (chars "entries,") s with
        | none => none
        | some (bytes, s) => if s = chars "bytes" then some (blocks, entries, bytes) else none

/-- The total number of bytes in the comment on the trie, from squeezed lines. -/
def totalSize (name : List Char) : List (List Char) → Option Nat
  | [] => none
  | l :: ls =>
    match numberAfter (chars "//" ++ name ++ chars "Trie.Totalsize:") l with
    | none => totalSize name ls
    | some (n, s) => if (chars "bytes").isPrefixOf s then some n else none

/-- The size in memory of the array `name`, in bytes: the number of its elements times the size of its type. -/
def sizeof (name : List Char) (lines : List (List Char)) : Option Nat :=
  match array name lines, typeBits lines with
  | some (n, _), some b => some (n * (b / 8))
  | _, _ => none

/-- The comment on the table `name` says its true number of bytes. -/
def Right (name : List Char) (lines : List (List Char)) : Prop :=
  ∃ b e n, tableSizes name lines = some (b, e, n) ∧ sizeof name lines = some n

/-- Of the sizes 1, 2, 4 and 8 bytes of unsigned integers, `z` is the smallest that is enough for the numbers `P`, or else 8. -/
def Smallest (P : Nat → Prop) (z : Nat) : Prop :=
  z ∈ [1, 2, 4, 8] ∧ (z = 8 ∨ ∀ v, P v → v < 256 ^ z) ∧ (z = 1 ∨ ∃ v, P v ∧ 256 ^ (z / 2) ≤ v)

end Uax29.Spec.GoText
