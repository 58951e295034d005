import Verif.Model.Trie
/-!
# The generator of the tries

internal/gen/triegen builds a tree of nodes from (rune, value) pairs, gives every different node a
block and prints the blocks as the two tables that `lookup` reads. The packages of /repo are generated
with one trie and without further `Compacter`s (internal/gen/main.go:439), so the model has one root
and only `simpleCompacter`; `Compactions[0].Offset` is 0 then (triegen.go:339-345).

A Go `map[uint64]int` is a list of pairs here, the newest first.
-/
namespace Uax29.Gen

/-- `blockSize` — triegen.go:390. -/
def blockSize : Nat := 64

/-- `blockOffset` — triegen.go:393. -/
def blockOffset : Nat := 2

/-- `rootBlockOffset` — triegen.go:396. -/
def rootBlockOffset : Nat := 3

/-- `*node` — triegen.go:238-250. `nil` is the nil pointer. `hasChildren` says whether the slice
`children` is not nil; the children are kept as a function that is `nil` wherever the slice has no
child. The field `index` is not kept in the node: `computeOffsets` returns it instead. -/
inductive Node where
  | nil
  | mk (hasChildren : Bool) (children : Nat → Node) (values : Option (List Nat))

/-- `&node{}` — triegen.go:279. -/
def Node.empty : Node := .mk false (fun _ => .nil) none

/-- `if c == nil { c = &node{} }` — triegen.go:278-281. -/
def Node.orNew : Node → Node
  | .nil => .empty
  | .mk hasChildren children values => .mk hasChildren children values

/-- `c.values != nil` — triegen.go:282. -/
def Node.hasValues : Node → Bool
  | .nil => false
  | .mk _ _ values => values.isSome

/-- `NewTrie(name)` — triegen.go:220-228: the root has 64 children and 128 values. -/
def newTrie : Node := .mk true (fun _ => .nil) (some (List.replicate 128 0))

/-- `string(r)` for a rune (Go spec, "Conversions to and from a string type"): the UTF-8 encoding of
`r`, and that of U+FFFD if `r` is not a Unicode scalar value. Negative runes are not modelled. -/
def runeString (r : Nat) : Bytes :=
  if h : r.isValidChar then String.utf8EncodeChar (Char.ofNatAux r h) else [0xEF, 0xBF, 0xBD]

/-- `[]rune(string(r))[0]`: `r`, or U+FFFD if `r` is not a Unicode scalar value. -/
def runeOfString (r : Nat) : Nat := if r.isValidChar then r else 0xFFFD

/-- The loop of `Insert` and the lines after it — triegen.go:272-295, one byte at a time: with more
than one byte left go to the child for the first one, with one byte left set the value. The two
`log.Fatalf` are panics here. -/
def Node.insert (n : Node) (s : Bytes) (value : Nat) : Res Node :=
  match s, n with
  | [], _ => .error .bounds
  | _, .nil => .error (.panic "nil pointer dereference")
  | [b], .mk hasChildren children values =>
    let values := values.getD (List.replicate blockSize 0)              -- make([]uint64, blockSize)
    if hasChildren then .error (.panic "found leaf node that also has child nodes")
    else
      let i := (b - 0x80).toNat
      if i < values.length then .ok (.mk false children (some (values.set i value)))
      else .error .bounds
  | b :: b' :: rest, .mk _ children values =>
    let p := b.toNat % blockSize
    let c := (children p).orNew
    if !rest.isEmpty && c.hasValues then .error (.panic "found internal node with values")
    else
      match c.insert (b' :: rest) value with
      | .error f => .error f
      | .ok c' => .ok (.mk true (fun q => if q = p then c' else children q) values)

/-- `(t *Trie) Insert(r, value)` — triegen.go:254-296. -/
def insert (root : Node) (r value : Nat) : Res Node :=
  if value = 0 then .ok root
  else
    let s := runeString r
    if runeOfString r ≠ r then .error (.panic "triegen: non-zero value for invalid rune")
    else
      match s, root with
      | [b], .mk hasChildren children (some values) =>                  -- ASCII
        if b.toNat < values.length then
          .ok (.mk hasChildren children (some (values.set b.toNat value)))
        else .error .bounds
      | [_], _ => .error .bounds
      | s, root => root.insert s value

/-- The calls of `Insert` in internal/gen/main.go:221-223. The order in which Go visits a map is not
fixed, so the pairs come as a list. -/
def insertAll (root : Node) : List (Nat × Nat) → Res Node
  | [] => .ok root
  | (r, v) :: rest =>
    match insert root r v with
    | .error f => .error f
    | .ok root => insertAll root rest

/-- The fields of `builder` that decide the tables — triegen.go:77-122. `indexBlocks` has the 64
entries that `printIndex` prints for a node (print.go:75-96) in place of the node. -/
structure Builder where
  indexBlocks : List (List Nat)
  valueBlocks : List (List Nat)
  indexBlockIdx : List (Nat × Nat)
  valueBlockIdx : List (Nat × Nat)
  deriving DecidableEq, Repr

/-- A block without entries: `&node{}` printed by `printIndex`, and `make([]uint64, blockSize)`. -/
def zeroBlock : List Nat := List.replicate blockSize 0

/-- `n.children == nil` and `n.values == nil` of a node that has neither give hash 0, every other node
the CRC of the hashes of its 64 children and its values — triegen.go:444-458. `crc` stands for
`crc64.New(crcTable)` fed with `binary.BigEndian` words. -/
def blockHash (crc : List Nat → Nat) (hasChildren : Bool) (hashes : List Nat)
    (values : Option (List Nat)) : Nat :=
  if hasChildren || values.isSome then crc (hashes ++ values.getD []) else 0

/-- The end of `computeOffsets` for a node without children — triegen.go:472-491, with
`simpleCompacter.Store` (compact.go:45-49). -/
def storeValues (b : Builder) (hash : Nat) (values : List Nat) : Nat × Builder :=
  match b.valueBlockIdx.lookup hash with
  | some v => (v, b)
  | none =>
    let v := b.valueBlocks.length - blockOffset
    (v, { b with valueBlocks := b.valueBlocks ++ [values],
                 valueBlockIdx := (hash, v) :: b.valueBlockIdx })

/-- The end of `computeOffsets` for a node with children — triegen.go:464-471. -/
def storeIndex (b : Builder) (hash : Nat) (entries : List Nat) : Nat × Builder :=
  match b.indexBlockIdx.lookup hash with
  | some v => (v, b)
  | none =>
    let v := b.indexBlocks.length - blockOffset
    (v, { b with indexBlocks := b.indexBlocks ++ [entries],
                 indexBlockIdx := (hash, v) :: b.indexBlockIdx })

/-- `(b *builder) computeOffsets(n, root)` — triegen.go:435-493: the hash of the node, its `index` and
the builder afterwards. A nil child has hash 0 and prints as 0 (triegen.go:449-451, print.go:84).
The first node to come is the root: its block is reserved before those of its children and filled in
afterwards. -/
def computeOffsets (crc : List Nat → Nat) : Node → Builder → Nat × Nat × Builder
  | .nil, b => (0, 0, b)
  | .mk hasChildren children values, b =>
    let first := b.indexBlocks.length == rootBlockOffset
    let b := if first then { b with indexBlocks := b.indexBlocks ++ [zeroBlock] } else b
    let r :=
      (List.range (if hasChildren then blockSize else 0)).foldl
        (fun (st : List Nat × List Nat × Builder) i =>
          let c := computeOffsets crc (children i) st.2.2
          (st.1 ++ [c.1], st.2.1 ++ [c.2.1], c.2.2))
        (([] : List Nat), ([] : List Nat), b)
    let hash := blockHash crc hasChildren r.1 values
    let entries := r.2.1
    let b := r.2.2
    let b :=
      if first then
        { b with indexBlockIdx := (hash, rootBlockOffset - blockOffset) :: b.indexBlockIdx,
                 indexBlocks := b.indexBlocks.set rootBlockOffset entries }
      else b
    let s := if hasChildren then storeIndex b hash entries else storeValues b hash (values.getD [])
    (hash, s.1, s.2)

/-- The builder at the start of `computeOffsets` — triegen.go:172-185, 401-424: three index blocks
without entries, the two blocks of ASCII values and the zero block; key 0 stands for the zero block. -/
def initBuilder (values : List Nat) : Builder :=
  { indexBlocks := [zeroBlock, zeroBlock, zeroBlock]
    valueBlocks := [values.take blockSize, values.drop blockSize, zeroBlock]
    indexBlockIdx := [(0, 0)]
    valueBlockIdx := [(0, 0)] }

/-- `Gen(w, name, []*Trie{t})` — triegen.go:168-201, 401-433, print.go:17-53: the tables that are
printed, and the checksum in the comment above them. -/
def gen (crc : List Nat → Nat) (root : Node) : Trie × Nat :=
  let values :=
    match root with
    | .nil => []
    | .mk _ _ values => values.getD []
  let r := computeOffsets crc root (initBuilder values)
  (⟨r.2.2.valueBlocks, r.2.2.indexBlocks⟩, r.1)

end Uax29.Gen
