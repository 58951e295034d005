import Verif.Model.Go
/-!
# The generated tries and their lookup

`lookup` is generated four times from one template (internal/gen/triegen/print.go:161-224):
graphemes/trie.go:31-89, words/trie.go:34-92, phrases/trie.go:33-91, sentences/trie.go:28-86.
The four copies differ only in the names of the tables, so the model has one function that takes the
tables as an argument.
-/
namespace Uax29

/-- The two tables of a generated trie, in blocks of 64 entries (e.g. `graphemesValues`,
graphemes/trie.go:108, and `graphemesIndex`, graphemes/trie.go:1591). -/
structure Trie where
  values : List (List Nat)
  index : List (List Nat)

/-- Array indexing `table[o]` into a table kept as blocks of 64; a Go array access out of range
panics. -/
def tableAt (table : List (List Nat)) (o : Nat) : Res Nat :=
  match table[o / 64]? with
  | none => .error .bounds
  | some block =>
    match block[o % 64]? with
    | none => .error .bounds
    | some v => .ok v

/-- `lookupValue(n uint32, b byte) property` — graphemes/trie.go:99-104 (and copies):
`values[n<<6+uint32(b)]`. -/
def Trie.lookupValue (T : Trie) (n b : Nat) : Res Nat := tableAt T.values (n * 64 + b)

/-- The test `c1 < 0x80 || 0xC0 <= c1` of `lookup`: not a continuation byte. -/
def notCont (c : Nat) : Bool := c < 0x80 || 0xC0 ≤ c

/-- `lookup[T](s T) (v property, sz int)` — graphemes/trie.go:31-89 (and the three copies named
above), case by case. `uint32(i)<<6 + uint32(c1)` is `i * 64 + c1`. -/
def Trie.lookup (T : Trie) (s : Bytes) : Res (Nat × Nat) :=
  match s with
  | [] => .error .bounds                                        -- c0 := s[0]
  | b0 :: t0 =>
    let c0 := b0.toNat
    if c0 < 0x80 then                                           -- is ASCII
      match tableAt T.values c0 with
      | .error f => .error f
      | .ok v => .ok (v, 1)
    else if c0 < 0xC2 then .ok (0, 1)                           -- not a starter, not ASCII
    else if c0 < 0xE0 then                                      -- 2-byte UTF-8
      match t0 with
      | b1 :: _ =>
        let c1 := b1.toNat
        match tableAt T.index c0 with
        | .error f => .error f
        | .ok i =>
          if notCont c1 then .ok (0, 1)
          else
            match T.lookupValue i c1 with
            | .error f => .error f
            | .ok v => .ok (v, 2)
      | _ => .ok (0, 0)                                         -- len(s) < 2
    else if c0 < 0xF0 then                                      -- 3-byte UTF-8
      match t0 with
      | b1 :: b2 :: _ =>
        let c1 := b1.toNat
        let c2 := b2.toNat
        match tableAt T.index c0 with
        | .error f => .error f
        | .ok i =>
          if notCont c1 then .ok (0, 1)
          else
            match tableAt T.index (i * 64 + c1) with
            | .error f => .error f
            | .ok i =>
              if notCont c2 then .ok (0, 2)
              else
                match T.lookupValue i c2 with
                | .error f => .error f
                | .ok v => .ok (v, 3)
      | _ => .ok (0, 0)                                         -- len(s) < 3
    else if c0 < 0xF8 then                                      -- 4-byte UTF-8
      match t0 with
      | b1 :: b2 :: b3 :: _ =>
        let c1 := b1.toNat
        let c2 := b2.toNat
        let c3 := b3.toNat
        match tableAt T.index c0 with
        | .error f => .error f
        | .ok i =>
          if notCont c1 then .ok (0, 1)
          else
            match tableAt T.index (i * 64 + c1) with
            | .error f => .error f
            | .ok i =>
              if notCont c2 then .ok (0, 2)
              else
                match tableAt T.index (i * 64 + c2) with
                | .error f => .error f
                | .ok i =>
                  if notCont c3 then .ok (0, 3)
                  else
                    match T.lookupValue i c3 with
                    | .error f => .error f
                    | .ok v => .ok (v, 4)
      | _ => .ok (0, 0)                                         -- len(s) < 4
    else .ok (0, 1)                                             -- Illegal rune

/-- `lookup(data[pos:])`, the form in which every caller uses it
(e.g. graphemes/splitfunc.go:47,107). -/
def Trie.lookupAt (T : Trie) (data : Bytes) (pos : Nat) : Res (Nat × Nat) :=
  match sliceFrom data pos with
  | .error f => .error f
  | .ok s => T.lookup s

end Uax29
