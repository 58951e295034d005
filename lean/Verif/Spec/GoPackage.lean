import Verif.Spec.GoCode
import Verif.Model.Iterators
/-! # The values of the library as values of Go, and the tables of a package as arrays -/
namespace Uax29.Source

/-- An entry of an array of numbers of type `t`; an index out of range panics. -/
def arrayAt (t : IntTy) (l : List Nat) (i : Int) : Res Val :=
  if 0 ≤ i then
    match l[i.toNat]? with
    | some v => .ok (.num t v)
    | none => .error .bounds
  else .error .bounds

/-- The two arrays of a trie.go, in the order of their declaration. -/
def arrays (t : IntTy) (T : Trie) : Nat → Int → Res Val
  | 0 => arrayAt t T.values.flatten
  | 1 => arrayAt t T.index.flatten
  | _ => fun _ => .error Fault.stuck

/-- A number of type `t`, as a result. -/
def numRes (t : IntTy) : Res Nat → Res Val
  | .ok v => .ok (.num t v)
  | .error f => .error f

/-- The result of `lookup`. -/
def lookupRes (t : IntTy) : Res (Nat × Nat) → Res Val
  | .ok (v, w) => .ok (.pair (.num t v) (.num .int w))
  | .error f => .error f

/-- The result of `subsequent`. -/
def subRes : Res (Int × Bool) → Res Val
  | .ok (a, m) => .ok (.pair (.num .int a) (.bool m))
  | .error f => .error f

/-- The result of a split function. -/
def splitRes : Res SplitRes → Res Val
  | .error f => .error f
  | .ok r => .ok (.pair (.num .int r.advance) (.pair (match r.token with | none => .nil | some b => .bytes b)
      (match r.err with | none => .nil | some s => .str s.toList)))

/-- The result of a function that decides. -/
def boolRes : Res Bool → Res Val
  | .ok b => .ok (.bool b)
  | .error f => .error f

/-- An iterator: its split function as a value, its text, `pos`, `start`, and the fields after these. -/
def iterVal (f : Val) (it : Iter) (rest : Val) : Val :=
  .pair f (.pair (.bytes it.data) (.pair (.num .int it.pos) (.pair (.num .int it.start) rest)))

/-- What is left of the iterator after a call of `Next`, and the result of the call. -/
def nextRes (f rest : Val) : Iter × NextOut → Val × Res Val
  | (it, .ret b) => (iterVal f it rest, .ok (.bool b))
  | (it, .fault x) => (iterVal f it rest, .error x)

/-- An iterator of internal/iterators: its split function as a value, its text, `start` and `pos`. -/
def genericVal (f : Val) (it : Iter) : Val :=
  .pair f (.pair (.bytes it.data) (.pair (.num .int it.start) (.pair (.num .int it.pos) .nil)))

/-- What is left of the iterator after a call of `Next`, and the result of the call. -/
def genericRes (f : Val) : Iter × NextOut → Val × Res Val
  | (it, .ret b) => (genericVal f it, .ok (.bool b))
  | (it, .fault x) => (genericVal f it, .error x)

/-- A text, as a result. -/
def bytesRes : Res Bytes → Res Val
  | .ok b => .ok (.bytes b)
  | .error f => .error f

/-- The options of a grapheme iterator, as fields. -/
def optionsVal (o : Graphemes.Options) : Val := .pair (.bool o.ansi7) (.pair (.bool o.ansi8) .nil)

/-- A slice of runes, or nil. -/
def runesVal : Option (List Int) → Val
  | none => .nil
  | some l => .runes l

/-- A pointer to `Joiners`, or nil. -/
def joinersVal : Option Words.Joiners → Val
  | none => .nil
  | some j => .pair (runesVal j.middle) (.pair (runesVal j.leading) .nil)

end Uax29.Source
