import Verif.Model.History
/-! # Specification of iteration: text and configuration after a history, contiguous positions -/
namespace Uax29.Spec

/-- The text of an iterator after a history: the argument of the last `SetText`, or the text it was
made with. -/
def textAfter {p : Pkg} (t : Bytes) : List (Op p) → Bytes
  | [] => t
  | .setText t' :: ops => textAfter t' ops
  | _ :: ops => textAfter t ops

/-- The configuration of an iterator after a history: the last one set, or `c`. -/
def configAfter {p : Pkg} (c : Option (Config p)) : List (Op p) → Option (Config p)
  | [] => c
  | .config c' :: ops => configAfter (some c') ops
  | _ :: ops => configAfter c ops

/-- A fresh iterator over `t`, configured with `c` if there is one. -/
def fresh (p : Pkg) (c : Option (Config p)) (t : Bytes) : Iterator p :=
  match c with
  | none => Iterator.fromBytes p t
  | some c => (Iterator.fromBytes p t).config c

/-- The pieces `(start, end, value)` of `data` follow each other without gap or overlap from `a` to
`b`, are not empty, and their values are the bytes of `data` between start and end. -/
def Contiguous (data : Bytes) : Nat → List (Nat × Nat × Bytes) → Nat → Prop
  | a, [], b => a = b
  | a, (s, e, v) :: rest, b =>
    s = a ∧ s < e ∧ e ≤ data.length ∧ v.length = e - s
      ∧ (∀ i, i < e - s → v[i]? = data[s + i]?) ∧ Contiguous data e rest b

/-- The calls made on iterator `i` in a program with several iterators. -/
def callsOn {ι : Type} [DecidableEq ι] {pkg : ι → Pkg} (i : ι) :
    List ((i : ι) × Op (pkg i)) → List (Op (pkg i))
  | [] => []
  | ⟨k, op⟩ :: rest => if h : k = i then (h ▸ op) :: callsOn i rest else callsOn i rest

/-- What was seen of iterator `i`. -/
def seenOf {ι : Type} [DecidableEq ι] (i : ι) : List ((_ : ι) × Obs) → List Obs
  | [] => []
  | ⟨k, o⟩ :: rest => if k = i then o :: seenOf i rest else seenOf i rest

end Uax29.Spec
