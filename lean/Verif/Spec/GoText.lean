import Verif.Model.Chars
/-!
# Specification: Go source text with tables

White space, and the reading of the declaration `var name = [N]property{key: value, …}` (Go specification, "Composite
literals"): an element with a key is at that index, the others are zero.
-/
namespace Uax29.Spec.GoText

/-- The lines of a text. -/
def linesOf : List Char → List (List Char)
  | [] => [[]]
  | c :: s =>
    if c = '\n' then [] :: linesOf s
    else match linesOf s with
      | [] => [[c]]
      | l :: ls => (c :: l) :: ls

/-- A blank or a tab. -/
def blank (c : Char) : Bool := c = ' ' || c = '\t'

/-- The lines without their blanks and tabs, and without the lines that are empty then. -/
def squeeze (lines : List (List Char)) : List (List Char) :=
  (lines.map fun l => l.filter fun c => !blank c).filter fun l => !l.isEmpty

/-- The text has these lines up to white space in the lines and empty lines. -/
def SameText (text : List Char) (lines : List String) : Prop :=
  squeeze (linesOf text) = squeeze (lines.map String.toList)

/-- The value of a hexadecimal digit in lower case. -/
def hexValue (c : Char) : Option Nat :=
  if '0' ≤ c ∧ c ≤ '9' then some (c.toNat - '0'.toNat)
  else if 'a' ≤ c ∧ c ≤ 'f' then some (c.toNat - 'a'.toNat + 10)
  else none

/-- A hexadecimal number: `n` continued by the digits at the start of the text, and the text after them. -/
def hexNumber (n : Nat) : List Char → Nat × List Char
  | [] => (n, [])
  | c :: s =>
    match hexValue c with
    | some d => hexNumber (16 * n + d) s
    | none => (n, c :: s)

/-- The elements `0x…:0x…,` of a line. -/
def elements : Nat → List Char → Option (List (Nat × Nat))
  | _, [] => some []
  | 0, _ => none
  | fuel + 1, '0' :: 'x' :: s =>
    match hexNumber 0 s with
    | (k, ':' :: '0' :: 'x' :: s) =>
      match hexNumber 0 s with
      | (v, ',' :: s) => (elements fuel s).map ((k, v) :: ·)
      | _ => none
    | _ => none
  | _, _ => none

/-- The elements of a composite literal, from the lines after the opening brace on; comments are skipped. -/
def literal : List (List Char) → Option (List (Nat × Nat))
  | [] => none
  | ['}'] :: _ => some []
  | ('/' :: '/' :: _) :: ls => literal ls
  | l :: ls =>
    match elements l.length l, literal ls with
    | some es, some es' => some (es ++ es')
    | _, _ => none

/-- The value of decimal digits. -/
def decimalNumber (n : Nat) : List Char → Option Nat
  | [] => some n
  | c :: s => if '0' ≤ c ∧ c ≤ '9' then decimalNumber (10 * n + (c.toNat - '0'.toNat)) s else none

/-- What comes between `pre` and `post`. -/
def between (pre post l : List Char) : Option (List Char) :=
  if pre.isPrefixOf l && post.isSuffixOf l && pre.length + post.length ≤ l.length then
    some ((l.drop pre.length).take (l.length - pre.length - post.length))
  else none

/-- The array that the declaration of `name` declares, from squeezed lines: its length and its elements. -/
def array (name : List Char) : List (List Char) → Option (Nat × List (Nat × Nat))
  | [] => none
  | l :: ls =>
    match between (chars "var" ++ name ++ chars "=[") (chars "]property{") l with
    | some n =>
      match decimalNumber 0 n, literal ls with
      | some n, some es => some (n, es)
      | _, _ => none
    | none => array name ls

/-- The keys are in range and no key comes twice: without this the literal does not compile. -/
def Sound (n : Nat) (es : List (Nat × Nat)) : Prop :=
  (∀ e ∈ es, e.1 < n) ∧ (es.map (·.1)).Nodup

/-- The entry of the array at `k`. -/
def entry (es : List (Nat × Nat)) (k : Nat) : Nat := (es.lookup k).getD 0

/-- The text declares `name` as the array with the entries `a`. -/
def Declares (lines : List (List Char)) (name : List Char) (a : List Nat) : Prop :=
  ∃ es, array name lines = some (a.length, es) ∧ Sound a.length es ∧ ∀ k (h : k < a.length), entry es k = a[k]

/-- The names in a block of constants, from the lines after the first name on. -/
def constantNames : List (List Char) → Option (List (List Char))
  | [] => none
  | [')'] :: _ => some []
  | l :: ls => (constantNames ls).map (l :: ·)

/-- The constants that the first block `const ( name property = 1 << iota; name; … )` declares, from squeezed lines. -/
def constants : List (List Char) → Option (List (List Char))
  | [] => none
  | l :: ls =>
    if l = chars "const(" then
      match ls with
      | [] => none
      | l :: ls =>
        match between [] (chars "property=1<<iota") l, constantNames ls with
        | some name, some names => some (name :: names)
        | _, _ => none
    else constants ls

/-- The value of a constant: `iota` counts from 0 (Go specification, "Iota"). -/
def constant (lines : List (List Char)) (name : List Char) : Option Nat :=
  (constants lines).bind fun names => (names.idxOf? name).map (1 <<< ·)

/-- The size of the type `property`, from squeezed lines: `n` for `uintn`. -/
def typeBits : List (List Char) → Option Nat
  | [] => none
  | l :: ls =>
    match between (chars "typepropertyuint") [] l with
    | some n => decimalNumber 0 n
    | none => typeBits ls

/-- The elements of the array `name` can be represented in the type `property`: otherwise the literal does not compile (Go
specification, "Constant expressions"). -/
def Fits (lines : List (List Char)) (name : List Char) : Prop :=
  ∃ b n es, typeBits lines = some b ∧ array name lines = some (n, es) ∧ ∀ e ∈ es, e.2 < 2 ^ b

end Uax29.Spec.GoText
