import Verif.Model.Chars
import Verif.Spec.GoText
/-!
# Specification: the tokens of Go source text, and tests as tokens

The lexical elements of the Go specification that occur in files of tests: comments, white space, identifiers and keywords,
hexadecimal and decimal numbers, interpreted string literals, and operators of one character. Semicolons are not inserted.
-/
namespace Uax29.Spec.GoTokens

/-- A token: an identifier or keyword, a number, the value of a string literal, or an operator. -/
inductive Tok where
  | word (s : List Char)
  | num (n : Nat)
  | str (s : List Char)
  | sym (c : Char)
  deriving DecidableEq

/-- What was read before, and does not make a token yet. Words and strings are reversed. -/
inductive State where
  /-- nothing -/
  | start
  /-- the start of an identifier, a keyword or a number -/
  | word (s : List Char)
  /-- a slash -/
  | slash
  /-- the start of a comment -/
  | comment
  /-- the start of a string -/
  | str (s : List Char)
  /-- the start of a string, and a backslash -/
  | escape (s : List Char)
  /-- the start of a string, and of a code point less than the limit in hexadecimal digits, of which so many are missing -/
  | code (s : List Char) (limit missing n : Nat)
  deriving DecidableEq

/-- Blank, tab or the end of a line. -/
def white (c : Char) : Bool := c = ' ' || c = '\t' || c = '\n' || c = '\r'

/-- A letter, a digit or an underscore. -/
def wordChar (c : Char) : Bool := ('a' ≤ c && c ≤ 'z') || ('A' ≤ c && c ≤ 'Z') || ('0' ≤ c && c ≤ '9') || c = '_'

/-- The token of a word: a number if it starts with a digit. -/
def wordToken : List Char → Option Tok
  | '0' :: 'x' :: s =>
    match GoText.hexNumber 0 s with
    | (n, []) => if s = [] then none else some (.num n)
    | _ => none
  | c :: s => if '0' ≤ c ∧ c ≤ '9' then (GoText.decimalNumber 0 (c :: s)).map .num else some (.word (c :: s))
  | [] => none

/-- A character that starts something new. -/
def stepStart (c : Char) : List Tok × State :=
  if white c then ([], .start)
  else if c = '"' then ([], .str [])
  else if c = '/' then ([], .slash)
  else if wordChar c then ([], .word [c])
  else ([.sym c], .start)

/-- The value of the escapes with a letter. -/
def escapeValue (c : Char) : Option Char :=
  if c = 'a' then some '\x07' else if c = 'b' then some '\x08' else if c = 'f' then some '\x0c' else if c = 'n' then some '\n'
  else if c = 'r' then some '\r' else if c = 't' then some '\t' else if c = 'v' then some '\x0b' else if c = '\\' then some '\\'
  else if c = '"' then some '"' else none

/-- One character: the tokens that are complete then, and the new state. The escape `\x` is a byte: it is a character only if
it is ASCII, and other bytes are not read here. -/
def step : State → Char → Option (List Tok × State)
  | .start, c => some (stepStart c)
  | .word w, c =>
    if wordChar c then some ([], .word (c :: w))
    else (wordToken w.reverse).map fun t => (t :: (stepStart c).1, (stepStart c).2)
  | .slash, c =>
    if c = '/' then some ([], .comment) else some (.sym '/' :: (stepStart c).1, (stepStart c).2)
  | .comment, c => if c = '\n' then some ([], .start) else some ([], .comment)
  | .str s, c =>
    if c = '"' then some ([.str s.reverse], .start)
    else if c = '\\' then some ([], .escape s)
    else if c = '\n' then none
    else some ([], .str (c :: s))
  | .escape s, c =>
    if c = 'x' then some ([], .code s 0x80 2 0)
    else if c = 'u' then some ([], .code s 0x110000 4 0)
    else if c = 'U' then some ([], .code s 0x110000 8 0)
    else (escapeValue c).map fun v => ([], .str (v :: s))
  | .code s limit missing n, c =>
    match GoText.hexValue c with
    | none => none
    | some d =>
      if missing ≤ 1 then
        if 16 * n + d < limit ∧ (16 * n + d).isValidChar then some ([], .str (Char.ofNat (16 * n + d) :: s)) else none
      else some ([], .code s limit (missing - 1) (16 * n + d))

/-- The tokens that are complete in a text, and the state at its end. -/
def scan : State → List Char → Option (List Tok × State)
  | st, [] => some ([], st)
  | st, c :: s =>
    match step st c with
    | none => none
    | some (ts, st') => (scan st' s).map fun r => (ts ++ r.1, r.2)

/-- The tokens of a text that ends with the end of a line. -/
def tokens (text : List Char) : Option (List Tok) :=
  match scan .start text with
  | some (ts, .start) => some ts
  | _ => none

/-! ## tests -/

/-- Elements with a comma after each but the last. -/
def separated : List (List Tok) → List Tok
  | [] => []
  | [a] => a
  | a :: as => a ++ .sym ',' :: separated as

/-- The elements of a slice of bytes, in braces. -/
def bytesBody (b : List Nat) : List Tok := .sym '{' :: separated (b.map fun n => [.num n]) ++ [.sym '}']

/-- The conversion of `nil`. -/
def nilBody : List Tok := [.sym '(', .word (chars "nil"), .sym ')']

/-- A literal of the type `[]byte`. -/
def bytesTokens (b : List Nat) : List Tok :=
  [.sym '[', .sym ']', .word (chars "byte")] ++ if b = [] then nilBody else bytesBody b

/-- A literal of the type `[][]byte`: the type of an element can be left out (Go specification, "Composite literals"), and
`uint8` and `byte` are the same type. -/
def bytesListTokens (l : List (List Nat)) : List Tok :=
  [.sym '[', .sym ']', .sym '[', .sym ']'] ++
    if l = [] then .word (chars "uint8") :: nilBody
    else .word (chars "byte") :: .sym '{' ::
      separated (l.map fun b => if b = [] then [.sym '[', .sym ']', .word (chars "uint8")] ++ nilBody else bytesBody b) ++ [.sym '}']

/-- A test. -/
def testTokens (input : List Nat) (expected : List (List Nat)) (comment : List Char) : List Tok :=
  [.sym '{', .word (chars "input"), .sym ':'] ++ bytesTokens input ++
  [.sym ',', .word (chars "expected"), .sym ':'] ++ bytesListTokens expected ++
  [.sym ',', .word (chars "comment"), .sym ':', .str comment, .sym ',', .sym '}', .sym ',']

/-- A file of tests, given by their tokens. -/
def fileTokens (package : List Char) (tests : List (List Tok)) : List Tok :=
  [.word (chars "package"), .word package,
   .word (chars "type"), .word (chars "unicodeTest"), .word (chars "struct"), .sym '{',
   .word (chars "input"), .sym '[', .sym ']', .word (chars "byte"),
   .word (chars "expected"), .sym '[', .sym ']', .sym '[', .sym ']', .word (chars "byte"),
   .word (chars "comment"), .word (chars "string"), .sym '}',
   .word (chars "var"), .word (chars "unicodeTests"), .sym '=', .sym '[', .num tests.length, .sym ']', .word (chars "unicodeTest"), .sym '{']
  ++ tests.flatten ++ [.sym '}']

end Uax29.Spec.GoTokens
