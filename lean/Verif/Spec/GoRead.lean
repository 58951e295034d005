import Verif.Spec.GoCode
import Verif.Model.Chars
/-!
# Reading Go

From the text of Go files to the form of `Spec/GoCode.lean`, after the Go specification: tokens, with the semicolons that are put in
at the ends of lines, expressions, statements, and declarations. Then names become numbers: scopes, constants with `iota`, types and
methods. A text with something that is not in this part of Go is not read (`none`); nor is one with a function that would have two
pointers to one struct, or lose a change that is made through a pointer, or change a variable of the package. The reader is for programs
that compile: it does not check types. Every function has a bound for its recursion, the number of tokens; reaching it counts as
something that is not in this part of Go.
-/
namespace Uax29.Source

/-- A name. -/
abbrev Name := List Char

/-! ## Tokens -/

/-- Names and keywords, integers and characters, strings, and operators. -/
inductive Tok where
  | word (w : Name)
  | int (n : Nat)
  | str (s : List Char)
  | op (o : List Char)
  deriving DecidableEq, Repr

def isLetter (c : Char) : Bool := c = '_' || ('a' ≤ c && c ≤ 'z') || ('A' ≤ c && c ≤ 'Z')

def isDigit (c : Char) : Bool := '0' ≤ c && c ≤ '9'

/-- The value of a digit. -/
def digitOf (c : Char) : Nat :=
  if isDigit c then c.toNat - '0'.toNat
  else if 'a' ≤ c && c ≤ 'f' then c.toNat - 'a'.toNat + 10
  else c.toNat - 'A'.toNat + 10

def isHex (c : Char) : Bool := isDigit c || ('a' ≤ c && c ≤ 'f') || ('A' ≤ c && c ≤ 'F')

def number (base : Nat) (ds : List Char) : Nat := ds.foldl (fun n d => n * base + digitOf d) 0

/-- "Operators and punctuation", the longer ones first. -/
def operators : List (List Char) :=
  [chars "<<=", chars ">>=", chars "...", chars ":=", chars "++", chars "--", chars "&&", chars "||", chars "==", chars "!=",
   chars "<=", chars ">=", chars "<<", chars ">>", chars "+=", chars "-=", chars "*=", chars "%=", chars "|=", chars "&=",
   chars "+", chars "-", chars "*", chars "/", chars "%", chars "&", chars "|", chars "~", chars "<", chars ">", chars "=",
   chars "!", chars "(", chars ")", chars "[", chars "]", chars "{", chars "}", chars ",", chars ";", chars ".", chars ":"]

/-- The operator a text begins with, and the rest of the text. -/
def operator : List (List Char) → List Char → Option (List Char × List Char)
  | [], _ => none
  | o :: os, cs => if o.isPrefixOf cs then some (o, cs.drop o.length) else operator os cs

/-- The keywords after which no semicolon is put in. -/
def keywords : List Name :=
  [chars "package", chars "import", chars "func", chars "var", chars "const", chars "type", chars "struct", chars "if", chars "else",
   chars "for", chars "range", chars "switch", chars "case", chars "default"]

/-- "Semicolons": after these tokens the end of a line is one. -/
def endsLine : Tok → Bool
  | .word w => !(keywords.contains w)
  | .int _ => true
  | .str _ => true
  | .op o => [chars "++", chars "--", chars ")", chars "]", chars "}"].contains o

/-- After a `/*`: the text after the next `*/`. -/
def afterComment : Nat → List Char → List Char
  | _, [] => []
  | 0, _ => []
  | fuel + 1, c :: cs => if (chars "*/").isPrefixOf (c :: cs) then cs.drop 1 else afterComment fuel cs

/-- The tokens of a text; `semi` says that the end of the line is a semicolon. A comment of several
lines is the end of a line. Not read: directives to the compiler, numbers that are not decimal or hexadecimal, and most characters and strings with a backslash. -/
def tokens : Nat → Bool → List Char → Option (List Tok)
  | _, semi, [] => some (if semi then [.op [';']] else [])
  | 0, _, _ => none
  | fuel + 1, semi, c :: cs =>
    if c = '\n' then
      if semi then (tokens fuel false cs).map (.op [';'] :: ·) else tokens fuel false cs
    else if c = ' ' || c = '\t' then tokens fuel semi cs
    else if (chars "//go:").isPrefixOf (c :: cs) || (chars "// +build").isPrefixOf (c :: cs) then none
    else if (chars "//").isPrefixOf (c :: cs) then tokens fuel semi (cs.dropWhile (· ≠ '\n'))
    else if (chars "/*").isPrefixOf (c :: cs) then
      if (cs.take (cs.length - (afterComment fuel (cs.drop 1)).length)).contains '\n' then
        tokens fuel semi ('\n' :: afterComment fuel (cs.drop 1))
      else tokens fuel semi (afterComment fuel (cs.drop 1))
    else if isLetter c then
      let w := c :: cs.takeWhile fun d => isLetter d || isDigit d
      (tokens fuel (endsLine (.word w)) (cs.dropWhile fun d => isLetter d || isDigit d)).map (.word w :: ·)
    else if (chars "0x").isPrefixOf (c :: cs) then
      (tokens fuel true ((cs.drop 1).dropWhile isHex)).map (.int (number 16 ((cs.drop 1).takeWhile isHex)) :: ·)
    else if isDigit c then
      if c = '0' ∧ (cs.takeWhile isDigit) ≠ [] then none else
      (tokens fuel true (cs.dropWhile isDigit)).map (.int (number 10 (c :: cs.takeWhile isDigit)) :: ·)
    else if c = '\'' then
      match cs with
      | '\\' :: '\\' :: '\'' :: cs => (tokens fuel true cs).map (.int '\\'.toNat :: ·)
      | d :: '\'' :: cs => if d = '\\' then none else (tokens fuel true cs).map (.int d.toNat :: ·)
      | _ => none
    else if c = '"' then
      if (cs.takeWhile (· ≠ '"')).contains '\\' || (cs.takeWhile (· ≠ '"')).contains '\n' then none else
      (tokens fuel true ((cs.dropWhile (· ≠ '"')).drop 1)).map (.str (cs.takeWhile (· ≠ '"')) :: ·)
    else
      match operator operators (c :: cs) with
      | some (o, cs) => (tokens fuel (endsLine (.op o)) cs).map (.op o :: ·)
      | none => none

/-! ## Expressions and statements, with names -/

/-- Expressions as they are written. -/
inductive RExpr where
  | id (n : Name)
  | int (n : Nat)
  | str (s : List Char)
  | un (op : Name) (e : RExpr)
  | bin (op : Name) (a b : RExpr)
  | call (f : RExpr) (args : List RExpr)
  | sel (e : RExpr) (n : Name)
  | index (e i : RExpr)
  | drop (e i : RExpr)
  | take (e j : RExpr)
  | slice (e i j : RExpr)
  | struct (t : Name) (fields : List (Name × RExpr))

/-- Types, as far as they are needed: a name, a pointer to a named type, `[]byte`, `[]rune`, and `*bufio.Scanner`. -/
inductive RTy where
  | name (n : Name)
  | ptr (n : Name)
  | bytes
  | runes
  | scanner
  | other

/-- Statements as they are written. -/
inductive RStmt where
  | define (xs : List RExpr) (es : List RExpr)
  | assign (xs : List RExpr) (es : List RExpr)
  | update (op : Name) (x e : RExpr)
  | vars (xs : List Name) (t : RTy) (e : Option RExpr)
  | ite (init : Option RStmt) (c : RExpr) (a b : List RStmt)
  | loop (label : Option Name) (init : Option RStmt) (c : Option RExpr) (post : Option RStmt) (body : List RStmt)
  | range (label : Option Name) (x : Name) (e : RExpr) (body : List RStmt)
  | switch (tag : Option RExpr) (clauses : List (Option (List RExpr) × List RStmt))
  | typeSwitch (v x : Name) (clauses : List (Option RTy × List RStmt))
  | brk (label : Option Name)
  | cont (label : Option Name)
  | ret (es : List RExpr)
  | expr (e : RExpr)

/-- "Operator precedence". -/
def precedence (o : List Char) : Nat :=
  if [chars "*", chars "/", chars "%", chars "<<", chars ">>", chars "&"].contains o then 5
  else if [chars "+", chars "-", chars "|"].contains o then 4
  else if [chars "==", chars "!=", chars "<", chars "<=", chars ">", chars ">="].contains o then 3
  else if o = chars "&&" then 2
  else if o = chars "||" then 1
  else 0

/-- The tokens after the bracket that closes, `depth` brackets being open. -/
def afterBrackets : Nat → List Tok → List Tok
  | _, [] => []
  | depth, .op o :: ts =>
    if o = ['('] ∨ o = ['['] ∨ o = ['{'] then afterBrackets (depth + 1) ts
    else if o = [')'] ∨ o = [']'] ∨ o = ['}'] then if depth ≤ 1 then ts else afterBrackets (depth - 1) ts
    else afterBrackets depth ts
  | depth, _ :: ts => afterBrackets depth ts

/-- A type. -/
def type : List Tok → Option (RTy × List Tok)
  | .op ['*'] :: .word p :: .op ['.'] :: .word w :: ts =>
    if p = chars "bufio" ∧ w = chars "Scanner" then some (.scanner, ts) else some (.other, ts)
  | .op ['*'] :: .word w :: .op ['['] :: ts => some (.ptr w, afterBrackets 1 ts)
  | .op ['*'] :: .word w :: ts => some (.ptr w, ts)
  | .op ['['] :: .op [']'] :: .word w :: ts =>
    if w = chars "byte" then some (.bytes, ts) else if w = chars "rune" then some (.runes, ts) else some (.other, ts)
  | .word w :: .op ['('] :: ts => if w = chars "func" then
      match afterBrackets 1 ts with
      | .op ['('] :: ts => some (.other, afterBrackets 1 ts)
      | .word _ :: ts => some (.other, ts)
      | ts => some (.other, ts)
    else some (.name w, .op ['('] :: ts)
  | .word w :: .op ['['] :: ts => some (.name w, afterBrackets 1 ts)
  | .word _ :: .op ['.'] :: .word _ :: ts => some (.other, ts)
  | .word w :: ts => some (.name w, ts)
  | _ => none

/-- Parameters or results, up to the `)`. A result without a name has the empty name. -/
def params : Nat → List Tok → Option (List (Name × RTy) × List Tok)
  | 0, _ => none
  | _ + 1, .op [')'] :: ts => some ([], ts)
  | fuel + 1, .op [','] :: ts => params fuel ts
  | fuel + 1, .word w :: .op [','] :: ts =>
    match params fuel ts with
    | some (ps, ts) => some (([], .name w) :: ps, ts)
    | none => none
  | _ + 1, .word w :: .op [')'] :: ts => some ([([], .name w)], ts)
  | fuel + 1, .word w :: ts =>
    match type ts with
    | some (t, ts) =>
      match params fuel ts with
      | some (ps, ts) => some ((w, t) :: ps, ts)
      | none => none
    | none => none
  | _ + 1, _ => none

/-- The names with commas between them, up to the `)`. -/
def arguments : List Tok → Option (List Name × List Tok)
  | .word w :: .op [','] :: ts =>
    match arguments ts with
    | some (ws, ts) => some (w :: ws, ts)
    | none => none
  | .word w :: .op [')'] :: ts => some ([w], ts)
  | _ => none

/-- `func(ps) (…) { return x.m(ps) }`, after the word: the method `x.m` as a value. -/
def closure (fuel : Nat) : List Tok → Option (RExpr × List Tok)
  | .op ['('] :: ts =>
    match params fuel ts with
    | some (ps, .op ['('] :: ts) =>
      match afterBrackets 1 ts with
      | .op ['{'] :: .word r :: .word x :: .op ['.'] :: .word m :: .op ['('] :: ts =>
        match arguments ts with
        | some (as, .op [';'] :: .op ['}'] :: ts) =>
          if r = chars "return" ∧ as = ps.map (·.1) ∧ !(as.contains x) then some (.sel (.id x) m, ts) else none
        | _ => none
      | _ => none
    | _ => none
  | _ => none

mutual
/-- An expression whose operators bind at least as strongly as `p`. -/
def binary : Nat → Nat → List Tok → Option (RExpr × List Tok)
  | 0, _, _ => none
  | fuel + 1, p, ts =>
    match unary fuel ts with
    | some (a, ts) => binaryRest fuel p a ts
    | none => none
termination_by structural fuel => fuel

def binaryRest : Nat → Nat → RExpr → List Tok → Option (RExpr × List Tok)
  | 0, _, _, _ => none
  | fuel + 1, p, a, .op o :: ts =>
    if precedence o ≠ 0 ∧ p ≤ precedence o then
      match binary fuel (precedence o + 1) ts with
      | some (b, ts) => binaryRest fuel p (.bin o a b) ts
      | none => none
    else some (a, .op o :: ts)
  | _ + 1, _, a, ts => some (a, ts)
termination_by structural fuel => fuel

def unary : Nat → List Tok → Option (RExpr × List Tok)
  | 0, _ => none
  | fuel + 1, .op o :: ts =>
    if o = chars "!" ∨ o = chars "-" ∨ o = chars "*" then
      match unary fuel ts with
      | some (a, ts) => some (.un o a, ts)
      | none => none
    else if o = chars "(" then
      match binary fuel 1 ts with
      | some (a, .op [')'] :: ts) => suffix fuel a ts
      | _ => none
    else if o = chars "&" then
      match ts with
      | .word t :: .op ['['] :: ts =>
        match afterBrackets 1 ts with
        | .op ['{'] :: ts =>
          match keyed fuel ts with
          | some (fs, ts) => some (.struct t fs, ts)
          | none => none
        | _ => none
      | .word t :: .op ['{'] :: ts =>
        match keyed fuel ts with
        | some (fs, ts) => some (.struct t fs, ts)
        | none => none
      | _ => none
    else none
  | fuel + 1, .int n :: ts => suffix fuel (.int n) ts
  | _ + 1, .str s :: ts => some (.str s, ts)
  | fuel + 1, .word w :: ts =>
    if w = chars "func" then closure fuel ts else if keywords.contains w then none else suffix fuel (.id w) ts
  | _ + 1, _ => none
termination_by structural fuel => fuel

/-- Selectors, indexes, slices and arguments. -/
def suffix : Nat → RExpr → List Tok → Option (RExpr × List Tok)
  | 0, _, _ => none
  | fuel + 1, a, .op ['('] :: .op [')'] :: ts => suffix fuel (.call a []) ts
  | fuel + 1, a, .op ['('] :: ts =>
    match exprs fuel ts with
    | some (es, .op [')'] :: ts) => suffix fuel (.call a es) ts
    | _ => none
  | fuel + 1, a, .op ['.'] :: .word w :: ts => suffix fuel (.sel a w) ts
  | fuel + 1, a, .op ['['] :: .op [':'] :: ts =>
    match binary fuel 1 ts with
    | some (j, .op [']'] :: ts) => suffix fuel (.take a j) ts
    | _ => none
  | fuel + 1, a, .op ['['] :: ts =>
    match binary fuel 1 ts with
    | some (i, .op [']'] :: ts) => suffix fuel (.index a i) ts
    | some (i, .op [':'] :: .op [']'] :: ts) => suffix fuel (.drop a i) ts
    | some (i, .op [':'] :: ts) =>
      match binary fuel 1 ts with
      | some (j, .op [']'] :: ts) => suffix fuel (.slice a i j) ts
      | _ => none
    | _ => none
  | _ + 1, _, .op ['.'] :: _ => none
  | _ + 1, a, ts => some (a, ts)
termination_by structural fuel => fuel

/-- Expressions with commas between them. -/
def exprs : Nat → List Tok → Option (List RExpr × List Tok)
  | 0, _ => none
  | fuel + 1, ts =>
    match binary fuel 1 ts with
    | some (e, .op [','] :: ts) =>
      match exprs fuel ts with
      | some (es, ts) => some (e :: es, ts)
      | none => none
    | some (e, ts) => some ([e], ts)
    | none => none
termination_by structural fuel => fuel

/-- The elements of a composite literal, each with its key, up to the `}`. -/
def keyed : Nat → List Tok → Option (List (Name × RExpr) × List Tok)
  | 0, _ => none
  | _ + 1, .op ['}'] :: ts => some ([], ts)
  | fuel + 1, .word k :: .op [':'] :: ts =>
    match binary fuel 1 ts with
    | some (e, .op [','] :: ts) =>
      match keyed fuel ts with
      | some (fs, ts) => some ((k, e) :: fs, ts)
      | none => none
    | some (e, .op ['}'] :: ts) => some ([(k, e)], ts)
    | _ => none
  | _ + 1, _ => none
termination_by structural fuel => fuel
end

/-- Names with commas between them. -/
def names : Nat → List Tok → Option (List Name × List Tok)
  | 0, _ => none
  | fuel + 1, .word w :: .op [','] :: ts =>
    match names fuel ts with
    | some (ws, ts) => some (w :: ws, ts)
    | none => none
  | _ + 1, .word w :: ts => some ([w], ts)
  | _ + 1, _ => none

/-- "Simple statements": definitions, assignments, `x op= e`, `x++`, `x--`, and expressions, which are calls. -/
def simple (fuel : Nat) (ts : List Tok) : Option (RStmt × List Tok) :=
  match exprs fuel ts with
  | some (xs, .op o :: ts) =>
    if o = chars ":=" then
      match exprs fuel ts with
      | some (es, ts) => some (.define xs es, ts)
      | none => none
    else if o = chars "=" then
      match exprs fuel ts with
      | some (es, ts) => some (.assign xs es, ts)
      | none => none
    else
      match xs with
      | [x] =>
        if o = chars "++" then some (.update ['+'] x (.int 1), ts)
        else if o = chars "--" then some (.update ['-'] x (.int 1), ts)
        else if o = chars ";" then some (.expr x, .op o :: ts)
        else if [chars "+=", chars "-=", chars "|=", chars "&="].contains o then
          match binary fuel 1 ts with
          | some (e, ts) => some (.update (o.take 1) x e, ts)
          | none => none
        else none
      | _ => none
  | _ => none

/-- Drop the semicolon after a statement, which may be left out before a `}`. -/
def afterStmt : List Tok → Option (List Tok)
  | .op [';'] :: ts => some ts
  | .op ['}'] :: ts => some (.op ['}'] :: ts)
  | _ => none

/-- The label of `break` and `continue`. -/
def labelOf : List Tok → Option Name × List Tok
  | .word w :: ts => (some w, ts)
  | ts => (none, ts)

mutual
/-- Statements up to a `}`, `case` or `default`. -/
def stmts : Nat → List Tok → Option (List RStmt × List Tok)
  | 0, _ => none
  | _ + 1, .op ['}'] :: ts => some ([], .op ['}'] :: ts)
  | fuel + 1, .word w :: ts =>
    if w = chars "case" ∨ w = chars "default" then some ([], .word w :: ts)
    else
      match stmt fuel none (.word w :: ts) with
      | some (s, ts) =>
        match afterStmt ts with
        | some ts =>
          match stmts fuel ts with
          | some (ss, ts) => some (s :: ss, ts)
          | none => none
        | none => none
      | none => none
  | _ + 1, _ => none
termination_by structural fuel => fuel

/-- Statements in braces. -/
def block : Nat → List Tok → Option (List RStmt × List Tok)
  | 0, _ => none
  | fuel + 1, .op ['{'] :: ts =>
    match stmts fuel ts with
    | some (ss, .op ['}'] :: ts) => some (ss, ts)
    | _ => none
  | _ + 1, _ => none
termination_by structural fuel => fuel

/-- A statement, after its label. -/
def stmt : Nat → Option Name → List Tok → Option (RStmt × List Tok)
  | 0, _, _ => none
  | fuel + 1, none, .word w :: .op [':'] :: ts => stmt fuel (some w) ts
  | fuel + 1, label, .word w :: ts =>
    if w = chars "for" then
      match ts with
      | .op ['{'] :: _ =>
        match block fuel ts with
        | some (body, ts) => some (.loop label none none none body, ts)
        | none => none
      | .word ['_'] :: .op [','] :: .word x :: .op [':', '='] :: .word r :: ts =>
        if r = chars "range" then
          match binary fuel 1 ts with
          | some (e, ts) =>
            match block fuel ts with
            | some (body, ts) => some (.range label x e body, ts)
            | none => none
          | none => none
        else none
      | ts =>
        match simple fuel ts with
        | some (init, .op [';'] :: ts) =>
          match binary fuel 1 ts with
          | some (c, .op [';'] :: ts) =>
            match simple fuel ts with
            | some (post, ts) =>
              match block fuel ts with
              | some (body, ts) => some (.loop label (some init) (some c) (some post) body, ts)
              | none => none
            | none => none
          | _ => none
        | _ =>
          match binary fuel 1 ts with
          | some (c, ts) =>
            match block fuel ts with
            | some (body, ts) => some (.loop label none (some c) none body, ts)
            | none => none
          | none => none
    else if label.isSome then none
    else if w = chars "if" then
      match
        (match simple fuel ts with
        | some (init, .op [';'] :: ts) => (some init, ts)
        | _ => (none, ts)) with
      | (init, ts) =>
        match binary fuel 1 ts with
        | some (c, ts) =>
          match block fuel ts with
          | some (a, .word e :: ts) =>
            if e = chars "else" then
              match ts with
              | .op ['{'] :: _ =>
                match block fuel ts with
                | some (b, ts) => some (.ite init c a b, ts)
                | none => none
              | ts =>
                match stmt fuel none ts with
                | some (.ite i d x y, ts) => some (.ite init c a [.ite i d x y], ts)
                | _ => none
            else none
          | some (a, ts) => some (.ite init c a [], ts)
          | none => none
        | none => none
    else if w = chars "switch" then
      match ts with
      | .op ['{'] :: ts =>
        match clauses fuel ts with
        | some (cs, ts) => some (.switch none cs, ts)
        | none => none
      | .word v :: .op [':', '='] :: .word a :: .op ['('] :: .word x :: .op [')'] :: .op ['.'] :: .op ['('] :: .word t :: .op [')'] ::
          .op ['{'] :: ts =>
        if a = chars "any" ∧ t = chars "type" then
          match typeClauses fuel ts with
          | some (cs, ts) => some (.typeSwitch v x cs, ts)
          | none => none
        else none
      | ts =>
        match binary fuel 1 ts with
        | some (e, .op ['{'] :: ts) =>
          match clauses fuel ts with
          | some (cs, ts) => some (.switch (some e) cs, ts)
          | none => none
        | _ => none
    else if w = chars "var" then
      match names fuel ts with
      | some (xs, ts) =>
        match type ts with
        | some (t, .op ['='] :: ts) =>
          match binary fuel 1 ts with
          | some (e, ts) => some (.vars xs t (some e), ts)
          | none => none
        | some (t, ts) => some (.vars xs t none, ts)
        | none => none
      | none => none
    else if w = chars "break" then some (.brk (labelOf ts).1, (labelOf ts).2)
    else if w = chars "continue" then some (.cont (labelOf ts).1, (labelOf ts).2)
    else if w = chars "return" then
      match exprs fuel ts with
      | some (es, ts) => some (.ret es, ts)
      | none => none
    else simple fuel (.word w :: ts)
  | _ + 1, _, _ => none
termination_by structural fuel => fuel

/-- The clauses of a `switch`, down to its `}`. -/
def clauses : Nat → List Tok → Option (List (Option (List RExpr) × List RStmt) × List Tok)
  | 0, _ => none
  | _ + 1, .op ['}'] :: ts => some ([], ts)
  | fuel + 1, .word w :: ts =>
    if w = chars "case" then
      match exprs fuel ts with
      | some (es, .op [':'] :: ts) =>
        match stmts fuel ts with
        | some (ss, ts) =>
          match clauses fuel ts with
          | some (cs, ts) => some ((some es, ss) :: cs, ts)
          | none => none
        | none => none
      | _ => none
    else if w = chars "default" then
      match ts with
      | .op [':'] :: ts =>
        match stmts fuel ts with
        | some (ss, ts) =>
          match clauses fuel ts with
          | some (cs, ts) => some ((none, ss) :: cs, ts)
          | none => none
        | none => none
      | _ => none
    else none
  | _ + 1, _ => none
termination_by structural fuel => fuel

/-- The clauses of a type switch, each with one type, down to its `}`. -/
def typeClauses : Nat → List Tok → Option (List (Option RTy × List RStmt) × List Tok)
  | 0, _ => none
  | _ + 1, .op ['}'] :: ts => some ([], ts)
  | fuel + 1, .word w :: ts =>
    match
      (if w = chars "case" then
        match type ts with
        | some (t, ts) => some (some t, ts)
        | none => none
      else if w = chars "default" then some (none, ts)
      else none) with
    | some (t, .op [':'] :: ts) =>
      match stmts fuel ts with
      | some (ss, ts) =>
        match typeClauses fuel ts with
        | some (cs, ts) => some ((t, ss) :: cs, ts)
        | none => none
      | none => none
    | _ => none
  | _ + 1, _ => none
termination_by structural fuel => fuel
end

/-! ## Declarations -/

/-- Declarations as they are written: constants, in their groups, types, tables, variables whose values are functions, and functions. -/
inductive RDecl where
  | consts (cs : List (Name × Option RTy × Option RExpr))
  | alias (n : Name) (t : RTy)
  | struct (n : Name) (fields : List (Name × RTy))
  | table (n : Name)
  | values (fs : List (Name × Name))
  | func (n : Name) (params results : List (Name × RTy)) (body : Option (List RStmt))

/-- The fields of a struct, up to the `}`. One without a name is embedded. -/
def fields : Nat → List Tok → Option (List (Name × RTy) × List Tok)
  | 0, _ => none
  | _ + 1, .op ['}'] :: ts => some ([], ts)
  | fuel + 1, .op [';'] :: ts => fields fuel ts
  | fuel + 1, .op ['*'] :: .word p :: .op ['.'] :: .word w :: ts =>
    match type (.op ['*'] :: .word p :: .op ['.'] :: .word w :: ts), fields fuel ts with
    | some (t, _), some (ps, ts) => some ((w, t) :: ps, ts)
    | _, _ => none
  | fuel + 1, .word w :: ts =>
    match type ts with
    | some (t, ts) =>
      match fields fuel ts with
      | some (ps, ts) => some ((w, t) :: ps, ts)
      | none => none
    | none => none
  | _ + 1, _ => none

/-- One line of a declaration of constants. -/
def constSpec (fuel : Nat) : List Tok → Option ((Name × Option RTy × Option RExpr) × List Tok)
  | .word w :: .op ['='] :: ts =>
    match binary fuel 1 ts with
    | some (e, ts) => some ((w, none, some e), ts)
    | none => none
  | .word w :: .op [';'] :: ts => some ((w, none, none), .op [';'] :: ts)
  | .word w :: ts =>
    match type ts with
    | some (t, .op ['='] :: ts) =>
      match binary fuel 1 ts with
      | some (e, ts) => some ((w, some t, some e), ts)
      | none => none
    | _ => none
  | _ => none

/-- A group of constants, up to the `)`. -/
def constSpecs : Nat → List Tok → Option (List (Name × Option RTy × Option RExpr) × List Tok)
  | 0, _ => none
  | _ + 1, .op [')'] :: ts => some ([], ts)
  | fuel + 1, .op [';'] :: ts => constSpecs fuel ts
  | fuel + 1, ts =>
    match constSpec fuel ts with
    | some (c, ts) =>
      match constSpecs fuel ts with
      | some (cs, ts) => some (c :: cs, ts)
      | none => none
    | none => none

/-- What follows the name and the type parameters of a function. A method is a function with the receiver as its first argument,
its name begins with a dot. -/
def funcRest (fuel : Nat) (name : Name) (recv : List (Name × RTy)) (ts : List Tok) : Option (RDecl × List Tok) :=
  match params fuel ts with
  | some (ps, ts) =>
    match
      (match ts with
      | .op ['{'] :: _ => some ([], ts)
      | .op ['('] :: ts => params fuel ts
      | ts =>
        match type ts with
        | some (t, ts) => some ([([], t)], ts)
        | none => none) with
    | some (rs, .op ['{'] :: ts) =>
      match block fuel (.op ['{'] :: ts) with
      | some (body, _) => some (.func name (recv ++ ps) rs (some body), afterBrackets 1 ts)
      | none => some (.func name (recv ++ ps) rs none, afterBrackets 1 ts)
    | _ => none
  | none => none

/-- After the name of a function: its type parameters, parameters, results and body. -/
def funcOf (fuel : Nat) (name : Name) (recv : List (Name × RTy)) : List Tok → Option (RDecl × List Tok)
  | .op ['['] :: ts =>
    match afterBrackets 1 ts with
    | .op ['('] :: ts => funcRest fuel name recv ts
    | _ => none
  | .op ['('] :: ts => funcRest fuel name recv ts
  | _ => none

/-- The tokens after the next semicolon outside of brackets. -/
def afterDecl : Nat → List Tok → List Tok
  | _, [] => []
  | 0, _ => []
  | fuel + 1, .op o :: ts =>
    if o = [';'] then ts
    else if o = ['('] ∨ o = ['['] ∨ o = ['{'] then afterDecl fuel (afterBrackets 1 ts)
    else afterDecl fuel ts
  | fuel + 1, _ :: ts => afterDecl fuel ts

/-- A variable whose value is an instance of a generic function, up to the end of the line. -/
def valueSpec : List Tok → Option ((Name × Name) × List Tok)
  | .word w :: .op ['='] :: .word f :: .op ['['] :: ts =>
    match afterBrackets 1 ts with
    | .op [';'] :: ts => some ((w, f), ts)
    | _ => none
  | .word w :: .word _ :: .op ['.'] :: .word _ :: .op ['='] :: .word f :: .op ['['] :: ts =>
    match afterBrackets 1 ts with
    | .op [';'] :: ts => some ((w, f), ts)
    | _ => none
  | _ => none

/-- A group of such variables, up to the `)`. -/
def valueSpecs : Nat → List Tok → Option (List (Name × Name) × List Tok)
  | 0, _ => none
  | _ + 1, .op [')'] :: ts => some ([], ts)
  | fuel + 1, ts =>
    match valueSpec ts with
    | some (v, ts) =>
      match valueSpecs fuel ts with
      | some (vs, ts) => some (v :: vs, ts)
      | none => none
    | none => none

/-- The packages of the standard library that a text may use, each under its own name. -/
def packages : List Name := [chars "bufio", chars "io", chars "unicode", chars "unicode/utf8"]

/-- A group of imports, up to the `)`. -/
def importSpecs : Nat → List Tok → Option (List Tok)
  | 0, _ => none
  | _ + 1, .op [')'] :: ts => some ts
  | fuel + 1, .str p :: .op [';'] :: ts => if packages.contains p then importSpecs fuel ts else none
  | _, _ => none

/-- One declaration, `none` for `package` and `import`. -/
def decl (fuel : Nat) : List Tok → Option (Option RDecl × List Tok)
  | .word k :: ts =>
    if k = chars "const" then
      match ts with
      | .op ['('] :: ts =>
        match constSpecs fuel ts with
        | some (cs, ts) => some (some (.consts cs), ts)
        | none => none
      | ts =>
        match constSpec fuel ts with
        | some (c, ts) => some (some (.consts [c]), ts)
        | none => none
    else if k = chars "type" then
      match ts with
      | .word w :: .op ['['] :: ts =>
        match afterBrackets 1 ts with
        | .word s :: .op ['{'] :: ts =>
          if s = chars "struct" then
            match fields fuel ts with
            | some (fs, ts) => some (some (.struct w fs), ts)
            | none => none
          else none
        | ts => some (some (.alias w .other), afterDecl fuel ts)
      | .word w :: .word s :: .op ['{'] :: ts =>
        if s = chars "struct" then
          match fields fuel ts with
          | some (fs, ts) => some (some (.struct w fs), ts)
          | none => none
        else none
      | .word w :: ts =>
        match type ts with
        | some (t, ts) => some (some (.alias w t), ts)
        | none => none
      | _ => none
    else if k = chars "func" then
      match ts with
      | .op ['('] :: ts =>
        match params fuel ts with
        | some (recv, .word w :: ts) =>
          match funcOf fuel ('.' :: w) recv ts with
          | some (d, ts) => some (some d, ts)
          | none => none
        | _ => none
      | .word w :: ts =>
        match funcOf fuel w [] ts with
        | some (d, ts) => some (some d, ts)
        | none => none
      | _ => none
    else if k = chars "var" then
      match ts with
      | .word w :: .op ['='] :: .op ['['] :: ts => some (some (.table w), afterDecl fuel (afterBrackets 1 ts))
      | .op ['('] :: ts =>
        match valueSpecs fuel ts with
        | some (vs, ts) => some (some (.values vs), ts)
        | none => none
      | .word w :: .word _ :: .op ['='] :: .word f :: .op ['('] :: ts =>
        if f = chars "func" then
          match funcRest fuel w [] ts with
          | some (d, ts) => some (some d, ts)
          | none => none
        else none
      | ts =>
        match valueSpec ts with
        | some (v, ts) => some (some (.values [v]), ts)
        | none => none
    else if k = chars "package" then
      match ts with
      | .word _ :: .op [';'] :: ts => some (none, ts)
      | _ => none
    else if k = chars "import" then
      match ts with
      | .op ['('] :: ts => (importSpecs fuel ts).map (none, ·)
      | .str p :: ts => if packages.contains p then some (none, ts) else none
      | _ => none
    else none
  | _ => none

/-- The declarations of a file. -/
def decls : Nat → List Tok → Option (List RDecl)
  | _, [] => some []
  | 0, _ => none
  | fuel + 1, .op [';'] :: ts => decls fuel ts
  | fuel + 1, ts =>
    match decl fuel ts with
    | some (some d, ts) => (decls fuel ts).map (d :: ·)
    | some (none, ts) => decls fuel ts
    | none => none

/-- The declarations of a text. -/
def readFile (text : List Char) : Option (List RDecl) :=
  match tokens (text.length + 1) false text with
  | some ts => decls (ts.length + 1) ts
  | none => none

/-! ## Names become numbers -/

/-- What is known of a type: which integers it has, if any, the zero value, and the names of the fields. -/
structure Ty where
  ints : Option IntTy
  zero : Val
  fields : List Name
  deriving DecidableEq

/-- The names of the package. `values` are the variables whose values are functions; no assignment to them is read. `makers` are the
functions that give a pointer, `refs` the methods whose receivers are pointers, `doubles` the names of several methods, `methods` the
methods with the types of their receivers, `wrappers` the structs with nothing but an embedded `*bufio.Scanner`. Then the variables
of the function that is read: `pointers` those that are pointers, `generic` the parameters of type `T`, `wraps` the receiver,
if it is a pointer to one of `wrappers`, with the name of that one, `named` the results that have names, `lists` the parameters that
are slices. -/
structure Ctx where
  types : List (Name × Ty)
  consts : List (Name × Val)
  funcs : List Name
  tables : List Name
  values : List (Name × Name)
  makers : List Name
  refs : List Name
  doubles : List Name
  methods : List (Name × Name)
  wrappers : List Name
  pointers : List Nat
  generic : List Nat
  wraps : List (Nat × Name)
  named : List Nat
  lists : List Nat

def find {α : Type} (n : Name) : List (Name × α) → Option α
  | [] => none
  | (m, a) :: l => if m = n then some a else find n l

/-- The number of a name in a list. -/
def place (n : Name) : List Name → Option Nat
  | [] => none
  | m :: l => if m = n then some 0 else (place n l).map (· + 1)

/-- The types that are declared in advance; `T` is the type parameter of all generic functions. -/
def Ctx.start : Ctx where
  types :=
    [(chars "int", ⟨some .int, .num .int 0, []⟩), (chars "rune", ⟨some .int32, .num .int32 0, []⟩),
     (chars "byte", ⟨some .uint8, .num .uint8 0, []⟩), (chars "uint8", ⟨some .uint8, .num .uint8 0, []⟩),
     (chars "uint16", ⟨some .uint16, .num .uint16 0, []⟩), (chars "uint32", ⟨some .uint32, .num .uint32 0, []⟩),
     (chars "bool", ⟨none, .bool false, []⟩), (chars "string", ⟨none, .bytes [], []⟩), (chars "T", ⟨none, .nil, []⟩), (chars "error", ⟨none, .nil, []⟩)]
  consts := [(chars "true", .bool true), (chars "false", .bool false), (chars "nil", .nil)]
  funcs := []
  tables := []
  values := []
  makers := []
  refs := []
  doubles := []
  methods := []
  wrappers := []
  pointers := []
  generic := []
  wraps := []
  named := []
  lists := []

/-- The functions of other packages that are called; their numbers are after those of the functions of the program. -/
def others : List Name := [chars "unicode.IsLetter", chars "unicode.IsNumber"]

/-- What is known of a type. -/
def Ctx.ty (C : Ctx) : RTy → Option Ty
  | .name n => find n C.types
  | .ptr n => (find n C.types).map fun _ => ⟨none, .nil, []⟩
  | _ => some ⟨none, .nil, []⟩

/-- The number of a field. -/
def fieldNo (n : Name) : List (Name × Ty) → Option Nat
  | [] => none
  | (_, t) :: ts =>
    match place n t.fields with
    | some k => some k
    | none => fieldNo n ts

/-- The operators that are neither `&&` nor `||`. -/
def opOf (o : Name) : Option Op :=
  find o [(chars "+", .add), (chars "-", .sub), (chars "%", .rem), (chars "<<", .shl), (chars "&", .and), (chars "|", .or),
    (chars "==", .eq), (chars "!=", .ne), (chars "<", .lt), (chars "<=", .le), (chars ">", .gt), (chars ">=", .ge)]

/-- The variables in the blocks around a place, the innermost block first. -/
abbrev Scopes := List (List (Name × Nat))

/-- The number of a variable. -/
def varNo (n : Name) : Scopes → Option Nat
  | [] => none
  | b :: bs =>
    match find n b with
    | some k => some k
    | none => varNo n bs

/-- The name of a function of another package. -/
def qualified (S : Scopes) (m : Name) : RExpr → Option Name
  | .id p => if (varNo p S).isNone then some (p ++ '.' :: m) else none
  | _ => none

/-- The number of a method. -/
def Ctx.method (C : Ctx) (m : Name) : Option Nat :=
  if C.doubles.contains ('.' :: m) then none else place ('.' :: m) C.funcs

/-- `*p`, a copy of a struct. -/
def Ctx.deref (C : Ctx) (S : Scopes) : RExpr → Option Expr
  | .id n =>
    match varNo n S with
    | some k => if C.pointers.contains k then some (.var k) else none
    | none => none
  | _ => none

/-- The comparison of a pointer with `nil`. -/
def Ctx.nilTest (C : Ctx) (S : Scopes) (o : Name) : RExpr → RExpr → Option Expr
  | .id x, .id y =>
    match varNo x S with
    | some k =>
      if C.pointers.contains k ∧ y = chars "nil" ∧ (varNo y S).isNone then
        if o = chars "==" then some (.bin .eq (.var k) (.lit .nil))
        else if o = chars "!=" then some (.bin .ne (.var k) (.lit .nil))
        else none
      else none
    | none => none
  | _, _ => none

mutual
/-- An expression. A pointer is not one by itself, nor is the call of a method that may change its receiver. -/
def Ctx.expr (C : Ctx) (S : Scopes) : Nat → RExpr → Option Expr
  | 0, _ => none
  | fuel + 1, e =>
    match e with
    | .id n =>
      match varNo n S with
      | some k => if C.pointers.contains k then none else some (.var k)
      | none =>
        match find n C.consts with
        | some v => some (.lit v)
        | none =>
          match find n C.values with
          | some f => (place f C.funcs).map fun k => .lit (.fn k)
          | none => none
    | .int n => some (.lit (.num .untyped n))
    | .str s => some (.lit (.str s))
    | .un o a =>
      if o = chars "*" then C.deref S a
      else
        match C.expr S fuel a with
        | some a =>
          if o = chars "!" then some (.not a)
          else if o = chars "-" then some (.bin .sub (.lit (.num .untyped 0)) a)
          else none
        | none => none
    | .bin o a b =>
      match C.nilTest S o a b with
      | some e => some e
      | none =>
        match C.expr S fuel a, C.expr S fuel b with
        | some a, some b =>
          if o = chars "&&" then some (.and a b)
          else if o = chars "||" then some (.or a b)
          else
            match opOf o with
            | some op => some (.bin op a b)
            | none => none
        | _, _ => none
    | .call (.id f) args =>
      match varNo f S with
      | some _ => none
      | none =>
        match C.tuple S fuel args with
        | some es =>
          if f = chars "len" then some (.len es)
          else if f = chars "string" then some (.text es)
          else if C.makers.contains f then none
          else
            match find f C.types with
            | some t =>
              match t.ints with
              | some t => some (.conv t es)
              | none => none
            | none =>
              match place f C.funcs with
              | some k => some (.call k es)
              | none => none
        | none => none
    | .call (.sel a m) args =>
      match qualified S m a with
      | some q =>
        match C.tuple S fuel args with
        | some es =>
          if q = chars "utf8.DecodeRune" ∨ q = chars "utf8.DecodeRuneInString" then some (.decode es)
          else (place q others).map fun k => .call (C.funcs.length + k) es
        | none => none
      | none =>
      match C.method m with
      | some k =>
        if C.refs.contains ('.' :: m) ∨ C.makers.contains ('.' :: m) then none
        else
          match C.tuple S fuel (a :: args) with
          | some es => some (.call k es)
          | none => none
      | none =>
        match C.expr S fuel (.sel a m), C.tuple S fuel args with
        | some g, some es => some (.apply g es)
        | _, _ => none
    | .call _ _ => none
    | .sel (.id m) n =>
      match varNo m S with
      | some x =>
        match fieldNo n C.types with
        | some k => some (.field k (.var x))
        | none => if C.pointers.contains x ∧ x ≠ 0 then (C.method n).map fun k => .method k (.var x) else none
      | none => if m = chars "utf8" ∧ n = chars "RuneSelf" then some (.lit (.num .untyped 0x80)) else none
    | .sel a n =>
      match C.expr S fuel a, fieldNo n C.types with
      | some a, some k => some (.field k a)
      | _, _ => none
    | .index (.id n) i =>
      match C.expr S fuel i with
      | some i =>
        match varNo n S with
        | some k => some (.index (.var k) i)
        | none =>
          match place n C.tables with
          | some k => some (.table k i)
          | none => none
      | none => none
    | .index a i =>
      match C.expr S fuel a, C.expr S fuel i with
      | some a, some i => some (.index a i)
      | _, _ => none
    | .drop a i =>
      match C.expr S fuel a, C.expr S fuel i with
      | some a, some i => some (.drop a i)
      | _, _ => none
    | .take a j =>
      match C.expr S fuel a, C.expr S fuel j with
      | some a, some j => some (.take a j)
      | _, _ => none
    | .slice a i j =>
      match C.expr S fuel a, C.expr S fuel i, C.expr S fuel j with
      | some a, some i, some j => some (.slice a i j)
      | _, _, _ => none
    | .struct _ _ => none
termination_by structural fuel => fuel

/-- A composite literal: the elements must be in the order of the fields, those that are left out have their zero values. -/
def Ctx.literal (C : Ctx) (S : Scopes) : Nat → List Name → Val → List (Name × RExpr) → Option Expr
  | 0, _, _, _ => none
  | _ + 1, [], .nil, [] => some (.lit .nil)
  | fuel + 1, n :: ns, .pair v vs, (m, e) :: fs =>
    if m = n then
      match C.expr S fuel e, C.literal S fuel ns vs fs with
      | some a, some b =>
        match v with
        | .num t _ => some (.pair (.conv t a) b)
        | _ => some (.pair a b)
      | _, _ => none
    else (C.literal S fuel ns vs ((m, e) :: fs)).map (.pair (.lit v))
  | fuel + 1, _ :: ns, .pair v vs, [] => (C.literal S fuel ns vs []).map (.pair (.lit v))
  | _ + 1, _, _, _ => none
termination_by structural fuel => fuel

/-- Some expressions, as a tuple. -/
def Ctx.tuple (C : Ctx) (S : Scopes) : Nat → List RExpr → Option Expr
  | 0, _ => none
  | _ + 1, [] => some (.lit .nil)
  | fuel + 1, [e] => C.expr S fuel e
  | fuel + 1, e :: es =>
    match C.expr S fuel e, C.tuple S fuel es with
    | some a, some b => some (.pair a b)
    | _, _ => none
termination_by structural fuel => fuel
end

/-- Where a statement stands: the variables around it, the number of the next variable, the labels, whether an unlabelled `break`
would leave a `switch`, the variables whose structs may be changed: the receiver, and copies, and the variables that are scanners
of `bufio`. -/
structure Place where
  scopes : Scopes
  next : Nat
  labels : List Name
  inSwitch : Bool
  structs : List Nat
  scanners : List Nat

/-- A new variable in the innermost block. -/
def Place.declare (P : Place) (n : Name) : Nat × Place :=
  (P.next, { P with
    scopes := match P.scopes with
      | [] => [[(n, P.next)]]
      | b :: bs => ((n, P.next) :: b) :: bs
    next := P.next + 1 })

/-- Inside a new block. -/
def Place.enter (P : Place) : Place := { P with scopes := [] :: P.scopes }

/-- After a block: the variables of before, and new numbers. -/
def Place.leave (P Q : Place) : Place := { P with next := Q.next }

/-- The left side of `:=`: names of this block are assigned to, others are new variables. -/
def Place.defines (P : Place) : List RExpr → Option (List (Option Nat) × Place)
  | [] => some ([], P)
  | .id n :: xs =>
    if n = ['_'] then
      match P.defines xs with
      | some (ks, P) => some (none :: ks, P)
      | none => none
    else
      match find n (P.scopes.headD []) with
      | some k =>
        match P.defines xs with
        | some (ks, P) => some (some k :: ks, P)
        | none => none
      | none =>
        match (P.declare n).2.defines xs with
        | some (ks, P') => some (some (P.declare n).1 :: ks, P')
        | none => none
  | _ => none

/-- The left side of `=`. -/
def Place.assigns (P : Place) : List RExpr → Option (List (Option Nat))
  | [] => some []
  | .id n :: xs =>
    match P.assigns xs with
    | some ks =>
      if n = ['_'] then some (none :: ks)
      else
        match varNo n P.scopes with
        | some k => some (some k :: ks)
        | none => none
    | none => none
  | _ => none

/-- New variables of one type. -/
def Place.vars (P : Place) (e : Expr) : List Name → Stmt × Place
  | [] => (.skip, P)
  | [n] => (.define [some (P.declare n).1] e, (P.declare n).2)
  | n :: ns => (.seq (.define [some (P.declare n).1] e) ((P.declare n).2.vars e ns).1, ((P.declare n).2.vars e ns).2)

/-- The variable that is a copy of a struct after `x := *p`. -/
def copied : List RExpr → List (Option Nat) → List Nat
  | [.un o _], [some k] => if o = chars "*" then [k] else []
  | _, _ => []

/-- No pointer is assigned to. -/
def Ctx.keeps (C : Ctx) (ks : List (Option Nat)) : Bool := C.pointers.all fun k => !ks.contains (some k)

/-- The number of a label. -/
def Place.label (P : Place) : Option Name → Option Nat
  | none => some 0
  | some n => (place n P.labels).map fun k => P.labels.length - k

/-- `x := bufio.NewScanner(e)`: a scanner is its reader and its split function. -/
def Ctx.newScanner (C : Ctx) (P : Place) (fuel : Nat) (es : List RExpr) : Option Expr :=
  match es with
  | [.call (.sel p m) [e]] =>
    if qualified P.scopes m p = some (chars "bufio.NewScanner") then
      (C.expr P.scopes fuel e).map fun e => .pair e (.pair (.lit .nil) (.lit .nil))
    else none
  | _ => none

/-- `x.Split(e)`, with `x` a scanner of `bufio`, or a pointer to a struct that embeds one. -/
def Ctx.setSplit (C : Ctx) (P : Place) (fuel : Nat) (x m : Name) (args : List RExpr) : Option (Stmt × Place) :=
  match varNo x P.scopes, args with
  | some k, [e] =>
    match C.expr P.scopes fuel e with
    | some e =>
      if m ≠ chars "Split" then none
      else if P.scanners.contains k then some (.setField k 1 e, P)
      else
        match C.wraps.find? fun w => w.1 = k with
        | some (_, t) =>
          if C.methods.contains (t, '.' :: m) then none
          else
            match P.declare [] with
            | (s, P) => some (.seq (.define [some s] (.field 0 (.var k))) (.seq (.setField s 1 e) (.setField k 0 (.var s))), P)
        | none => none
    | none => none
  | _, _ => none

/-- Some variables, as a tuple. -/
def varTuple : List Nat → Expr
  | [] => .lit .nil
  | [k] => .var k
  | k :: ks => .pair (.var k) (varTuple ks)

/-- A parameter that is a slice. -/
def Ctx.isList (C : Ctx) (S : Scopes) : RExpr → Bool
  | .id x => (varNo x S).any C.lists.contains
  | _ => false

/-- The tests of one `case`. -/
def Ctx.cases (C : Ctx) (S : Scopes) (fuel : Nat) (tag : Option Nat) : List RExpr → Option Expr
  | [] => none
  | [e] =>
    match C.expr S fuel e, tag with
    | some e, some k => some (.bin .eq (.var k) e)
    | some e, none => some e
    | none, _ => none
  | e :: es =>
    match C.expr S fuel e, C.cases S fuel tag es with
    | some e, some c =>
      match tag with
      | some k => some (.or (.bin .eq (.var k) e) c)
      | none => some (.or e c)
    | _, _ => none

mutual
/-- A statement. -/
def Ctx.stmt (C : Ctx) : Nat → Place → RStmt → Option (Stmt × Place)
  | 0, _, _ => none
  | fuel + 1, P, s =>
    match s with
    | .define xs es =>
      match C.newScanner P fuel es, P.defines xs with
      | some e, some ([some k], Q) => if k = P.next then some (.define [some k] e, { Q with scanners := k :: Q.scanners }) else none
      | some _, _ => none
      | none, _ =>
      match C.tuple P.scopes fuel es with
      | some e =>
        match P.defines xs with
        | some (ks, Q) => if C.keeps ks then some (.define ks e, { Q with structs := copied es ks ++ Q.structs }) else none
        | none => none
      | none => none
    | .assign [.sel (.id x) n] [e] =>
      match C.expr P.scopes fuel e, varNo x P.scopes, fieldNo n C.types with
      | some e, some x, some k => if P.structs.contains x then some (.setField x k e, P) else none
      | _, _, _ => none
    | .assign xs es =>
      match C.tuple P.scopes fuel es, P.assigns xs with
      | some e, some ks => if C.keeps ks then some (.assign ks e, P) else none
      | _, _ => none
    | .update o (.sel (.id x) n) e =>
      match C.expr P.scopes fuel (.bin o (.sel (.id x) n) e), varNo x P.scopes, fieldNo n C.types with
      | some e, some x, some k => if P.structs.contains x then some (.setField x k e, P) else none
      | _, _, _ => none
    | .update o x e =>
      match C.expr P.scopes fuel (.bin o x e), P.assigns [x] with
      | some e, some ks => if C.keeps ks then some (.assign ks e, P) else none
      | _, _ => none
    | .vars _ (.ptr _) _ => none
    | .vars xs t none =>
      match C.ty t with
      | some t =>
        match P.vars (.lit t.zero) xs with
        | (s, Q) => some (s, { Q with structs := List.range' P.next xs.length ++ Q.structs })
      | none => none
    | .vars xs t (some e) =>
      match C.ty t, C.expr P.scopes fuel e with
      | some ⟨some t, _, _⟩, some e => some (P.vars (.conv t e) xs)
      | some ⟨none, _, _⟩, some e => some (P.vars e xs)
      | _, _ => none
    | .ite init c a b =>
      match
        (match init with
        | none => some (Stmt.skip, P.enter)
        | some s => C.stmt fuel P.enter s) with
      | some (i, Q) =>
        match C.expr Q.scopes fuel c with
        | some c =>
          match C.block fuel Q.enter a with
          | some (a, R) =>
            match C.block fuel (Q.leave R).enter b with
            | some (b, R) => some (if init.isSome then .seq i (.ite c a b) else .ite c a b, P.leave R)
            | none => none
          | none => none
        | none => none
      | none => none
    | .loop label init c post body =>
      match { P.enter with labels := (label.getD []) :: P.labels, inSwitch := false } with
      | Q =>
        match
          (match init with
          | none => some (Stmt.skip, Q)
          | some s => C.stmt fuel Q s) with
        | some (i, Q) =>
          match
            (match c with
            | none => some (Expr.lit (.bool true))
            | some c => C.expr Q.scopes fuel c),
            (match post with
            | none => some (Stmt.skip, Q)
            | some s => C.stmt fuel Q s) with
          | some c, some (post, _) =>
            match C.block fuel Q.enter body with
            | some (body, R) =>
              some (if init.isSome then .seq i (.loop Q.labels.length c post body) else .loop Q.labels.length c post body, P.leave R)
            | none => none
          | _, _ => none
        | none => none
    | .range label x e body =>
      if !(C.isList P.scopes e) then none else
      match C.expr P.scopes fuel e with
      | some e =>
        match { P.enter with labels := (label.getD []) :: P.labels, inSwitch := false } with
        | Q =>
          match Q.declare [] with
          | (list, Q) =>
            match Q.declare [] with
            | (i, Q) =>
              match Q.declare x with
              | (x, Q) =>
                match C.block fuel Q.enter body with
                | some (body, R) =>
                  some (.seq (.define [some list] e) (.seq (.define [some i] (.lit (.num .untyped 0)))
                    (.loop Q.labels.length (.bin .lt (.var i) (.len (.var list)))
                      (.assign [some i] (.bin .add (.var i) (.lit (.num .untyped 1))))
                      (.seq (.define [some x] (.index (.var list) (.var i))) body))), P.leave R)
                | none => none
      | none => none
    | .switch tag cs =>
      match { P.enter with inSwitch := true } with
      | Q =>
        match tag with
        | none =>
          match C.clauses fuel Q none cs with
          | some (s, R) => some (s, P.leave R)
          | none => none
        | some e =>
          match C.expr P.scopes fuel e with
          | some e =>
            match Q.declare [] with
            | (k, Q) =>
              match C.clauses fuel Q (some k) cs with
              | some (s, R) => some (.seq (.define [some k] e) s, P.leave R)
              | none => none
          | none => none
    | .typeSwitch v x cs =>
      match varNo x P.scopes with
      | some k =>
        if C.generic.contains k then
          match { P.enter with inSwitch := true }.declare v with
          | (v, Q) =>
            match C.typeClauses fuel Q cs with
            | some ((a, b, c), R) =>
              some (.seq (.define [some v] (.var k)) (.byType (a.getD (c.getD .skip)) (b.getD (c.getD .skip)) (c.getD .skip)), P.leave R)
            | none => none
        else none
      | none => none
    | .brk none => if P.inSwitch then none else some (.brk 0, P)
    | .brk (some l) => (P.label (some l)).map fun k => (.brk k, P)
    | .cont l => (P.label l).map fun k => (.cont k, P)
    | .ret [] => some (.ret (varTuple C.named), P)
    | .ret [.struct t fs] =>
      match find t C.types with
      | some t => (C.literal P.scopes fuel t.fields t.zero fs).map fun e => (.ret e, P)
      | none => none
    | .ret [.call (.sel (.id x) m) args] =>
      match varNo x P.scopes, C.method m with
      | some y, some k =>
        if P.structs.contains y ∧ !(C.pointers.contains y) ∧ !(C.makers.contains ('.' :: m)) then
          match C.tuple P.scopes fuel (.id x :: args) with
          | some e => some (.ret (.call k e), P)
          | none => none
        else none
      | _, _ =>
        match C.expr P.scopes fuel (.call (.sel (.id x) m) args) with
        | some e => some (.ret e, P)
        | none => none
    | .ret es =>
      match C.tuple P.scopes fuel es with
      | some e => some (.ret e, P)
      | none => none
    | .expr (.call (.id f) args) =>
      if f = chars "panic" ∧ (varNo f P.scopes).isNone then
        match C.tuple P.scopes fuel args with
        | some e => some (.panic e, P)
        | none => none
      else none
    | .expr (.call (.sel (.id x) m) args) =>
      match C.setSplit P fuel x m args with
      | some r => some r
      | none =>
      match varNo x P.scopes, C.method m, C.tuple P.scopes fuel args with
      | some x, some k, some e =>
        if P.structs.contains x ∧ C.wraps.all fun w => w.1 ≠ x ∨ C.methods.contains (w.2, '.' :: m) then some (.invoke x k e, P) else none
      | _, _, _ => none
    | .expr _ => none
termination_by structural fuel => fuel

/-- The statements of a block. -/
def Ctx.block (C : Ctx) : Nat → Place → List RStmt → Option (Stmt × Place)
  | 0, _, _ => none
  | _ + 1, P, [] => some (.skip, P)
  | fuel + 1, P, [s] => C.stmt fuel P s
  | fuel + 1, P, [.define [.id x] [.struct t fs], .ret [.id y]] => if x = y then C.stmt fuel P (.ret [.struct t fs]) else none
  | fuel + 1, P, s :: ss =>
    match C.stmt fuel P s with
    | some (a, P) =>
      match C.block fuel P ss with
      | some (b, P) => some (.seq a b, P)
      | none => none
    | none => none
termination_by structural fuel => fuel

/-- The clauses of a `switch`: the first whose test holds, else the `default`. -/
def Ctx.clauses (C : Ctx) : Nat → Place → Option Nat → List (Option (List RExpr) × List RStmt) → Option (Stmt × Place)
  | 0, _, _, _ => none
  | _ + 1, P, _, [] => some (.skip, P)
  | fuel + 1, P, _, [(none, body)] =>
    match C.block fuel P.enter body with
    | some (a, Q) => some (a, P.leave Q)
    | none => none
  | fuel + 1, P, tag, (some es, body) :: cs =>
    match C.cases P.scopes fuel tag es, C.block fuel P.enter body with
    | some c, some (a, Q) =>
      match C.clauses fuel (P.leave Q) tag cs with
      | some (b, Q) => some (.ite c a b, Q)
      | none => none
    | _, _ => none
  | _ + 1, _, _, _ => none
termination_by structural fuel => fuel

/-- The clauses of a type switch: for `string`, for `[]byte`, and the `default`. -/
def Ctx.typeClauses (C : Ctx) : Nat → Place → List (Option RTy × List RStmt) → Option ((Option Stmt × Option Stmt × Option Stmt) × Place)
  | 0, _, _ => none
  | _ + 1, P, [] => some ((none, none, none), P)
  | fuel + 1, P, (t, body) :: cs =>
    match C.block fuel P.enter body with
    | some (s, Q) =>
      match C.typeClauses fuel (P.leave Q) cs with
      | some ((a, b, c), R) =>
        match t with
        | none => if c.isNone then some ((a, b, some s), R) else none
        | some (.name n) => if n = chars "string" ∧ a.isNone then some ((some s, b, c), R) else none
        | some .bytes => if b.isNone then some ((a, some s, c), R) else none
        | _ => none
      | none => none
    | none => none
termination_by structural fuel => fuel
end

/-- One line of a declaration of constants, with the value of `iota`. The type and the expression are those of the line before, if
there are none. -/
def Ctx.constant (C : Ctx) (n : Name) (t : Option RTy) (e : RExpr) (iota : Nat) : Option Ctx :=
  match { C with consts := (chars "iota", .num .untyped iota) :: C.consts }.expr [] 100 e with
  | some e =>
    match eval ⟨fun _ v => (v, .error Fault.stuck), fun _ _ => .error Fault.stuck, .string⟩ [] e with
    | .ok v =>
      match t with
      | none => some { C with consts := (n, v) :: C.consts }
      | some t =>
        match C.ty t with
        | some ⟨some t, _, _⟩ => some { C with consts := (n, v.typed t) :: C.consts }
        | _ => none
    | .error _ => none
  | none => none

def Ctx.constants (C : Ctx) (iota : Nat) (t : Option RTy) (e : Option RExpr) :
    List (Name × Option RTy × Option RExpr) → Option Ctx
  | [] => some C
  | (n, t', e') :: cs =>
    match (match e' with | some e' => (t', some e') | none => (t, e)) with
    | (t, some e) =>
      match C.constant n t e iota with
      | some C => C.constants (iota + 1) t (some e) cs
      | none => none
    | (_, none) => none

/-- The zero value of a struct. -/
def Ctx.zeros (C : Ctx) : List (Name × RTy) → Option Val
  | [] => some .nil
  | (_, t) :: fs =>
    match C.ty t, C.zeros fs with
    | some t, some v => some (.pair t.zero v)
    | _, _ => none

/-- A pointer. -/
def RTy.isPtr : RTy → Bool
  | .ptr _ => true
  | _ => false

/-- The type parameter. -/
def RTy.isT : RTy → Bool
  | .name n => n = ['T']
  | _ => false

/-- `*bufio.Scanner`. -/
def RTy.isScanner : RTy → Bool
  | .scanner => true
  | _ => false

/-- A slice. -/
def RTy.isList : RTy → Bool
  | .bytes => true
  | .runes => true
  | _ => false

/-- The name of a type, or of what it points to. -/
def RTy.base : RTy → Name
  | .name n => n
  | .ptr n => n
  | _ => []

/-- The first parameter is a pointer. -/
def firstPtr : List (Name × RTy) → Bool
  | [] => false
  | (_, t) :: _ => t.isPtr

/-- The numbers of the parameters with a type of some kind. -/
def slotsOf (kind : RTy → Bool) (k : Nat) : List (Name × RTy) → List Nat
  | [] => []
  | (_, t) :: ps => if kind t then k :: slotsOf kind (k + 1) ps else slotsOf kind (k + 1) ps

/-- The names of a declaration. The second method of a name is named after the type of its receiver too. No two structs have fields of
the same name. -/
def Ctx.declare (C : Ctx) : RDecl → Option Ctx
  | .consts cs => C.constants 0 none none cs
  | .alias n t =>
    match C.ty t with
    | some t => some { C with types := (n, t) :: C.types }
    | none => none
  | .struct n fs =>
    if fs.any fun f => (fieldNo f.1 C.types).isSome then none else
    match C.zeros fs with
    | some v => some { C with
        types := (n, ⟨none, v, fs.map (·.1)⟩) :: C.types
        wrappers := if fs.length = 1 ∧ fs.all fun f => f.1 = chars "Scanner" ∧ f.2.isScanner then n :: C.wrappers else C.wrappers }
    | none => none
  | .table n => some { C with tables := C.tables ++ [n] }
  | .values vs => some { C with values := vs ++ C.values }
  | .func n ps rs _ => some { C with
      funcs := C.funcs ++ [if C.funcs.contains n then '.' :: (ps.head?.elim [] (·.2.base) ++ n) else n]
      doubles := if C.funcs.contains n then n :: C.doubles else C.doubles
      methods := if n.head? = some '.' then (ps.head?.elim [] (·.2.base), n) :: C.methods else C.methods
      makers := if rs.any fun r => r.2.isPtr then n :: C.makers else C.makers
      refs := if firstPtr ps then n :: C.refs else C.refs }

def Ctx.declares (C : Ctx) : List RDecl → Option Ctx
  | [] => some C
  | d :: ds =>
    match C.declare d with
    | some C => C.declares ds
    | none => none

/-- The parameters of a function, as variables of its block, and their integer types. -/
def Ctx.parameters (C : Ctx) (P : Place) : List (Name × RTy) → Option (List (Option IntTy) × Place)
  | [] => some ([], P)
  | (n, t) :: ps =>
    match C.ty t, C.parameters (P.declare n).2 ps with
    | some t, some (ts, P) => some (t.ints :: ts, P)
    | _, _ => none

/-- The results of a function, as variables with their zero values if they have names. -/
def Ctx.results (C : Ctx) (P : Place) : List (Name × RTy) → Option (List (Option IntTy) × List Stmt × Place)
  | [] => some ([], [], P)
  | (n, t) :: ps =>
    match C.ty t with
    | some t =>
      if n = [] then
        match C.results P ps with
        | some (ts, ss, P) => some (t.ints :: ts, ss, P)
        | none => none
      else
        match C.results (P.declare n).2 ps with
        | some (ts, ss, Q) => some (t.ints :: ts, .define [some (P.declare n).1] (.lit t.zero) :: ss, Q)
        | none => none
    | none => none

/-- The receiver, if it is a pointer to a struct that embeds a scanner, and the name of that struct. -/
def Ctx.wrapped (C : Ctx) : List (Name × RTy) → List (Nat × Name)
  | (_, .ptr t) :: _ => if C.wrappers.contains t then [(0, t)] else []
  | _ => []

/-- A function. -/
def Ctx.func (C : Ctx) (fuel : Nat) : List (Name × RTy) → List (Name × RTy) → Option (List RStmt) → Option Func
  | _, _, none => none
  | ps, rs, some body =>
    match C.parameters ⟨[[]], 0, [], false, 0 :: slotsOf (fun t => !t.isPtr) 0 ps, []⟩ ps with
    | some (params, P) =>
      match C.results P rs with
      | some (results, zeros, P) =>
        match { C with
            pointers := slotsOf RTy.isPtr 0 ps
            generic := slotsOf RTy.isT 0 ps
            wraps := C.wrapped ps
            named := List.range' ps.length (rs.filter fun r : Name × RTy => r.1 ≠ []).length
            lists := slotsOf RTy.isList 0 ps }.block fuel P body with
        | some (s, Q) => some ⟨firstPtr ps, params, results, Q.next, zeros.foldr Stmt.seq s⟩
        | none => none
      | none => none
    | none => none

/-- The functions of a program, in the order of the text, the names of the fields of its structs, and the variables whose values are
functions, with the numbers of these. -/
structure Program where
  names : List Name
  funcs : List (Option Func)
  structs : List (Name × List Name)
  variables : List (Name × Nat)
  deriving DecidableEq

def Ctx.program (C : Ctx) (fuel : Nat) : List RDecl → List (Option Func)
  | [] => []
  | .func _ ps rs body :: ds => C.func fuel ps rs body :: C.program fuel ds
  | _ :: ds => C.program fuel ds

/-- The structs, the last one first. -/
def Ctx.structs (C : Ctx) : List (Name × List Name) :=
  (C.types.filter fun t => t.2.fields ≠ []).map fun t => (t.1, t.2.fields)

/-- The variables whose values are functions. -/
def Ctx.variables (C : Ctx) : List (Name × Nat) :=
  C.values.filterMap fun v => (place v.2 C.funcs).map fun k => (v.1, k)

/-- The declarations of some files, one after another. -/
def readFiles : List (List Char) → Option (List RDecl)
  | [] => some []
  | f :: fs =>
    match readFile f, readFiles fs with
    | some a, some b => some (a ++ b)
    | _, _ => none

/-- A text from its lines. -/
def textOf (lines : List (List Char)) : List Char := lines.flatMap (· ++ ['\n'])

/-- The names that mean something to this reader or to the compiler. -/
def reserved : List Name :=
  [chars "len", chars "panic", chars "string", chars "true", chars "false", chars "nil", chars "iota", chars "T", chars "int", chars "rune",
   chars "byte", chars "uint8", chars "uint16", chars "uint32", chars "bool", chars "error", chars "init", chars "main"]

/-- The names that a declaration declares. -/
def RDecl.names : RDecl → List Name
  | .consts cs => cs.map (·.1)
  | .alias n _ => [n]
  | .struct n _ => [n]
  | .table n => [n]
  | .values vs => vs.map (·.1)
  | .func n _ _ _ => [n]

/-- No field has the name of a method. -/
def Ctx.fieldsApart (C : Ctx) : Bool := C.types.all fun t => t.2.fields.all fun f => !(C.funcs.contains ('.' :: f))

/-- Read the files of a package, all of them or nothing. So no function changes a variable of the package: that is not in this part of
Go. Constants and types are read in order: a file comes after those it uses. -/
def read (files : List (List Char)) : Option Program :=
  match readFiles files with
  | some ds =>
    match Ctx.start.declares ds with
    | some C =>
      if (C.program 200 ds).all Option.isSome ∧ C.fieldsApart ∧ (ds.all fun d => d.names.all fun n => !(reserved.contains n)) then
        some ⟨C.funcs, C.program 200 ds, C.structs, C.variables⟩
      else none
    | none => none
  | none => none

/-- A call of the function named `f` of a program: its result, and what its first argument is then. -/
def Program.run (P : Program) (O : Outside) (depth fuel : Nat) (f : Name) (args : Val) : Val × Res Val :=
  match place f P.names with
  | some k => callAt P.funcs O fuel depth k args
  | none => (args, .error Fault.stuck)

/-- A call of the function that is the value of the variable `v` of a program. -/
def Program.runVariable (P : Program) (O : Outside) (depth fuel : Nat) (v : Name) (args : Val) : Res Val :=
  match find v P.variables with
  | some k => (callAt P.funcs O fuel depth k args).2
  | none => .error Fault.stuck

/-- `x.f = v` outside of the package, with `x` of the struct type `t`: what `x` is then. -/
def Program.setField (P : Program) (t f : Name) (x v : Val) : Val × Res Val :=
  match find t P.structs with
  | some fs =>
    match place f fs with
    | some k =>
      match x.setField k v with
      | .ok x => (x, .ok .nil)
      | .error e => (x, .error e)
    | none => (x, .error Fault.stuck)
  | none => (x, .error Fault.stuck)

/-- A call of a function that is a value. -/
def Program.apply (P : Program) (O : Outside) (depth fuel : Nat) (args : Val) : Val → Res Val
  | .fn k => (callAt P.funcs O fuel depth k args).2
  | .bound k r => (callAt P.funcs O fuel depth k (.pair r args)).2
  | _ => .error Fault.stuck

end Uax29.Source
