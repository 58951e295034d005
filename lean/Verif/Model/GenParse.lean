import Verif.Model.GenMain
/-!
# Reading the files of the Unicode Character Database in the generator

internal/gen/main.go reads lists of property values and lists of tests as text. The text is a list of
characters here, so it is assumed to be UTF-8. The HTTP requests are not modelled; the whole text
arrives without an error. `Res (Option α)` is a call that panics, returns an error (`none`) or a value.
-/
namespace Uax29.Gen

/-- `strings.Split(s, sep)` for a separator of one character. -/
def splitChar (sep : Char) : List Char → List (List Char)
  | [] => [[]]
  | c :: s =>
    if c = sep then [] :: splitChar sep s
    else match splitChar sep s with
      | [] => [[c]]
      | p :: ps => (c :: p) :: ps

/-- `strings.Split(s, "..")`. -/
def splitDots : List Char → List (List Char)
  | [] => [[]]
  | '.' :: '.' :: s => [] :: splitDots s
  | c :: s => match splitDots s with
    | [] => [[c]]
    | p :: ps => (c :: p) :: ps

/-- `unicode.IsSpace`. -/
def isSpace (c : Char) : Bool :=
  c = ' ' || ('\t' ≤ c && c ≤ '\r') || c.toNat = 0x85 || c.toNat = 0xA0 || c.toNat = 0x1680
    || (0x2000 ≤ c.toNat && c.toNat ≤ 0x200A) || c.toNat = 0x2028 || c.toNat = 0x2029 || c.toNat = 0x202F
    || c.toNat = 0x205F || c.toNat = 0x3000

/-- `strings.TrimSpace`. -/
def trimSpace (s : List Char) : List Char := ((s.dropWhile isSpace).reverse.dropWhile isSpace).reverse

/-- The value of a digit in `strconv.ParseUint` with base 16. -/
def hexDigit (c : Char) : Option Nat :=
  if '0' ≤ c ∧ c ≤ '9' then some (c.toNat - 48)
  else if 'a' ≤ c ∧ c ≤ 'f' then some (c.toNat - 87)
  else if 'A' ≤ c ∧ c ≤ 'F' then some (c.toNat - 55)
  else none

/-- The loop of `strconv.ParseUint(s, 0, 32)` after the prefix `0x`. -/
def hexLoop : List Char → Nat → Option Nat
  | [], n => some n
  | c :: s, n =>
    if c = '_' then hexLoop s n
    else match hexDigit c with
      | none => none
      | some d => if n * 16 + d > 2 ^ 32 - 1 then none else hexLoop s (n * 16 + d)

/-- `underscoreOK` of package `strconv`, after the prefix `0x` and for hexadecimal digits: `digit` says
that the last character was a digit or the prefix. -/
def underscoreOK (digit : Bool) : List Char → Bool
  | [] => digit
  | c :: s => if c = '_' then digit && underscoreOK false s else underscoreOK true s

/-- `strconv.ParseInt("0x" + s, 0, 32)`. -/
def parseHex (s : List Char) : Option Nat :=
  if s = [] then none
  else match hexLoop s 0 with
    | none => none
    | some n => if s.contains '_' && !underscoreOK true s then none else if n ≥ 2 ^ 31 then none else some n

/-- `getRuneRange` — internal/gen/main.go:313-344. With the largest `int32` as the end of a range the
loop does not end, because `r++` overflows. -/
def getRuneRange (s : List Char) : Res (Option (List Nat)) :=
  match splitDots (trimSpace s) with
  | [] => .error .bounds
  | lo :: rest =>
    match parseHex lo with
    | none => .ok none
    | some lo =>
      match rest with
      | [] => .ok (some [lo])
      | hi :: _ =>
        match parseHex hi with
        | none => .ok none
        | some hi =>
          if hi = lo then .ok (some [lo])
          else if hi = 2 ^ 31 - 1 then .error .diverge
          else .ok (some (lo :: List.range' (lo + 1) (hi - lo)))

/-- The first of the parts, `strings.Split(s, "#")[0]`, and `strings.TrimSpace` of it —
internal/gen/main.go:142-143, 147-148. -/
def beforeHash (s : List Char) : Res (List Char) :=
  match splitChar '#' s with
  | [] => .error .bounds
  | p :: _ => .ok (trimSpace p)

/-- A line that is not skipped: the name and the runes — internal/gen/main.go:131-149. -/
def parseLine (s : List Char) : Res (Option (List Char × List Nat)) :=
  match splitChar ';' s with
  | [] => .error .bounds
  | p0 :: rest =>
    match getRuneRange p0 with
    | .error f => .error f
    | .ok none => .ok none
    | .ok (some runes) =>
      match rest with
      | [] => .error .bounds
      | [p1] => match beforeHash p1 with
        | .error f => .error f
        | .ok name => .ok (some (name, runes))
      | p1 :: p2 :: _ => match beforeHash p2 with
        | .error f => .error f
        | .ok value => .ok (some (trimSpace p1 ++ '_' :: value, runes))

/-- The lines that `b.ReadString('\n')` gives without an error — internal/gen/main.go:114-121. What
follows the last newline comes together with `io.EOF`, and is dropped. -/
def readLines (cur : List Char) : List Char → List (List Char)
  | [] => []
  | c :: s => if c = '\n' then (cur.reverse ++ ['\n']) :: readLines [] s else readLines (c :: cur) s

/-- `m[p] = append(m[p], runes...)` — internal/gen/main.go:151. -/
def addRunes (p : String) (runes : List Nat) : List (String × List Nat) → List (String × List Nat)
  | [] => [(p, runes)]
  | e :: m => if e.1 = p then (e.1, e.2 ++ runes) :: m else e :: addRunes p runes m

/-- `m[p]`: nil if there is no such key. -/
def getRunes (p : String) : List (String × List Nat) → List Nat
  | [] => []
  | e :: m => if e.1 = p then e.2 else getRunes p m

/-- `m[p] = runes`. -/
def setRunes (p : String) (runes : List Nat) : List (String × List Nat) → List (String × List Nat)
  | [] => [(p, runes)]
  | e :: m => if e.1 = p then (e.1, runes) :: m else e :: setRunes p runes m

/-- The loop over the lines — internal/gen/main.go:114-152. -/
def readProps : List (List Char) → List (String × List Nat) → Res (Option (List (String × List Nat)))
  | [], m => .ok (some m)
  | l :: ls, m =>
    if l = [] then readProps ls m
    else if l.head? = some '\n' ∨ l.head? = some '#' then readProps ls m
    else match parseLine l with
      | .error f => .error f
      | .ok none => .ok none
      | .ok (some (name, runes)) => readProps ls (addRunes (String.ofList name) runes m)

/-- `runesByProperty` after the loop — internal/gen/main.go:113-152. -/
def readFile (text : List Char) : Res (Option (List (String × List Nat))) := readProps (readLines [] text) []

/-- `indicConjunctBreak` — internal/gen/main.go:98-102. -/
structure InCB where
  consonant : List Nat
  linker : List Nat
  ext : List Nat

/-- For the file with the name "Emoji": `extendedPictographic` — internal/gen/main.go:154-160. -/
def emojiRunes (text : List Char) : Res (Option (List Nat)) :=
  match readFile text with
  | .error f => .error f
  | .ok none => .ok none
  | .ok (some m) => .ok (some (getRunes "Extended_Pictographic" m))

/-- For the file with the name "InCB" — internal/gen/main.go:162-169. -/
def inCBRunes (text : List Char) : Res (Option InCB) :=
  match readFile text with
  | .error f => .error f
  | .ok none => .ok none
  | .ok (some m) => .ok (some ⟨getRunes "InCB_Consonant" m, getRunes "InCB_Linker" m, getRunes "InCB_Extend" m⟩)

/-- The four packages by the names in `main`. -/
inductive Name where
  | grapheme | word | phrase | sentence
  deriving DecidableEq

/-- `runesByProperty` as completed for a package — internal/gen/main.go:171-198. `pict` is
`extendedPictographic`, `incb` is `indicConjunctBreak`, `ideo` are the runes of `unicode.Han` and
`unicode.Hiragana`, merged. -/
def complete (name : Name) (pict : List Nat) (incb : InCB) (ideo : List Nat) (m : List (String × List Nat)) :
    Res (List (String × List Nat)) :=
  if name ≠ .sentence ∧ pict = [] then .error (.panic "didn't get emoji data; make sure it's loaded first")
  else
    let m := if name ≠ .sentence then setRunes "Extended_Pictographic" pict m else m
    if name = .grapheme then
      if incb.consonant = [] then .error (.panic "didn't get InCB data; make sure it's loaded first")
      else .ok (setRunes "InCB_Extend" incb.ext (setRunes "InCB_Linker" incb.linker
        (setRunes "InCB_Consonant" incb.consonant m)))
    else if name = .word then .ok (setRunes "BleveIdeographic" (getRunes "Katakana" m ++ ideo) m)
    else .ok m

/-- The number of bits of the type `property` for `n` properties — internal/gen/main.go:414-425. -/
def propertyBits (n : Nat) : Nat := if n < 8 then 8 else if n < 16 then 16 else if n < 32 then 32 else 64

/-! ## Tests -/

/-- `unicodeTest` — internal/gen/main.go:233-237. -/
structure UnicodeTest where
  input : Bytes
  expected : List Bytes
  comment : List Char
  deriving DecidableEq

/-- The bytes of a text. -/
def encode (s : List Char) : Bytes := s.flatMap String.utf8EncodeChar

/-- The loop over the code points of a segment — internal/gen/main.go:283-299. `utf8.RuneLen` is -1
for what is no character, and `make` panics. -/
def parseVals : List (List Char) → Res (Option Bytes)
  | [] => .ok (some [])
  | v :: vs =>
    if (encode v).length < 4 then parseVals vs
    else match parseHex v with
      | none => .ok none
      | some r =>
        if r.isValidChar then
          match parseVals vs with
          | .error f => .error f
          | .ok none => .ok none
          | .ok (some b) => .ok (some (String.utf8EncodeChar (Char.ofNat r) ++ b))
        else .error (.panic "runtime error: makeslice: len out of range")

/-- The loop over the segments — internal/gen/main.go:275-301: the segments that are expected. -/
def parseSegments : List (List Char) → Res (Option (List Bytes))
  | [] => .ok (some [])
  | s :: ss =>
    if (encode s).length < 4 then parseSegments ss
    else match parseVals (splitChar ' ' s) with
      | .error f => .error f
      | .ok none => .ok none
      | .ok (some b) => match parseSegments ss with
        | .error f => .error f
        | .ok none => .ok none
        | .ok (some bs) => .ok (some (b :: bs))

/-- A line — internal/gen/main.go:259-303; `some none` is a line that is skipped. An empty line panics
(`line[0]`), as does one without comment (`parts[1]`). -/
def parseTest (line : List Char) : Res (Option (Option UnicodeTest)) :=
  match line with
  | [] => .error .bounds
  | c :: _ =>
    if c = '#' then .ok (some none)
    else match splitChar '#' line with
      | data :: comment :: _ =>
        match parseSegments (splitChar '÷' data) with
        | .error f => .error f
        | .ok none => .ok none
        | .ok (some bs) => .ok (some (some ⟨bs.flatten, bs, trimSpace comment⟩))
      | _ => .error .bounds

/-- The lines that `bufio.ScanLines` (not in /repo) looks at, without their newlines. -/
def textLines (cur : List Char) : List Char → List (List Char)
  | [] => if cur = [] then [] else [cur.reverse]
  | c :: s => if c = '\n' then cur.reverse :: textLines [] s else textLines (c :: cur) s

/-- `dropCR` of `bufio.ScanLines`. -/
def dropCR (l : List Char) : List Char := if l.getLast? = some '\r' then l.dropLast else l

/-- The loop over the lines — internal/gen/main.go:257-309. The scanner stops at a line that does not fit
its buffer of `bufio.MaxScanTokenSize` bytes together with its newline, and `sc.Err()` is returned. (A last line of just that
many bytes without a newline is read if the error `io.EOF` comes with its last byte; here it never is.) -/
def parseTests : List (List Char) → Res (Option (List UnicodeTest))
  | [] => .ok (some [])
  | l :: ls =>
    if 65536 ≤ (encode l).length then .ok none
    else match parseTest (dropCR l) with
    | .error f => .error f
    | .ok none => .ok none
    | .ok (some t) => match parseTests ls with
      | .error f => .error f
      | .ok none => .ok none
      | .ok (some ts) => .ok (some (t.toList ++ ts))

/-- The tests of the text of a file — internal/gen/main.go:254-309. -/
def readTests (text : List Char) : Res (Option (List UnicodeTest)) := parseTests (textLines [] text)

end Uax29.Gen
