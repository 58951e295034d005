import Verif.Proofs.GoPackage
import Verif.Proofs.GoAnsi
import Verif.Proofs.GoBleve
/-!
# The text of the packages, read and executed as Go, does what the model says (C78–C82, C88)

`Spec/GoRead.lean` reads the quoted lines of the Go files (`Table/…Source.lean`), `Spec/GoCode.lean` executes what was read.
`depth` bounds the nesting of calls and `fuel` the passes of each loop; every bound that is large enough gives the same. Nothing is
assumed of the type argument of the generic functions (`Outside.inst`).
-/
namespace Uax29
open Source

theorem run_of {P : Program} {f : Name} {k : Nat} (h : place f P.names = some k) (O : Outside) (depth fuel : Nat) (args : Val) :
    P.run O depth fuel f args = callAt P.funcs O fuel depth k args := by
  rw [Program.run, h]

theorem depth_of {n depth : Nat} (h : n ≤ depth) : ∃ d, depth = d + n := ⟨depth - n, by omega⟩

/-- The program read from the text of a package, and where it has its tables from. -/
def Reads (files : List (List Char)) (t : IntTy) (T : Trie) (Q : Program → Outside → Prop) : Prop :=
  ∃ P, read files = some P ∧ ∀ O : Outside, O.table = arrays t T → Q P O

/-! ## C78: `lookup` and `subsequent` -/

/-- What the text of `lookup` does. -/
def LookupText (t : IntTy) (T : Trie) (P : Program) (O : Outside) : Prop :=
  ∀ (s : Bytes) (depth fuel : Nat), 2 ≤ depth → (P.run O depth fuel (chars "lookup") (.bytes s)).2 = lookupRes t (T.lookup s)

/-- What the text of `subsequent` does. -/
def SubsequentText (t : IntTy) (T : Trie) (ignore : Nat) (P : Program) (O : Outside) : Prop :=
  ∀ (p : Nat) (data : Bytes) (atEOF : Bool) (depth fuel : Nat), 3 ≤ depth → data.length < fuel →
    (P.run O depth fuel (chars "subsequent") (.pair (.num t p) (.pair (.bytes data) (.bool atEOF)))).2
      = subRes (subsequent T ignore p data atEOF)

theorem lookupText {P : Program} {O : Outside} {t : IntTy} {T : Trie} {k : Nat} (h : Common P.funcs t k) (hT : Fits T t)
    (hn : place (chars "lookup") P.names = some 0) (hO : O.table = arrays t T) : LookupText t T P O := by
  intro s depth fuel hd
  obtain ⟨d, rfl⟩ := depth_of hd
  rw [run_of hn]
  exact callAt_lookup h hT hO s

theorem subsequentText {P : Program} {O : Outside} {t : IntTy} {T : Trie} {k j ignore : Nat} (h : Common P.funcs t k) (hT : Fits T t)
    (hj : P.funcs[j]? = some (some (subsequentCode k t ignore)))
    (hn : place (chars "subsequent") P.names = some j) (hO : O.table = arrays t T) : SubsequentText t T ignore P O := by
  intro p data eof depth fuel hd hf
  obtain ⟨d, rfl⟩ := depth_of hd
  rw [run_of hn]
  exact callAt_subsequent h hT hO hj (p : Int) eof hf

theorem C78_lookup_graphemes : Reads Graphemes.Code.files .uint32 Graphemes.trie (LookupText .uint32 Graphemes.trie) :=
  ⟨_, Graphemes.Code.read_eq, fun _ hO => lookupText Graphemes.common Graphemes.fits rfl hO⟩

theorem C78_lookup_words : Reads Words.Code.files .uint32 Words.trie (LookupText .uint32 Words.trie) :=
  ⟨_, Words.Code.read_eq, fun _ hO => lookupText Words.common Words.fits rfl hO⟩

theorem C78_lookup_phrases : Reads Phrases.Code.files .uint32 Phrases.trie (LookupText .uint32 Phrases.trie) :=
  ⟨_, Phrases.Code.read_eq, fun _ hO => lookupText Phrases.common Phrases.fits rfl hO⟩

theorem C78_lookup_sentences : Reads Sentences.Code.files .uint16 Sentences.trie (LookupText .uint16 Sentences.trie) :=
  ⟨_, Sentences.Code.read_eq, fun _ hO => lookupText Sentences.common Sentences.fits rfl hO⟩

theorem C78_subsequent_words :
    Reads Words.Code.files .uint32 Words.trie (SubsequentText .uint32 Words.trie Words._Ignore) :=
  ⟨_, Words.Code.read_eq, fun _ hO => subsequentText (j := 8) Words.common Words.fits rfl rfl hO⟩

theorem C78_subsequent_phrases :
    Reads Phrases.Code.files .uint32 Phrases.trie (SubsequentText .uint32 Phrases.trie Phrases._Ignore) :=
  ⟨_, Phrases.Code.read_eq, fun _ hO => subsequentText (j := 4) Phrases.common Phrases.fits rfl rfl hO⟩

theorem C78_subsequent_sentences :
    Reads Sentences.Code.files .uint16 Sentences.trie (SubsequentText .uint16 Sentences.trie Sentences._Ignore) :=
  ⟨_, Sentences.Code.read_eq, fun _ hO => subsequentText (j := 4) Sentences.common Sentences.fits rfl rfl hO⟩

/-! ## C79: the split functions -/

/-- What the text of `splitFunc` does, with calls nested at most `n` deep. -/
def SplitText (n : Nat) (split : SplitFn) (P : Program) (O : Outside) : Prop :=
  ∀ (data : Bytes) (atEOF : Bool) (depth fuel : Nat), n ≤ depth → 2 * data.length + 2 ≤ fuel →
    (P.run O depth fuel (chars "splitFunc") (.pair (.bytes data) (.bool atEOF))).2 = splitRes (split data atEOF)

theorem C79_graphemes : Reads Graphemes.Code.files .uint32 Graphemes.trie (SplitText 3 Graphemes.splitFunc) := by
  refine ⟨_, Graphemes.Code.read_eq, fun O hO data eof depth fuel hd hf => ?_⟩
  obtain ⟨d, rfl⟩ := depth_of hd
  rw [run_of (k := 3) rfl]
  exact Graphemes.splitFunc_call hO eof hf

theorem C79_words : Reads Words.Code.files .uint32 Words.trie (SplitText 5 Words.splitFunc) := by
  refine ⟨_, Words.Code.read_eq, fun O hO data eof depth fuel hd hf => ?_⟩
  obtain ⟨d, rfl⟩ := depth_of hd
  rw [run_of (k := 6) rfl]
  exact Words.splitFunc_call hO eof hf

theorem C79_phrases : Reads Phrases.Code.files .uint32 Phrases.trie (SplitText 4 Phrases.splitFunc) := by
  refine ⟨_, Phrases.Code.read_eq, fun O hO data eof depth fuel hd hf => ?_⟩
  obtain ⟨d, rfl⟩ := depth_of hd
  rw [run_of (k := 3) rfl]
  exact Phrases.splitFunc_call hO eof hf

theorem C79_sentences : Reads Sentences.Code.files .uint16 Sentences.trie (SplitText 4 Sentences.splitFunc) := by
  refine ⟨_, Sentences.Code.read_eq, fun O hO data eof depth fuel hd hf => ?_⟩
  obtain ⟨d, rfl⟩ := depth_of hd
  rw [run_of (k := 3) rfl]
  exact Sentences.splitFunc_call hO eof hf

/-! ## C88: the variable `SplitFunc` -/

/-- What a call of the variable `SplitFunc` of a package does, with calls nested at most `n` deep. -/
def VariableText (n : Nat) (split : SplitFn) (P : Program) (O : Outside) : Prop :=
  ∀ (data : Bytes) (atEOF : Bool) (depth fuel : Nat), n ≤ depth → 2 * data.length + 2 ≤ fuel →
    P.runVariable O depth fuel (chars "SplitFunc") (.pair (.bytes data) (.bool atEOF)) = splitRes (split data atEOF)

theorem runVariable_of {P : Program} {v : Name} {k : Nat} (h : find v P.variables = some k) (O : Outside) (depth fuel : Nat) (args : Val) :
    P.runVariable O depth fuel v args = (callAt P.funcs O fuel depth k args).2 := by
  rw [Program.runVariable, h]

theorem C88_graphemes : Reads Graphemes.Code.files .uint32 Graphemes.trie (VariableText 3 Graphemes.splitFunc) := by
  refine ⟨_, Graphemes.Code.read_eq, fun O hO data eof depth fuel hd hf => ?_⟩
  obtain ⟨d, rfl⟩ := depth_of hd
  rw [runVariable_of (k := 3) rfl]
  exact Graphemes.splitFunc_call hO eof hf

theorem C88_words : Reads Words.Code.files .uint32 Words.trie (VariableText 5 Words.splitFunc) := by
  refine ⟨_, Words.Code.read_eq, fun O hO data eof depth fuel hd hf => ?_⟩
  obtain ⟨d, rfl⟩ := depth_of hd
  rw [runVariable_of (k := 6) rfl]
  exact Words.splitFunc_call hO eof hf

theorem C88_phrases : Reads Phrases.Code.files .uint32 Phrases.trie (VariableText 4 Phrases.splitFunc) := by
  refine ⟨_, Phrases.Code.read_eq, fun O hO data eof depth fuel hd hf => ?_⟩
  obtain ⟨d, rfl⟩ := depth_of hd
  rw [runVariable_of (k := 3) rfl]
  exact Phrases.splitFunc_call hO eof hf

theorem C88_sentences : Reads Sentences.Code.files .uint16 Sentences.trie (VariableText 4 Sentences.splitFunc) := by
  refine ⟨_, Sentences.Code.read_eq, fun O hO data eof depth fuel hd hf => ?_⟩
  obtain ⟨d, rfl⟩ := depth_of hd
  rw [runVariable_of (k := 3) rfl]
  exact Sentences.splitFunc_call hO eof hf

/-! ## C80: the split function with joiners -/

/-- `(j *Joiners[T]) splitFunc` of words/splitfunc.go, for any joiners, also a nil pointer. -/
theorem C80_joiners : Reads Words.Code.files .uint32 Words.trie fun P O =>
    ∀ (j : Option Words.Joiners) (data : Bytes) (atEOF : Bool) (depth fuel : Nat), 4 ≤ depth → 2 * data.length + 2 ≤ fuel →
      (∀ l, j.bind Words.Joiners.middle = some l ∨ j.bind Words.Joiners.leading = some l → l.length < fuel) →
      (P.run O depth fuel (chars ".splitFunc") (.pair (joinersVal j) (.pair (.bytes data) (.bool atEOF)))).2
        = splitRes (Words.joinersSplitFunc j data atEOF) := by
  refine ⟨_, Words.Code.read_eq, fun O hO j data eof depth fuel hd hf hj => ?_⟩
  obtain ⟨d, rfl⟩ := depth_of hd
  rw [run_of (k := 7) rfl]
  exact Words.joinersSplitFunc_call hO j eof hf hj

/-! ## C81: the lengths of ANSI escapes -/

theorem Graphemes.ansiCalls {O : Outside} {fuel d N : Nat} (h : N < fuel) :
    Graphemes.AnsiCalls ⟨callAt Graphemes.Code.program.funcs O fuel (d + 1), O.table, O.inst⟩ N where
  csi v hv := by
    show (callAt Graphemes.Code.program.funcs O fuel (d + 1) 14 _).2 = _
    rw [callAt_eq (F := Graphemes.Code.csiBodyLength) rfl]; exact csiBodyLength_run v (Nat.lt_of_le_of_lt hv h)
  osc v hv := by
    show (callAt Graphemes.Code.program.funcs O fuel (d + 1) 15 _).2 = _
    rw [callAt_eq (F := Graphemes.Code.oscLength) rfl]; exact oscLength_run v (Nat.lt_of_le_of_lt hv h)
  st v hv := by
    show (callAt Graphemes.Code.program.funcs O fuel (d + 1) 16 _).2 = _
    rw [callAt_eq (F := Graphemes.Code.stSequenceLength) rfl]; exact stSequenceLength_run v (Nat.lt_of_le_of_lt hv h)
  oscC1 v hv := by
    show (callAt Graphemes.Code.program.funcs O fuel (d + 1) 18 _).2 = _
    rw [callAt_eq (F := Graphemes.Code.oscLengthC1) rfl]; exact oscLengthC1_run v (Nat.lt_of_le_of_lt hv h)
  stC1 v hv := by
    show (callAt Graphemes.Code.program.funcs O fuel (d + 1) 19 _).2 = _
    rw [callAt_eq (F := Graphemes.Code.stSequenceLengthC1) rfl]; exact stSequenceLengthC1_run v (Nat.lt_of_le_of_lt hv h)

/-- What the text of a function from bytes to a length does. -/
def LengthText (f : Name) (n : Nat) (length : Bytes → Nat) (P : Program) (O : Outside) : Prop :=
  ∀ (data : Bytes) (depth fuel : Nat), n ≤ depth → data.length < fuel →
    (P.run O depth fuel f (.bytes data)).2 = .ok (.num .int (length data))

theorem C81_ansiEscapeLength :
    Reads Graphemes.Code.files .uint32 Graphemes.trie (LengthText (chars "ansiEscapeLength") 2 Graphemes.ansiEscapeLength) := by
  refine ⟨_, Graphemes.Code.read_eq, fun O _ data depth fuel hd hf => ?_⟩
  obtain ⟨d, rfl⟩ := depth_of hd
  rw [run_of (k := 13) rfl, callAt_eq (F := Graphemes.Code.ansiEscapeLength) rfl]
  exact Graphemes.ansiEscapeLength_run (Graphemes.ansiCalls hf) hf

theorem C81_ansiEscapeLength8Bit :
    Reads Graphemes.Code.files .uint32 Graphemes.trie (LengthText (chars "ansiEscapeLength8Bit") 2 Graphemes.ansiEscapeLength8Bit) := by
  refine ⟨_, Graphemes.Code.read_eq, fun O _ data depth fuel hd hf => ?_⟩
  obtain ⟨d, rfl⟩ := depth_of hd
  rw [run_of (k := 17) rfl, callAt_eq (F := Graphemes.Code.ansiEscapeLength8Bit) rfl]
  exact Graphemes.ansiEscapeLength8Bit_run (Graphemes.ansiCalls hf)

/-! ## C82: the functions for Bleve -/

/-- What the text of a function from bytes to a condition does. -/
def BoolText (f : Name) (n : Nat) (cond : Bytes → Res Bool) (P : Program) (O : Outside) : Prop :=
  ∀ (data : Bytes) (depth fuel : Nat), n ≤ depth → data.length < fuel →
    (P.run O depth fuel f (.bytes data)).2 = boolRes (cond data)

theorem C82_numeric : Reads Words.Code.files .uint32 Words.trie (BoolText (chars "BleveNumeric") 4 Words.bleveNumeric) := by
  refine ⟨_, Words.Code.read_eq, fun O hO data depth fuel hd hf => ?_⟩
  obtain ⟨d, rfl⟩ := depth_of hd
  rw [run_of (k := 20) rfl, callAt_eq (F := Words.Code.BleveNumeric) rfl]
  rw [Words.BleveNumeric_run (calls_of (d := d + 1) Words.common Words.fits hO)
    (subCalls_of (j := 8) (ignore := Words._Ignore) Words.common Words.fits hO rfl hf)]
  obtain ⟨b, hb⟩ := Words.bleveNumeric_total data
  rw [hb, Words.numLoop_mono hb fuel hf]; rfl

theorem C82_ideographic : Reads Words.Code.files .uint32 Words.trie (BoolText (chars "BleveIdeographic") 3 Words.bleveIdeographic) := by
  refine ⟨_, Words.Code.read_eq, fun O hO data depth fuel hd hf => ?_⟩
  obtain ⟨d, rfl⟩ := depth_of hd
  rw [run_of (k := 21) rfl, callAt_eq (F := Words.Code.BleveIdeographic) rfl]
  rw [Words.BleveIdeographic_run (calls_of Words.common Words.fits hO)]
  obtain ⟨b, hb⟩ : ∃ b, Words.bleveIdeographic data = .ok b := by
    obtain ⟨l, t, h⟩ := Words.wf.decodes data
    exact ⟨_, Words.bleveIdeographic_eq h⟩
  rw [hb, Words.ideoLoop_mono hb fuel hf]; rfl

/-! ## The code at work -/

/-- A package with its tables and nothing else. -/
def withTables (t : IntTy) (T : Trie) : Outside := ⟨arrays t T, fun _ v => (v, .error Fault.stuck), .string⟩

/-- U+00E9 in graphemes/trie.go, by the code itself. -/
example : (Graphemes.Code.program.run (withTables .uint32 Graphemes.trie) 2 0 (chars "lookup") (.bytes [0xC3, 0xA9, 0x21])).2
    = .ok (.pair (.num .uint32 0) (.num .int 2)) := by decide +kernel

/-- An incomplete character. -/
example : (Sentences.Code.program.run (withTables .uint16 Sentences.trie) 2 0 (chars "lookup") (.bytes [0xE2, 0x80])).2
    = .ok (.pair (.num .uint16 0) (.num .int 0)) := by decide +kernel

/-- "e" with an accent (U+0301), then "x": the first two are one grapheme. -/
example : (Graphemes.Code.program.run (withTables .uint32 Graphemes.trie) 3 10 (chars "splitFunc")
      (.pair (.bytes [0x65, 0xCC, 0x81, 0x78]) (.bool false))).2
    = .ok (.pair (.num .int 3) (.pair (.bytes [0x65, 0xCC, 0x81]) .nil)) := by decide +kernel

/-- "a.b c" in words: the look-ahead joins "a.b". -/
example : (Words.Code.program.run (withTables .uint32 Words.trie) 5 12 (chars "splitFunc")
      (.pair (.bytes [0x61, 0x2E, 0x62, 0x20, 0x63]) (.bool true))).2
    = .ok (.pair (.num .int 3) (.pair (.bytes [0x61, 0x2E, 0x62]) .nil)) := by decide +kernel

/-- "a.5" and more to come in sentences: no decision yet. -/
example : (Sentences.Code.program.run (withTables .uint16 Sentences.trie) 4 10 (chars "splitFunc")
      (.pair (.bytes [0x61, 0x2E, 0x35]) (.bool false))).2
    = .ok (.pair (.num .int 0) (.pair .nil .nil)) := by decide +kernel

/-- "#go now" in words with '#' as a leading joiner. -/
example : (Words.Code.program.run (withTables .uint32 Words.trie) 4 16 (chars ".splitFunc")
      (.pair (joinersVal (some ⟨none, some [0x23]⟩)) (.pair (.bytes [0x23, 0x67, 0x6F, 0x20, 0x6E, 0x6F, 0x77]) (.bool true)))).2
    = .ok (.pair (.num .int 3) (.pair (.bytes [0x23, 0x67, 0x6F]) .nil)) := by decide +kernel

/-- The same with a named type in the place of `T`. -/
example : (Words.Code.program.run { withTables .uint32 Words.trie with inst := .named } 4 16 (chars ".splitFunc")
      (.pair (joinersVal (some ⟨none, some [0x23]⟩)) (.pair (.bytes [0x23, 0x67, 0x6F, 0x20, 0x6E, 0x6F, 0x77]) (.bool true)))).2
    = .ok (.pair (.num .int 3) (.pair (.bytes [0x23, 0x67, 0x6F]) .nil)) := by decide +kernel

/-- `SplitFunc` of phrases on "a b,c": the space stays. -/
example : Phrases.Code.program.runVariable (withTables .uint32 Phrases.trie) 4 12 (chars "SplitFunc")
      (.pair (.bytes [0x61, 0x20, 0x62, 0x2C, 0x63]) (.bool true))
    = .ok (.pair (.num .int 3) (.pair (.bytes [0x61, 0x20, 0x62]) .nil)) := by decide +kernel

/-- ESC "[31m" and an "x". -/
example : (Graphemes.Code.program.run (withTables .uint32 Graphemes.trie) 2 8 (chars "ansiEscapeLength")
      (.bytes [0x1B, 0x5B, 0x33, 0x31, 0x6D, 0x78])).2 = .ok (.num .int 5) := by decide +kernel

/-- An OSC of C1, ended with ST of C1. -/
example : (Graphemes.Code.program.run (withTables .uint32 Graphemes.trie) 2 8 (chars "ansiEscapeLength8Bit")
      (.bytes [0x9D, 0x30, 0x9C, 0x78])).2 = .ok (.num .int 3) := by decide +kernel

/-- "1,2" is a number for Bleve, "1," is not. -/
example : (Words.Code.program.run (withTables .uint32 Words.trie) 4 4 (chars "BleveNumeric") (.bytes [0x31, 0x2C, 0x32])).2 = .ok (.bool true)
    ∧ (Words.Code.program.run (withTables .uint32 Words.trie) 4 4 (chars "BleveNumeric") (.bytes [0x31, 0x2C])).2 = .ok (.bool false) := by
  decide +kernel

/-- U+4E00 is ideographic, "x" is not. -/
example : (Words.Code.program.run (withTables .uint32 Words.trie) 3 4 (chars "BleveIdeographic") (.bytes [0xE4, 0xB8, 0x80])).2 = .ok (.bool true)
    ∧ (Words.Code.program.run (withTables .uint32 Words.trie) 3 4 (chars "BleveIdeographic") (.bytes [0x78])).2 = .ok (.bool false) := by
  decide +kernel

/-- With too few passes the loop does not end; that is not a result of the program. -/
example : (Graphemes.Code.program.run (withTables .uint32 Graphemes.trie) 3 1 (chars "splitFunc")
      (.pair (.bytes [0x65, 0xCC, 0x81, 0x78]) (.bool false))).2 = .error .diverge := by decide +kernel

end Uax29
