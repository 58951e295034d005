import Verif.Spec.GoReader
import Verif.Props.GoApi
import Verif.Props.Window
import Verif.Props.Utf8
import Verif.Props.Joiners
/-!
# The readers of the packages, read from their text (C89–C91)

`depth` bounds the nesting of calls and `fuel` the passes of each loop, as in C78–C82.
-/
namespace Uax29
open Source Spec

/-! ## C89: `FromReader` -/

/-- `FromReader` makes a scanner over its reader, whose split function does what `split` says, with calls nested at most `n` deep. -/
def ReaderText (n : Nat) (split : SplitFn) (P : Program) (O : Outside) : Prop :=
  ∀ (r : Val) (depth fuel : Nat), 1 ≤ depth → ∃ f, (P.run O depth fuel (chars "FromReader") r).2 = .ok (scannerVal r f) ∧
    ∀ (data : Bytes) (atEOF : Bool) (depth fuel : Nat), n ≤ depth → 2 * data.length + 2 ≤ fuel →
      P.apply O depth fuel (.pair (.bytes data) (.bool atEOF)) f = splitRes (split data atEOF)

theorem readerText {P : Program} {O : Outside} {n k j : Nat} {split : SplitFn} (hn : place (chars "FromReader") P.names = some j)
    (hF : P.funcs[j]? = some (some ⟨false, [none], [none], 2, .seq (.define [some 1] (.pair (.var 0) (.pair (.lit .nil) (.lit .nil))))
      (.seq (.setField 1 1 (.lit (.fn k))) (.ret (.pair (.var 1) (.lit .nil))))⟩))
    (hs : ∀ (data : Bytes) (eof : Bool) (d fuel : Nat), 2 * data.length + 2 ≤ fuel →
      (callAt P.funcs O fuel (d + n) k (.pair (.bytes data) (.bool eof))).2 = splitRes (split data eof)) : ReaderText n split P O := by
  intro r depth fuel hd
  obtain ⟨d, rfl⟩ := depth_of hd
  refine ⟨.fn k, ?_, fun data eof depth fuel hd hf => ?_⟩
  · rw [run_of hn, callAt_eq hF, run_eq (vs := [r]) rfl]
    rfl
  · obtain ⟨d, rfl⟩ := depth_of hd
    exact hs data eof d fuel hf

theorem C89_graphemes : Reads Graphemes.Code.files .uint32 Graphemes.trie (ReaderText 3 Graphemes.splitFunc) :=
  ⟨_, Graphemes.Code.read_eq, fun _ hO => readerText (j := 20) (k := 3) rfl rfl fun _ eof _ _ hf => Graphemes.splitFunc_call hO eof hf⟩

theorem C89_words : Reads Words.Code.files .uint32 Words.trie (ReaderText 5 Words.splitFunc) :=
  ⟨_, Words.Code.read_eq, fun _ hO => readerText (j := 22) (k := 6) rfl rfl fun _ eof _ _ hf => Words.splitFunc_call hO eof hf⟩

theorem C89_phrases : Reads Phrases.Code.files .uint32 Phrases.trie (ReaderText 4 Phrases.splitFunc) :=
  ⟨_, Phrases.Code.read_eq, fun _ hO => readerText (j := 15) (k := 3) rfl rfl fun _ eof _ _ hf => Phrases.splitFunc_call hO eof hf⟩

theorem C89_sentences : Reads Sentences.Code.files .uint16 Sentences.trie (ReaderText 4 Sentences.splitFunc) :=
  ⟨_, Sentences.Code.read_eq, fun _ hO => readerText (j := 15) (k := 3) rfl rfl fun _ eof _ _ hf => Sentences.splitFunc_call hO eof hf⟩

/-! ## C90: `Joiners` of a scanner -/

/-- `Joiners` keeps the reader of a scanner. It replaces the split function, whether that is a function or the method of joiners, by one
that does what the joiners say. -/
theorem C90_joiners : Reads Words.Code.files .uint32 Words.trie fun P O =>
    ∀ (r f : Val) (j : Option Words.Joiners) (depth fuel : Nat), 1 ≤ depth → (∃ k, f = .fn k ∨ ∃ x, f = .bound k x) →
      ∃ g, P.run O depth fuel (chars ".Scanner.Joiners") (.pair (scannerVal r f) (joinersVal j)) = (scannerVal r g, .ok .nil) ∧
        (∃ k, g = .fn k ∨ ∃ x, g = .bound k x) ∧
        ∀ (data : Bytes) (atEOF : Bool) (depth fuel : Nat), 4 ≤ depth → 2 * data.length + 2 ≤ fuel →
          (∀ l, j.bind Words.Joiners.middle = some l ∨ j.bind Words.Joiners.leading = some l → l.length < fuel) →
          P.apply O depth fuel (.pair (.bytes data) (.bool atEOF)) g = splitRes (Words.joinersSplitFunc j data atEOF) := by
  refine ⟨_, Words.Code.read_eq, fun O hO r f j depth fuel hd hf => ?_⟩
  obtain ⟨d, rfl⟩ := depth_of hd
  refine ⟨.bound 7 (joinersVal j), ?_, ⟨7, Or.inr ⟨_, rfl⟩⟩, fun data eof depth fuel hd hf hj => ?_⟩
  · rw [run_of (k := 23) rfl, callAt_eq (F := Words.Code.mScanner_Joiners) rfl]
    have hj : (Val.pair (scannerVal r f) (joinersVal j)).typedAs [none, none] = some [scannerVal r f, joinersVal j] := by
      cases j <;> rfl
    rw [run_eq hj]
    obtain ⟨k, rfl | ⟨x, rfl⟩⟩ := hf <;> rfl
  · obtain ⟨d, rfl⟩ := depth_of hd
    exact Words.joinersSplitFunc_call hO j eof hf hj

/-! ## C91: what a scanner of `FromReader` yields -/

theorem splitOut_splitRes (x : Res SplitRes) : splitOut (splitRes x) = x := by
  rcases x with _ | ⟨n, _ | b, _ | e⟩ <;> simp [splitRes, splitOut]

/-- A scanner of `FromReader` yields the characters `s` that its reader delivers, cut where `breaks` says and nowhere else, and shows
the error of the reader. This holds if no `k` segments in a row are about as long as its buffer may be. -/
def ScannerText (k : Nat) (breaks : List Char → List Char → Prop) (P : Program) (O : Outside) : Prop :=
  ∀ (r : Val) (depth fuel : Nat), 5 ≤ depth → ∃ f, (P.run O depth fuel (chars "FromReader") r).2 = .ok (scannerVal r f) ∧
    ∀ (s : List Char) (e : Scanner.Err) (script : Scanner.Reader), deliver 0 script = (utf8 s, e) →
      ∃ ws : List (List Char), ws.flatten = s ∧ (∀ w ∈ ws, w ≠ []) ∧ (∀ a b, s = a ++ b → (Boundary ws a ↔ breaks a b)) ∧
        ((∀ i, (utf8 ((ws.drop i).take k).flatten).length + 3 < 65536) →
          ∀ more, Scanner.tokens (Scanner.new (P.splitFn O depth more f) script) = .ok (ws.map utf8, shownErr e))

theorem scannerText {p : Pkg} {n : Nat} {P : Program} {O : Outside} {breaks : List Char → List Char → Prop} (hn : n ≤ 5)
    (hr : ReaderText n (splitFunc p) P O)
    (hb : ∀ s : List Char, ∃ ws : List (List Char), defaultTokens p (utf8 s) = .ok (ws.map utf8) ∧ ws.flatten = s ∧ (∀ w ∈ ws, w ≠ []) ∧
      ∀ a b, s = a ++ b → (Boundary ws a ↔ breaks a b)) : ScannerText (unsettled p) breaks P O := by
  intro r depth fuel hd
  obtain ⟨f, h1, h2⟩ := hr r depth fuel (by omega)
  refine ⟨f, h1, fun s e script hs => ?_⟩
  obtain ⟨ws, h3, h4, h5, h6⟩ := hb s
  refine ⟨ws, h4, h5, h6, fun hk more => ?_⟩
  have hf : P.splitFn O depth more f = splitFunc p := by
    funext data eof
    rw [Program.splitFn, h2 data eof depth _ (by omega) (by omega), splitOut_splitRes]
  have hc : splitOf p (Iterator.defaultConfig p) = splitFunc p := by cases p <;> rfl
  obtain ⟨ts, h7, h8⟩ := C12_fast_path p (utf8 s)
  rw [h3] at h7
  cases h7
  have := C75_default p (Iterator.defaultConfig p) script (ws.map utf8) (by rw [hs, hc]; exact h8) (fun i => by
    have := hk i
    rwa [← utf8_flatten, List.map_take, List.map_drop] at this)
  rw [hf, ← hc, this, hs]

theorem C91_graphemes : Reads Graphemes.Code.files .uint32 Graphemes.trie
    (ScannerText 1 fun a b => graphemeBreak (a.map graphemeClasses) (b.map graphemeClasses) = true) := by
  obtain ⟨P, hP, h⟩ := C89_graphemes
  exact ⟨P, hP, fun O hO => scannerText (p := .graphemes) (by omega) (h O hO) C08_conform⟩

theorem C91_words : Reads Words.Code.files .uint32 Words.trie
    (ScannerText 2 fun a b => wordBreak (a.map wordClasses) (b.map wordClasses) = true) := by
  obtain ⟨P, hP, h⟩ := C89_words
  exact ⟨P, hP, fun O hO => scannerText (p := .words) (by omega) (h O hO) C09_conform⟩

theorem C91_phrases : Reads Phrases.Code.files .uint32 Phrases.trie
    (ScannerText 2 fun a b => phraseBreak (a.map phraseClasses) (b.map phraseClasses) = true) := by
  obtain ⟨P, hP, h⟩ := C89_phrases
  exact ⟨P, hP, fun O hO => scannerText (p := .phrases) (by omega) (h O hO) C11_conform⟩

theorem C91_sentences : Reads Sentences.Code.files .uint16 Sentences.trie
    (ScannerText 2 fun a b => sentenceBreak (a.map sentenceClass) (b.map sentenceClass) = true) := by
  obtain ⟨P, hP, h⟩ := C89_sentences
  exact ⟨P, hP, fun O hO => scannerText (p := .sentences) (by omega) (h O hO) C10_conform⟩

/-- A scanner of `FromReader` on which `Joiners` was called yields the words of the bytes that its reader delivers, by the rules for
these joiners (see C50), and shows the error of the reader. This holds if no two words in a row are about as long as its buffer may be. -/
theorem C91_joiners : Reads Words.Code.files .uint32 Words.trie fun P O =>
    ∀ (r : Val) (j : Option Words.Joiners) (depth fuel : Nat), 4 ≤ depth → ∃ f g,
      (P.run O depth fuel (chars "FromReader") r).2 = .ok (scannerVal r f) ∧
      P.run O depth fuel (chars ".Scanner.Joiners") (.pair (scannerVal r f) (joinersVal j)) = (scannerVal r g, .ok .nil) ∧
      ∀ (data : Bytes) (e : Scanner.Err) (script : Scanner.Reader), deliver 0 script = (data, e) →
        ∃ ps t gs, Pieces data ps t ∧ gs.flatten = ps ∧ (∀ w ∈ gs, w ≠ []) ∧
          (∀ A w B, gs = A ++ w :: B →
            JoinedWord ((j.bind (·.middle)).getD []) ((j.bind (·.leading)).getD []) w B.flatten) ∧
          ((∀ i, (((tokenBytes t gs).drop i).take 2).flatten.length + 3 < 65536) →
            ∀ more, (∀ l, j.bind Words.Joiners.middle = some l ∨ j.bind Words.Joiners.leading = some l → l.length ≤ more) →
              Scanner.tokens (Scanner.new (P.splitFn O depth more g) script) = .ok (tokenBytes t gs, shownErr e)) := by
  obtain ⟨P, hP, h⟩ := C89_words
  obtain ⟨P', hP', h'⟩ := C90_joiners
  cases Option.some.inj (hP.symm.trans hP')
  refine ⟨P, hP, fun O hO r j depth fuel hd => ?_⟩
  have hf : ∃ k, (P.run O depth fuel (chars "FromReader") r).2 = .ok (scannerVal r (.fn k)) := by
    cases Option.some.inj (hP.symm.trans Words.Code.read_eq)
    obtain ⟨d, rfl⟩ := depth_of (show 1 ≤ depth by omega)
    refine ⟨6, ?_⟩
    rw [run_of (k := 22) rfl, callAt_eq (F := Words.Code.FromReader) rfl, run_eq (vs := [r]) rfl]
    rfl
  obtain ⟨k, hk⟩ := hf
  obtain ⟨g, h1, -, h2⟩ := h' O hO r (.fn k) j depth fuel (by omega) ⟨k, .inl rfl⟩
  refine ⟨.fn k, g, hk, h1, fun data e script hs => ?_⟩
  obtain ⟨ps, t, gs, k1, k2, k3, k4, k5⟩ := C50_split j data
  refine ⟨ps, t, gs, k1, k3, k4, k5, fun hi more hm => ?_⟩
  have hg : P.splitFn O depth more g = splitOf .words j := by
    funext data eof
    rw [Program.splitFn, h2 data eof depth _ (by omega) (by omega) (fun l hl => by have := hm l hl; omega), splitOut_splitRes]
    rfl
  have := C75_default .words j script (tokenBytes t gs) (by rw [hs]; exact k2) hi
  rw [hg, this, hs]

/-! ## The code at work -/

/-- What a user sees of the scanner that `FromReader` of a program makes, over a script of reads. -/
def scanned (P : Program) (O : Outside) (script : Scanner.Reader) : Res (List Bytes × Option Scanner.Err) :=
  match (P.run O 5 0 (chars "FromReader") .nil).2 with
  | .ok x =>
    match x.field 0 with
    | .ok s =>
      match s.field 1 with
      | .ok f => Scanner.tokens (Scanner.new (P.splitFn O 5 0 f) script)
      | .error e => .error e
    | .error e => .error e
  | .error e => .error e

/-- "hi, é" in two reads that cut the last character, and the error that comes with the second. -/
example : scanned Words.Code.program (withTables .uint32 Words.trie) [([0x68, 0x69, 0x2C, 0x20, 0xC3], none), ([0xA9], some (.other "x"))]
    = .ok ([[0x68, 0x69], [0x2C], [0x20], [0xC3, 0xA9]], some (.other "x")) := by decide +kernel

/-- The same in graphemes, phrases and sentences, without the error. -/
example : scanned Graphemes.Code.program (withTables .uint32 Graphemes.trie) [([0x68, 0x69, 0x2C, 0x20, 0xC3], none), ([0xA9], none)]
      = .ok ([[0x68], [0x69], [0x2C], [0x20], [0xC3, 0xA9]], none)
    ∧ scanned Phrases.Code.program (withTables .uint32 Phrases.trie) [([0x68, 0x69, 0x2C, 0x20, 0xC3], none), ([0xA9], none)]
      = .ok ([[0x68, 0x69], [0x2C], [0x20, 0xC3, 0xA9]], none)
    ∧ scanned Sentences.Code.program (withTables .uint16 Sentences.trie) [([0x68, 0x69, 0x2C, 0x20, 0xC3], none), ([0xA9], none)]
      = .ok ([[0x68, 0x69, 0x2C, 0x20, 0xC3, 0xA9]], none) := by decide +kernel

/-- With the joiner "#" the reader's "#a #" is cut into "#a", " " and "#", however it is delivered. -/
example : Scanner.tokens (Scanner.new (Words.Code.program.splitFn (withTables .uint32 Words.trie) 4 1
      (.bound 7 (joinersVal (some ⟨none, some [0x23]⟩)))) [([0x23], none), ([0x61, 0x20], none), ([0x23], none)])
    = .ok ([[0x23, 0x61], [0x20], [0x23]], none) := by decide +kernel

/-- A scanner of words with a joiner "#": its reader stays, and "#a" is one word. -/
example : (Words.Code.program.run (withTables .uint32 Words.trie) 1 20 (chars ".Scanner.Joiners")
        (.pair (scannerVal (.str (chars "r")) (.fn 6)) (joinersVal (some ⟨none, some [0x23]⟩)))).1
      = scannerVal (.str (chars "r")) (.bound 7 (joinersVal (some ⟨none, some [0x23]⟩)))
    ∧ Words.Code.program.apply (withTables .uint32 Words.trie) 4 20 (.pair (.bytes [0x23, 0x61, 0x20]) (.bool true))
        (.bound 7 (joinersVal (some ⟨none, some [0x23]⟩))) = splitRes (.ok ⟨2, some [0x23, 0x61], none⟩)
    ∧ Words.Code.program.apply (withTables .uint32 Words.trie) 5 20 (.pair (.bytes [0x23, 0x61, 0x20]) (.bool true))
        (.fn 6) = splitRes (.ok ⟨1, some [0x23], none⟩) := by decide +kernel

end Uax29
