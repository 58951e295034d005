import Verif.Proofs.GoApi
import Verif.Props.Graphemes
import Verif.Props.Words
import Verif.Props.Phrases
import Verif.Props.Sentences
/-!
# The iterators of the packages, read from their text (C83–C85)

`depth` bounds the nesting of calls and `fuel` the passes of each loop, as in C78–C82.
-/
namespace Uax29
open Source Spec

/-! ## C83: the methods of a words iterator, with any split function -/

/-- The value `f` is a function, and a call of it on up to `n` bytes does what `split` says. -/
def CallsAs (P : Program) (O : Outside) (depth fuel : Nat) (f : Val) (split : SplitFn) (n : Nat) : Prop :=
  ∀ d : Bytes, d.length ≤ n → P.apply O depth fuel (.pair (.bytes d) (.bool true)) f = splitRes (split d true)

theorem CallsAs.splits {P : Program} {O : Outside} {depth fuel : Nat} {f : Val} {split : SplitFn} {n : Nat}
    (h : CallsAs P O depth fuel f split n) : SplitsAs (worldOf P O fuel depth) f split n := by
  intro d hd
  rw [← h d hd]
  cases f <;> rfl

theorem Words.next_call {O : Outside} {depth fuel : Nat} {f rest : Val} {it : Iter} (hd : 1 ≤ depth) (hf : it.data.length ≤ fuel)
    (h : CallsAs Words.Code.program O depth fuel f it.split it.data.length) :
    callAt Words.Code.program.funcs O fuel (depth + 1) 12 (iterVal f it rest) = nextRes f rest (Words.next it) := by
  obtain ⟨d, rfl⟩ := depth_of hd
  rw [callAt_eq (F := Words.Code.mNext) rfl]
  refine Words.next_run (fun b => ?_) h.splits hf
  show (callAt Words.Code.program.funcs O fuel (d + 1) 11 _).2 = _
  rw [callAt_eq (F := Words.Code.isASCIIAlphanumeric) rfl, Words.isASCIIAlphanumeric_run]

theorem C83_next : Reads Words.Code.files .uint32 Words.trie fun P O =>
    ∀ (f rest : Val) (it : Iter) (depth fuel : Nat), 1 ≤ depth → it.data.length ≤ fuel → CallsAs P O depth fuel f it.split it.data.length →
      P.run O (depth + 1) fuel (chars ".Next") (iterVal f it rest) = nextRes f rest (Words.next it) := by
  refine ⟨_, Words.Code.read_eq, fun O hO f rest it depth fuel hd hf h => ?_⟩
  rw [run_of (k := 12) rfl]
  exact Words.next_call hd hf h

theorem C83_first : Reads Words.Code.files .uint32 Words.trie fun P O =>
    ∀ (f rest : Val) (it : Iter) (depth fuel : Nat), 1 ≤ depth → it.data.length ≤ fuel → CallsAs P O depth fuel f it.split it.data.length →
      P.run O (depth + 2) fuel (chars ".First") (iterVal f it rest) = (iterVal f it rest, bytesRes (Words.first it)) := by
  refine ⟨_, Words.Code.read_eq, fun O hO f rest it depth fuel hd hf h => ?_⟩
  rw [run_of (k := 19) rfl, callAt_eq (F := Words.Code.mFirst) rfl]
  exact first_run (n := 12) (v := 13) (next := Words.next) (Words.next_call (it := { it with pos := 0, start := 0 }) hd hf h)
    (fun it => by
      show (callAt Words.Code.program.funcs O fuel (depth + 1) 13 _).2 = _
      rw [callAt_eq (F := Words.Code.mValue) rfl]; exact congrArg Prod.snd value_run)

/-- `Split` replaces the function, whether it is a function or the method of joiners. -/
theorem C83_split : Reads Words.Code.files .uint32 Words.trie fun P O =>
    ∀ (f g rest : Val) (it : Iter) (split : SplitFn) (depth fuel : Nat), 1 ≤ depth → (∃ k, f = .fn k ∨ ∃ r, f = .bound k r) →
      P.run O depth fuel (chars ".Split") (.pair (iterVal f it rest) g) = (iterVal g (it.setSplit split) rest, .ok .nil) := by
  refine ⟨_, Words.Code.read_eq, fun O hO f g rest it split depth fuel hd hf => ?_⟩
  obtain ⟨d, rfl⟩ := depth_of hd
  rw [run_of (k := 18) rfl, callAt_eq (F := Words.Code.mSplit) rfl]
  exact setSplit_run (by obtain ⟨k, rfl | ⟨r, rfl⟩⟩ := hf <;> exact fun _ => rfl)

/-! ## C84: any sequence of calls -/

/-- What the user of a package sees on an iterator of the function `make`: the observations of the model, call by call. -/
def HistoryText (p : Pkg) (make : Name) (P : Program) (O : Outside) : Prop :=
  ∀ (data : Bytes) (ops : List (Uax29.Op p)) (depth fuel : Nat), 7 ≤ depth → 2 * data.length + 2 ≤ fuel → (∀ op ∈ ops, FitsOp fuel op) →
    ∃ it, (P.run O depth fuel make (.bytes data)).2 = .ok it ∧
      P.calls O depth fuel it ops = (runObs (Iterator.fromBytes p data) ops).map obsVal

theorem C84_graphemes : Reads Graphemes.Code.files .uint32 Graphemes.trie fun P O =>
    HistoryText .graphemes (chars "FromString") P O ∧ HistoryText .graphemes (chars "FromBytes") P O := by
  refine ⟨_, Graphemes.Code.read_eq, fun O hO => ⟨fun data ops depth fuel hd hf hops => ?_, fun data ops depth fuel hd hf hops => ?_⟩⟩ <;>
    obtain ⟨d, rfl⟩ := depth_of hd <;>
    exact ⟨_, rfl, Graphemes.api.calls d (fun x it c _ hr => Graphemes.config_run _ x it c hr) ops _ _ (Graphemes.stands hO hf) hops⟩

theorem C84_words : Reads Words.Code.files .uint32 Words.trie fun P O =>
    HistoryText .words (chars "FromString") P O ∧ HistoryText .words (chars "FromBytes") P O := by
  refine ⟨_, Words.Code.read_eq, fun O hO => ⟨fun data ops depth fuel hd hf hops => ?_, fun data ops depth fuel hd hf hops => ?_⟩⟩ <;>
    obtain ⟨d, rfl⟩ := depth_of hd <;>
    exact ⟨_, rfl, Words.api.calls d (fun x it c hc hr => Words.config_run hO d x it c hc hr) ops _ _ (Words.stands hO hf) hops⟩

theorem C84_phrases : Reads Phrases.Code.files .uint32 Phrases.trie fun P O =>
    HistoryText .phrases (chars "FromString") P O ∧ HistoryText .phrases (chars "FromBytes") P O := by
  refine ⟨_, Phrases.Code.read_eq, fun O hO => ⟨fun data ops depth fuel hd hf hops => ?_, fun data ops depth fuel hd hf hops => ?_⟩⟩ <;>
    obtain ⟨d, rfl⟩ := depth_of hd <;>
    exact ⟨_, rfl, Phrases.api.calls d (fun x it c _ hr => ⟨hr, rfl⟩) ops _ _ (Phrases.stands hO hf) hops⟩

theorem C84_sentences : Reads Sentences.Code.files .uint16 Sentences.trie fun P O =>
    HistoryText .sentences (chars "FromString") P O ∧ HistoryText .sentences (chars "FromBytes") P O := by
  refine ⟨_, Sentences.Code.read_eq, fun O hO => ⟨fun data ops depth fuel hd hf hops => ?_, fun data ops depth fuel hd hf hops => ?_⟩⟩ <;>
    obtain ⟨d, rfl⟩ := depth_of hd <;>
    exact ⟨_, rfl, Sentences.api.calls d (fun x it c _ hr => ⟨hr, rfl⟩) ops _ _ (Sentences.stands hO hf) hops⟩

/-! ## C85: the text of the packages conforms to UAX #29 -/

/-- The loop `for it.Next() { use(it.Value()) }` over an iterator of `make` cuts the characters `s` where `breaks` says, and nowhere else.
`passes` bounds the passes of that loop. -/
def SegmentText (make : Name) (breaks : List Char → List Char → Prop) (P : Program) (O : Outside) : Prop :=
  ∀ (s : List Char) (depth fuel passes : Nat), 6 ≤ depth → 2 * (utf8 s).length + 2 ≤ fuel → (utf8 s).length < passes →
    ∃ it, (P.run O depth fuel make (.bytes (utf8 s))).2 = .ok it ∧
      ∃ ws : List (List Char), P.values O depth fuel passes it = .ok (ws.map utf8) ∧ ws.flatten = s ∧ (∀ w ∈ ws, w ≠ []) ∧
        ∀ a b, s = a ++ b → (Boundary ws a ↔ breaks a b)

/-- More passes change nothing. -/
theorem collect_mono {next : Iter → Iter × NextOut} : ∀ {m n : Nat} {it : Iter} {vs : List Bytes}, collect next m it = .ok vs → m ≤ n →
    collect next n it = .ok vs
  | 0, _, _, _, h, _ => by simp [collect] at h
  | m + 1, 0, _, _, _, hn => absurd hn (by omega)
  | m + 1, n + 1, it, vs, h, hn => by
    rw [collect] at h ⊢
    split at h
    · cases h
    · exact h
    · rename_i it' _
      split at h
      · cases h
      · split at h
        · cases h
        · rename_i e
          rw [collect_mono (n := n) e (by omega)]
          exact h

/-- From the loop of the model to the loop over the code. -/
theorem segmentText {p : Pkg} {P : Program} {O : Outside} {make : Name} {breaks : List Char → List Char → Prop} {n v : Nat}
    (ha : ∀ fuel, Api p P O fuel n v)
    (hm : ∀ (data : Bytes) (d fuel : Nat), 2 * data.length + 2 ≤ fuel →
      ∃ x, (P.run O (d + 6) fuel make (.bytes data)).2 = .ok x ∧ Stands P O fuel x (Iterator.fromBytes p data))
    (hd : ∀ data, (Iterator.fromBytes p data).iter.data = data)
    (hc : ∀ s : List Char, ∃ ws : List (List Char), defaultTokens p (utf8 s) = .ok (ws.map utf8) ∧ ws.flatten = s ∧ (∀ w ∈ ws, w ≠ []) ∧
      ∀ a b, s = a ++ b → (Boundary ws a ↔ breaks a b)) : SegmentText make breaks P O := by
  intro s depth fuel passes hd6 hf hp
  obtain ⟨d, rfl⟩ := depth_of hd6
  obtain ⟨x, hx, hr⟩ := hm (utf8 s) d fuel hf
  obtain ⟨ws, h1, h2, h3, h4⟩ := hc s
  refine ⟨x, hx, ws, ?_, h2, h3, h4⟩
  rw [(ha fuel).values d passes x _ hr]
  refine collect_mono h1 ?_
  rw [hd]; exact hp

theorem C85_graphemes : Reads Graphemes.Code.files .uint32 Graphemes.trie fun P O => ∀ make ∈ [chars "FromString", chars "FromBytes"],
    SegmentText make (fun a b => graphemeBreak (a.map graphemeClasses) (b.map graphemeClasses) = true) P O := by
  refine ⟨_, Graphemes.Code.read_eq, fun O hO make hm => segmentText (fun _ => Graphemes.api) ?_ (fun _ => rfl) C08_conform⟩
  intro data d fuel hf
  simp only [List.mem_cons, List.not_mem_nil, or_false] at hm
  rcases hm with rfl | rfl
  · exact ⟨_, rfl, Graphemes.stands hO hf⟩
  · exact ⟨_, rfl, Graphemes.stands hO hf⟩

theorem C85_words : Reads Words.Code.files .uint32 Words.trie fun P O => ∀ make ∈ [chars "FromString", chars "FromBytes"],
    SegmentText make (fun a b => wordBreak (a.map wordClasses) (b.map wordClasses) = true) P O := by
  refine ⟨_, Words.Code.read_eq, fun O hO make hm => segmentText (fun _ => Words.api) ?_ (fun _ => rfl) C09_conform⟩
  intro data d fuel hf
  simp only [List.mem_cons, List.not_mem_nil, or_false] at hm
  rcases hm with rfl | rfl
  · exact ⟨_, rfl, Words.stands hO hf⟩
  · exact ⟨_, rfl, Words.stands hO hf⟩

theorem C85_sentences : Reads Sentences.Code.files .uint16 Sentences.trie fun P O => ∀ make ∈ [chars "FromString", chars "FromBytes"],
    SegmentText make (fun a b => sentenceBreak (a.map sentenceClass) (b.map sentenceClass) = true) P O := by
  refine ⟨_, Sentences.Code.read_eq, fun O hO make hm => segmentText (fun _ => Sentences.api) ?_ (fun _ => rfl) C10_conform⟩
  intro data d fuel hf
  simp only [List.mem_cons, List.not_mem_nil, or_false] at hm
  rcases hm with rfl | rfl
  · exact ⟨_, rfl, Sentences.stands hO hf⟩
  · exact ⟨_, rfl, Sentences.stands hO hf⟩

theorem C85_phrases : Reads Phrases.Code.files .uint32 Phrases.trie fun P O => ∀ make ∈ [chars "FromString", chars "FromBytes"],
    SegmentText make (fun a b => phraseBreak (a.map phraseClasses) (b.map phraseClasses) = true) P O := by
  refine ⟨_, Phrases.Code.read_eq, fun O hO make hm => segmentText (fun _ => Phrases.api) ?_ (fun _ => rfl) C11_conform⟩
  intro data d fuel hf
  simp only [List.mem_cons, List.not_mem_nil, or_false] at hm
  rcases hm with rfl | rfl
  · exact ⟨_, rfl, Phrases.stands hO hf⟩
  · exact ⟨_, rfl, Phrases.stands hO hf⟩

/-! ## The code at work -/

/-- Tables, and one function of the user: it takes two bytes at a time, and fails on a last single byte. -/
def withPairs (t : IntTy) (T : Trie) : Outside where
  table := arrays t T
  inst := .bytes
  call
    | 0, .pair (.bytes b) (.bool _) => (.bytes b, splitRes (if b.length < 2 then .ok ⟨0, none, some "odd"⟩ else .ok ⟨2, some (b.take 2), none⟩))
    | _, v => (v, .error Fault.stuck)

/-- What a user sees on an iterator that the program makes. -/
def seen (P : Program) (O : Outside) (depth fuel : Nat) (make : Name) (data : Bytes) {p : Pkg} (ops : List (Uax29.Op p)) : List (Res Val) :=
  match (P.run O depth fuel make (.bytes data)).2 with
  | .ok it => P.calls O depth fuel it ops
  | .error f => [.error f]

/-- What a user sees in the loop over an iterator that the program makes. -/
def segmented (P : Program) (O : Outside) (depth fuel : Nat) (make : Name) (data : Bytes) : Res (List Bytes) :=
  match (P.run O depth fuel make (.bytes data)).2 with
  | .ok it => P.values O depth fuel (data.length + 1) it
  | .error f => .error f

/-- "hi, you" in words. -/
example : segmented Words.Code.program (withTables .uint32 Words.trie) 6 20 (chars "FromString") [0x68, 0x69, 0x2C, 0x20, 0x79, 0x6F, 0x75]
    = .ok [[0x68, 0x69], [0x2C], [0x20], [0x79, 0x6F, 0x75]] := by decide +kernel

/-- "No. é" in sentences: one sentence, then one of graphemes: five. -/
example : segmented Sentences.Code.program (withTables .uint16 Sentences.trie) 6 20 (chars "FromBytes") [0x4E, 0x6F, 0x2E, 0x20, 0xC3, 0xA9]
      = .ok [[0x4E, 0x6F, 0x2E, 0x20, 0xC3, 0xA9]]
    ∧ segmented Graphemes.Code.program (withTables .uint32 Graphemes.trie) 6 20 (chars "FromBytes") [0x4E, 0x6F, 0x2E, 0x20, 0xC3, 0xA9]
      = .ok [[0x4E], [0x6F], [0x2E], [0x20], [0xC3, 0xA9]] := by decide +kernel

/-- "I am. Yes" in phrases. -/
example : segmented Phrases.Code.program (withTables .uint32 Phrases.trie) 6 20 (chars "FromBytes") [0x49, 0x20, 0x61, 0x6D, 0x2E, 0x20, 0x59]
    = .ok [[0x49, 0x20, 0x61, 0x6D], [0x2E], [0x20, 0x59]] := by decide +kernel

/-- Calls on a words iterator over "#a b": the first word, joiners, the first word again, and where it stands after a call of `Next`. -/
example : seen Words.Code.program (withTables .uint32 Words.trie) 7 20 (chars "FromBytes") [0x23, 0x61, 0x20, 0x62]
      ([.first, .config (some ⟨none, some [0x23]⟩), .first, .next, .start, .end, .value, .setText [0x62], .value, .next, .next] : List (Uax29.Op .words))
    = [.ok (.bytes [0x23]), .ok .nil, .ok (.bytes [0x23, 0x61]), .ok (.bool true), .ok (.num .int 0), .ok (.num .int 2), .ok (.bytes [0x23, 0x61]),
       .ok .nil, .ok (.bytes []), .ok (.bool true), .ok (.bool false)] := by decide +kernel

/-- Escapes on a graphemes iterator: with the option, ESC "[m" is one token. -/
example : seen Graphemes.Code.program (withTables .uint32 Graphemes.trie) 7 20 (chars "FromBytes") [0x1B, 0x5B, 0x6D, 0x78]
      ([.first, .config ⟨true, false⟩, .first, .next, .end, .reset, .end] : List (Uax29.Op .graphemes))
    = [.ok (.bytes [0x1B]), .ok .nil, .ok (.bytes [0x1B, 0x5B, 0x6D]), .ok (.bool true), .ok (.num .int 3), .ok .nil, .ok (.num .int 0)] := by
  decide +kernel

/-- A function of the user, number 24: it has "--", then nothing to say about the last byte, which `Next` reports as a panic. -/
example : Words.Code.program.run (withPairs .uint32 Words.trie) 2 20 (chars ".Next") (iterVal (.fn 24) ⟨Words.splitFunc, [0x2D, 0x2D, 0x2D], 0, 0⟩ .nil)
      = (iterVal (.fn 24) ⟨Words.splitFunc, [0x2D, 0x2D, 0x2D], 2, 0⟩ .nil, .ok (.bool true))
    ∧ Words.Code.program.run (withPairs .uint32 Words.trie) 2 20 (chars ".Next") (iterVal (.fn 24) ⟨Words.splitFunc, [0x2D, 0x2D, 0x2D], 2, 0⟩ .nil)
      = (iterVal (.fn 24) ⟨Words.splitFunc, [0x2D, 0x2D, 0x2D], 2, 2⟩ .nil, .error (.panic "odd")) := by decide +kernel

end Uax29
