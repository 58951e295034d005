import Verif.Proofs.GoGeneric
import Verif.Props.GoApi
import Verif.Props.CustomSplit
import Verif.Props.Filter
/-! # The text of internal/iterators and of its filter, read and executed as Go (C86–C87) -/
namespace Uax29
open Source Spec

/-- The program read from the text of files without tables. -/
def ReadsAny (files : List (List Char)) (Q : Program → Outside → Prop) : Prop := ∃ P, read files = some P ∧ ∀ O : Outside, Q P O

/-! ## C86: the iterator of internal/iterators -/

theorem C86_new : ReadsAny Generic.Code.files fun P O =>
    ∀ (f : Val) (data : Bytes) (split : SplitFn) (depth fuel : Nat), 1 ≤ depth → (∃ k, f = .fn k ∨ ∃ r, f = .bound k r) →
      (P.run O depth fuel (chars "New") (.pair f (.bytes data))).2 = .ok (genericVal f (Generic.new split data)) := by
  refine ⟨_, Generic.Code.read_eq, fun O f data split depth fuel hd hf => ?_⟩
  obtain ⟨d, rfl⟩ := depth_of hd
  rw [run_of (k := 0) rfl, callAt_eq (F := Generic.Code.New) rfl]
  exact Generic.new_run data split hf

theorem C86_next : ReadsAny Generic.Code.files fun P O =>
    ∀ (f : Val) (it : Iter) (depth fuel : Nat), CallsAs P O depth fuel f it.split it.data.length →
      P.run O (depth + 1) fuel (chars ".Next") (genericVal f it) = genericRes f (Generic.next it) := by
  refine ⟨_, Generic.Code.read_eq, fun O f it depth fuel h => ?_⟩
  rw [run_of (k := 3) rfl, callAt_eq (F := Generic.Code.mNext) rfl]
  exact Generic.next_run h.splits

theorem C86_first : ReadsAny Generic.Code.files fun P O =>
    ∀ (f : Val) (it : Iter) (depth fuel : Nat), CallsAs P O depth fuel f it.split it.data.length →
      P.run O (depth + 1) fuel (chars ".First") (genericVal f it) = (genericVal f it, bytesRes (Generic.first it)) := by
  refine ⟨_, Generic.Code.read_eq, fun O f it depth fuel h => ?_⟩
  rw [run_of (k := 8) rfl, callAt_eq (F := Generic.Code.mFirst) rfl]
  exact Generic.first_run h.splits

/-- The other methods. -/
theorem C86_methods : ReadsAny Generic.Code.files fun P O => ∀ (f : Val) (it : Iter) (depth fuel : Nat), 1 ≤ depth →
    P.run O depth fuel (chars ".Value") (genericVal f it) = (genericVal f it, bytesRes it.value) ∧
    P.run O depth fuel (chars ".Start") (genericVal f it) = (genericVal f it, .ok (.num .int it.start')) ∧
    P.run O depth fuel (chars ".End") (genericVal f it) = (genericVal f it, .ok (.num .int it.end')) ∧
    P.run O depth fuel (chars ".Reset") (genericVal f it) = (genericVal f it.reset, .ok .nil) ∧
    (∀ data, P.run O depth fuel (chars ".SetText") (.pair (genericVal f it) (.bytes data)) = (genericVal f (it.setText data), .ok .nil)) ∧
    ((∃ k, f = .fn k ∨ ∃ r, f = .bound k r) → ∀ (g : Val) (split : SplitFn),
      P.run O depth fuel (chars ".Split") (.pair (genericVal f it) g) = (genericVal g (it.setSplit split), .ok .nil)) := by
  refine ⟨_, Generic.Code.read_eq, fun O f it depth fuel hd => ?_⟩
  obtain ⟨d, rfl⟩ := depth_of hd
  refine ⟨?_, ?_, ?_, ?_, fun data => ?_, fun hf g split => ?_⟩
  · rw [run_of (k := 4) rfl, callAt_eq (F := Generic.Code.mValue) rfl, Generic.value_run]
  · rw [run_of (k := 5) rfl, callAt_eq (F := Generic.Code.mStart) rfl, Generic.start_run]; rfl
  · rw [run_of (k := 6) rfl, callAt_eq (F := Generic.Code.mEnd) rfl, Generic.end_run]; rfl
  · rw [run_of (k := 7) rfl, callAt_eq (F := Generic.Code.mReset) rfl, Generic.reset_run]
  · rw [run_of (k := 1) rfl, callAt_eq (F := Generic.Code.mSetText) rfl, Generic.setText_run]
  · rw [run_of (k := 2) rfl, callAt_eq (F := Generic.Code.mSplit) rfl]
    exact Generic.setSplit_run (by obtain ⟨k, rfl | ⟨r, rfl⟩⟩ := hf <;> exact fun _ => rfl)

/-- `Next` keeps the text and the split function. -/
theorem Generic.next_keeps (it : Iter) : (Generic.next it).1.data = it.data ∧ (Generic.next it).1.split = it.split := by
  unfold Generic.next
  dsimp only
  repeat' split
  all_goals exact ⟨rfl, rfl⟩

/-- The loop of a user over the code is the loop over the model. -/
theorem Generic.values_eq {O : Outside} {f : Val} {depth fuel : Nat} : ∀ (passes : Nat) (it : Iter),
    CallsAs Generic.Code.program O depth fuel f it.split it.data.length →
    Generic.Code.program.values O (depth + 1) fuel passes (genericVal f it) = collect Generic.next passes it
  | 0, _, _ => rfl
  | m + 1, it, h => by
    have hk := Generic.next_keeps it
    have e : Generic.Code.program.run O (depth + 1) fuel (chars ".Next") (genericVal f it) = genericRes f (Generic.next it) := by
      rw [run_of (k := 3) rfl, callAt_eq (F := Generic.Code.mNext) rfl]
      exact Generic.next_run h.splits
    have ih := Generic.values_eq (O := O) (f := f) (depth := depth) (fuel := fuel) m (Generic.next it).1 (by rw [hk.1, hk.2]; exact h)
    rw [Program.values, collect, e]
    cases hn : Generic.next it with
    | mk it' out =>
      rw [hn] at ih
      cases out with
      | fault x => rfl
      | ret b =>
        cases b with
        | false => rfl
        | true =>
          have hv : Generic.Code.program.run O (depth + 1) fuel (chars ".Value") (genericVal f it') = (genericVal f it', bytesRes it'.value) := by
            rw [run_of (k := 4) rfl, callAt_eq (F := Generic.Code.mValue) rfl, Generic.value_run]
          simp only [genericRes]
          rw [hv]
          cases it'.value with
          | error x => rfl
          | ok w =>
            simp only [bytesRes]
            rw [ih]
            show (match collect Generic.next m it' with
              | .ok vs => Except.ok (w :: vs)
              | .error f => .error f) = _
            cases collect Generic.next m it' <;> rfl

/-- An iterator with a function of the user that keeps the contract of `bufio.SplitFunc` gives its tokens. -/
theorem C86_tokens : ReadsAny Generic.Code.files fun P O =>
    ∀ (f : Val) (split : SplitFn) (data : Bytes) (depth fuel passes : Nat), (∃ k, f = .fn k ∨ ∃ r, f = .bound k r) →
      CallsAs P O depth fuel f split data.length → WellBehaved split → data.length < passes →
      ∃ it ts, (P.run O (depth + 1) fuel (chars "New") (.pair f (.bytes data))).2 = .ok it ∧
        P.values O (depth + 1) fuel passes it = .ok ts ∧ Splits split data ts := by
  refine ⟨_, Generic.Code.read_eq, fun O f split data depth fuel passes hk h hf hp => ?_⟩
  obtain ⟨ts, ht, hs⟩ := C44_tokens split hf data
  refine ⟨genericVal f (Generic.new split data), ts, ?_, ?_, hs⟩
  · rw [run_of (k := 0) rfl, callAt_eq (F := Generic.Code.New) rfl]
    exact Generic.new_run data split hk
  · rw [Generic.values_eq passes (Generic.new split data) h]
    exact collect_mono ht hp

/-! ## C87: the filter -/

/-- The text of internal/iterators/filter/filter.go: `AlphaNumeric`, with `unicode.IsLetter` and `unicode.IsNumber` from outside. -/
theorem C87_alphaNumeric : ReadsAny Filter.Code.files fun P O => ∀ (isLetter isNumber : Nat → Bool),
    (∀ r : Nat, (O.call 0 (.num .int32 r)).2 = .ok (.bool (isLetter r)) ∧ (O.call 1 (.num .int32 r)).2 = .ok (.bool (isNumber r))) →
    ∀ (token : Bytes) (depth fuel : Nat), 2 ≤ depth → token.length < fuel →
      (P.run O depth fuel (chars "AlphaNumeric") (.bytes token)).2 = boolRes (Filter.alphaNumeric isLetter isNumber token) := by
  refine ⟨_, Filter.Code.read_eq, fun O isLetter isNumber h token depth fuel hd hf => ?_⟩
  obtain ⟨d, rfl⟩ := depth_of hd
  rw [run_of (k := 0) rfl, callAt_eq (F := Filter.Code.AlphaNumeric) rfl, Filter.AlphaNumeric_run (fun r => h r)]
  obtain ⟨_, _, _, b, hb, _⟩ := C36_alphaNumeric isLetter isNumber token
  rw [hb, Filter.alphaLoop_mono hb fuel hf]

/-! ## The code at work -/

/-- The letters and digits of ASCII. -/
def asciiUnicode : Outside where
  table := fun _ _ => .error Fault.stuck
  inst := .bytes
  call
    | 0, .num t r => (.num t r, .ok (.bool (decide (97 ≤ r ∧ r ≤ 122))))
    | 1, .num t r => (.num t r, .ok (.bool (decide (48 ≤ r ∧ r ≤ 57))))
    | _, v => (v, .error Fault.stuck)

/-- "-é7" has a digit, "-é" has neither a letter of ASCII nor a digit. -/
example : (Filter.Code.program.run asciiUnicode 2 10 (chars "AlphaNumeric") (.bytes [0x2D, 0xC3, 0xA9, 0x37])).2 = .ok (.bool true)
    ∧ (Filter.Code.program.run asciiUnicode 2 10 (chars "AlphaNumeric") (.bytes [0x2D, 0xC3, 0xA9])).2 = .ok (.bool false) := by
  decide +kernel

/-- Two bytes at a time; the last single byte is taken without the function, which would fail on it. -/
example : Generic.Code.program.values (withPairs .uint32 Words.trie) 2 10 6
      (genericVal (.fn 9) (Generic.new Words.splitFunc [0x61, 0x62, 0x63, 0x64, 0x65])) = .ok [[0x61, 0x62], [0x63, 0x64], [0x65]]
    ∧ (Generic.Code.program.run (withPairs .uint32 Words.trie) 2 10 (chars ".First") (genericVal (.fn 9) (Generic.new Words.splitFunc [0x61]))).2
      = .error (.panic "odd") := by decide +kernel

end Uax29
