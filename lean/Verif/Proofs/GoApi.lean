import Verif.Spec.GoApi
import Verif.Proofs.GoIter
import Verif.Props.GoSource
/-! # The calls of a user on the code of a package and on the model -/
namespace Uax29.Source

/-- The fields after `start`. -/
def restVal (p : Pkg) (o : Graphemes.Options) : Val :=
  match p with
  | .graphemes => optionsVal o
  | _ => .nil

/-- The functions a call can make at depth `d`. -/
abbrev worldOf (P : Program) (O : Outside) (fuel d : Nat) : World := ⟨callAt P.funcs O fuel d, O.table, O.inst⟩

/-- The value `v` stands for the iterator `it`. -/
structure Stands {p : Pkg} (P : Program) (O : Outside) (fuel : Nat) (v : Val) (it : Iterator p) : Prop where
  fits : 2 * it.iter.data.length + 2 ≤ fuel
  val : ∃ f, v = iterVal f it.iter (restVal p it.opts) ∧ IsFn f ∧
    ∀ d N, 2 * N + 2 ≤ fuel → SplitsAs (worldOf P O fuel (d + 5)) f it.iter.split N

/-- The methods of an iterator in a program, and what `Next` does. -/
structure Api (p : Pkg) (P : Program) (O : Outside) (fuel n v : Nat) : Prop where
  placeNext : place (chars ".Next") P.names = some n
  placeValue : place (chars ".Value") P.names = some v
  placeStart : ∃ k, place (chars ".Start") P.names = some k ∧ P.funcs[k]? = some (some startCode)
  placeEnd : ∃ k, place (chars ".End") P.names = some k ∧ P.funcs[k]? = some (some endCode)
  placeReset : ∃ k, place (chars ".Reset") P.names = some k ∧ P.funcs[k]? = some (some resetCode)
  placeSetText : ∃ k, place (chars ".SetText") P.names = some k ∧ P.funcs[k]? = some (some setTextCode)
  placeFirst : ∃ k, place (chars ".First") P.names = some k ∧ P.funcs[k]? = some (some (firstCode n v))
  value : P.funcs[v]? = some (some valueCode)
  next : ∀ (d : Nat) (f : Val) (it : Iter) (o : Graphemes.Options), 2 * it.data.length + 2 ≤ fuel →
    SplitsAs (worldOf P O fuel (d + 5)) f it.split it.data.length →
    callAt P.funcs O fuel (d + 6) n (iterVal f it (restVal p o)) = nextRes f (restVal p o) (Iterator.nextIter p o it)

theorem callSplit_keeps (it : Iter) : it.callSplit.1.data = it.data ∧ it.callSplit.1.split = it.split := by
  unfold Iter.callSplit
  split
  · exact ⟨rfl, rfl⟩
  · split
    · exact ⟨rfl, rfl⟩
    · split
      · exact ⟨rfl, rfl⟩
      · dsimp only
        repeat' split
        all_goals exact ⟨rfl, rfl⟩

/-- `Next` keeps the text and the split function. -/
theorem next_keeps (p : Pkg) (o : Graphemes.Options) (it : Iter) :
    (Iterator.nextIter p o it).1.data = it.data ∧ (Iterator.nextIter p o it).1.split = it.split := by
  have skip : ∀ it : Iter, it.nextSkipping.1.data = it.data ∧ it.nextSkipping.1.split = it.split := by
    intro it
    unfold Iter.nextSkipping
    dsimp only
    repeat' split
    all_goals first | exact ⟨rfl, rfl⟩ | exact callSplit_keeps _
  cases p with
  | words =>
    show (Words.next it).1.data = _ ∧ (Words.next it).1.split = _
    unfold Words.next
    dsimp only
    repeat' split
    all_goals first | exact ⟨rfl, rfl⟩ | exact callSplit_keeps _
  | phrases => exact skip it
  | sentences => exact skip it
  | graphemes =>
    have plain : ∀ (it : Iter) b, (Graphemes.nextPlain it b).1.data = it.data ∧ (Graphemes.nextPlain it b).1.split = it.split := by
      intro it b
      unfold Graphemes.nextPlain
      repeat' split
      all_goals first | exact ⟨rfl, rfl⟩ | exact callSplit_keeps _
    have eight : ∀ (it : Iter) b, (Graphemes.next8 o it b).1.data = it.data ∧ (Graphemes.next8 o it b).1.split = it.split := by
      intro it b
      unfold Graphemes.next8
      dsimp only
      repeat' split
      all_goals first | exact ⟨rfl, rfl⟩ | exact plain _ _
    show (Graphemes.next o it).1.data = _ ∧ (Graphemes.next o it).1.split = _
    unfold Graphemes.next
    dsimp only
    repeat' split
    all_goals first | exact ⟨rfl, rfl⟩ | exact eight _ _

variable {p : Pkg} {P : Program} {O : Outside} {fuel n v : Nat}

theorem nextRes_eq (f rest : Val) (r : Iter × NextOut) :
    nextRes f rest r = (iterVal f r.1 rest, match r.2 with | .ret b => .ok (.bool b) | .fault x => .error x) := by
  obtain ⟨it, _ | _⟩ := r <;> rfl

theorem ofRes_val (r : Res Bytes) : bytesRes r = obsVal (.ofRes r) := by cases r <;> rfl

theorem Api.next_call (h : Api p P O fuel n v) {x : Val} {it : Iterator p} (hr : Stands P O fuel x it) (d : Nat) :
    ∃ y, P.run O (d + 6) fuel (chars ".Next") x = (y, match it.next.2 with | .ret b => .ok (.bool b) | .fault f => .error f)
      ∧ Stands P O fuel y it.next.1 := by
  obtain ⟨hf, f, rfl, hi, hs⟩ := hr
  rw [run_of h.placeNext, h.next d f it.iter it.opts hf (hs d _ hf), nextRes_eq]
  refine ⟨_, rfl, ?_, f, rfl, hi, ?_⟩
  · show 2 * (Iterator.nextIter p it.opts it.iter).1.data.length + 2 ≤ fuel
    rw [(next_keeps p it.opts it.iter).1]; exact hf
  · show ∀ d N, _ → SplitsAs _ f (Iterator.nextIter p it.opts it.iter).1.split N
    rw [(next_keeps p it.opts it.iter).2]; exact hs

theorem Api.value_call (h : Api p P O fuel n v) {x : Val} {it : Iterator p} (hr : Stands P O fuel x it) (d : Nat) :
    P.run O (d + 1) fuel (chars ".Value") x = (x, bytesRes it.iter.value) := by
  obtain ⟨hf, f, rfl, hi, hs⟩ := hr
  rw [run_of h.placeValue, callAt_eq h.value, value_run]

theorem Api.call (h : Api p P O fuel n v) {x : Val} {it : Iterator p} (hr : Stands P O fuel x it) {op : Uax29.Op p} (hop : FitsOp fuel op) (d : Nat)
    (hc : ∀ c, op = .config c → Stands P O fuel (P.call O (d + 7) fuel x op).1 (op.run it).1 ∧ (P.call O (d + 7) fuel x op).2 = .ok .nil) :
    Stands P O fuel (P.call O (d + 7) fuel x op).1 (op.run it).1 ∧ (P.call O (d + 7) fuel x op).2 = obsVal (op.run it).2 := by
  cases op with
  | config c => exact hc c rfl
  | next =>
    obtain ⟨y, e, hy⟩ := h.next_call hr (d + 1)
    show Stands P O fuel (P.run O (d + 7) fuel (chars ".Next") x).1 _ ∧ (P.run O (d + 7) fuel (chars ".Next") x).2 = _
    rw [e]
    refine ⟨hy, ?_⟩
    simp only [Op.run]
    cases it.next.2 <;> rfl
  | value =>
    show Stands P O fuel (P.run O (d + 7) fuel (chars ".Value") x).1 _ ∧ (P.run O (d + 7) fuel (chars ".Value") x).2 = _
    rw [h.value_call hr]
    exact ⟨hr, ofRes_val _⟩
  | start =>
    obtain ⟨k, hk, hF⟩ := h.placeStart
    show Stands P O fuel (P.run O (d + 7) fuel (chars ".Start") x).1 _ ∧ (P.run O (d + 7) fuel (chars ".Start") x).2 = _
    obtain ⟨hf, f, rfl, hs⟩ := hr
    rw [run_of hk, callAt_eq hF, start_run]
    exact ⟨⟨hf, f, rfl, hs⟩, rfl⟩
  | «end» =>
    obtain ⟨k, hk, hF⟩ := h.placeEnd
    show Stands P O fuel (P.run O (d + 7) fuel (chars ".End") x).1 _ ∧ (P.run O (d + 7) fuel (chars ".End") x).2 = _
    obtain ⟨hf, f, rfl, hs⟩ := hr
    rw [run_of hk, callAt_eq hF, end_run]
    exact ⟨⟨hf, f, rfl, hs⟩, rfl⟩
  | reset =>
    obtain ⟨k, hk, hF⟩ := h.placeReset
    show Stands P O fuel (P.run O (d + 7) fuel (chars ".Reset") x).1 _ ∧ (P.run O (d + 7) fuel (chars ".Reset") x).2 = _
    obtain ⟨hf, f, rfl, hs⟩ := hr
    rw [run_of hk, callAt_eq hF, reset_run]
    exact ⟨⟨hf, f, rfl, hs⟩, rfl⟩
  | setText t =>
    obtain ⟨k, hk, hF⟩ := h.placeSetText
    show Stands P O fuel (P.run O (d + 7) fuel (chars ".SetText") (.pair x (.bytes t))).1 _
      ∧ (P.run O (d + 7) fuel (chars ".SetText") (.pair x (.bytes t))).2 = _
    obtain ⟨hf, f, rfl, hs⟩ := hr
    rw [run_of hk, callAt_eq hF, setText_run]
    exact ⟨⟨hop, f, rfl, hs⟩, rfl⟩
  | first =>
    obtain ⟨k, hk, hF⟩ := h.placeFirst
    show Stands P O fuel (P.run O (d + 7) fuel (chars ".First") x).1 _ ∧ (P.run O (d + 7) fuel (chars ".First") x).2 = _
    obtain ⟨hf, f, rfl, hi, hs⟩ := hr
    rw [run_of hk, callAt_eq hF, first_run (next := Iterator.nextIter p it.opts)
      (h.next d f { it.iter with pos := 0, start := 0 } it.opts hf (hs d _ hf))
      (fun it => by
        show (callAt P.funcs O fuel (d + 6) v _).2 = _
        rw [callAt_eq h.value, value_run])]
    exact ⟨⟨hf, f, rfl, hi, hs⟩, ofRes_val _⟩

theorem Api.calls (h : Api p P O fuel n v) (d : Nat)
    (hc : ∀ (x : Val) (it : Iterator p) c, FitsOp fuel (.config c : Uax29.Op p) → Stands P O fuel x it →
      Stands P O fuel (P.call O (d + 7) fuel x (.config c : Uax29.Op p)).1 (it.config c)
        ∧ (P.call O (d + 7) fuel x (.config c : Uax29.Op p)).2 = .ok .nil) :
    ∀ (ops : List (Uax29.Op p)) (x : Val) (it : Iterator p), Stands P O fuel x it → (∀ op ∈ ops, FitsOp fuel op) →
      P.calls O (d + 7) fuel x ops = (runObs it ops).map obsVal
  | [], _, _, _, _ => rfl
  | op :: ops, x, it, hr, hops => by
    have := h.call hr (hops op (by simp)) d (fun c e => by
      subst e; exact hc x it c (hops _ (by simp)) hr)
    rw [Program.calls, runObs, List.map_cons, this.2,
      Api.calls h d hc ops _ _ this.1 (fun op' h' => hops op' (by simp [h']))]

theorem Api.values (h : Api p P O fuel n v) (d : Nat) : ∀ (m : Nat) (x : Val) (it : Iterator p), Stands P O fuel x it →
    P.values O (d + 6) fuel m x = collect (Iterator.nextIter p it.opts) m it.iter
  | 0, _, _, _ => rfl
  | m + 1, x, it, hr => by
    obtain ⟨y, e, hy⟩ := h.next_call hr d
    rw [Program.values, collect, e]
    have e1 : it.next.1.iter = (Iterator.nextIter p it.opts it.iter).1 := rfl
    have e2 : it.next.2 = (Iterator.nextIter p it.opts it.iter).2 := rfl
    rw [e2]
    have ih := Api.values h d m y it.next.1 hy
    have hv := h.value_call hy (d + 5)
    rw [e1] at ih hv
    have e3 : it.next.1.opts = it.opts := rfl
    rw [e3] at ih
    cases hn : Iterator.nextIter p it.opts it.iter with
    | mk it' out =>
      rw [hn] at ih hv
      cases out with
      | fault f => rfl
      | ret b =>
        cases b with
        | false => rfl
        | true =>
          simp only
          rw [hv]
          cases it'.value with
          | error f => rfl
          | ok w =>
            simp only [bytesRes]
            rw [ih]
            show (match collect (Iterator.nextIter p it.opts) m it' with
              | .ok vs => Except.ok (w :: vs)
              | .error f => .error f) = _
            cases collect (Iterator.nextIter p it.opts) m it' <;> rfl

end Uax29.Source

namespace Uax29
open Source

/-- A function that splits at every depth. -/
theorem stands_new {p : Pkg} {P : Program} {O : Outside} {fuel k : Nat} {it : Iterator p} (hf : 2 * it.iter.data.length + 2 ≤ fuel)
    (h : ∀ d (data : Bytes), 2 * data.length + 2 ≤ fuel →
      (callAt P.funcs O fuel (d + 5) k (.pair (.bytes data) (.bool true))).2 = splitRes (it.iter.split data true)) :
    Stands P O fuel (iterVal (.fn k) it.iter (restVal p it.opts)) it :=
  ⟨hf, .fn k, rfl, fun _ => rfl, fun d N hN data hd => h d data (by omega)⟩

namespace Words
theorem api {O : Outside} {fuel : Nat} : Api .words Code.program O fuel 12 13 where
  placeNext := rfl
  placeValue := rfl
  placeStart := ⟨14, rfl, rfl⟩
  placeEnd := ⟨15, rfl, rfl⟩
  placeReset := ⟨16, rfl, rfl⟩
  placeSetText := ⟨17, rfl, rfl⟩
  placeFirst := ⟨19, rfl, rfl⟩
  value := rfl
  next d f it o hf hs := by
    rw [callAt_eq (F := Code.mNext) rfl]
    refine next_run (fun b => ?_) hs (by omega)
    show (callAt Code.program.funcs O fuel (d + 5) 11 _).2 = _
    rw [callAt_eq (F := Code.isASCIIAlphanumeric) rfl, isASCIIAlphanumeric_run]

theorem stands {O : Outside} (hO : O.table = arrays .uint32 trie) {fuel : Nat} {data : Bytes} (hf : 2 * data.length + 2 ≤ fuel) :
    Stands Code.program O fuel (iterVal (.fn 6) (fromBytes data) .nil) (Iterator.fromBytes .words data) :=
  stands_new (it := Iterator.fromBytes .words data) hf fun _ _ h => splitFunc_call hO true h

theorem config_run {O : Outside} (hO : O.table = arrays .uint32 trie) {fuel : Nat} (d : Nat) (x : Val) (it : Iterator .words) (c : Config .words)
    (hc : FitsOp fuel (.config c : Uax29.Op .words)) (hr : Stands Code.program O fuel x it) :
    Stands Code.program O fuel (Code.program.call O (d + 7) fuel x (.config c : Uax29.Op .words)).1 (it.config c)
      ∧ (Code.program.call O (d + 7) fuel x (.config c : Uax29.Op .words)).2 = .ok .nil := by
  obtain ⟨hf, f, rfl, hi, hs⟩ := hr
  have e : Code.program.call O (d + 7) fuel (iterVal f it.iter .nil) (.config c : Uax29.Op .words)
      = (iterVal (.bound 7 (joinersVal c)) it.iter .nil, .ok .nil) := by
    show callAt Code.program.funcs O fuel (d + 7) 2 (.pair (iterVal f it.iter .nil) (joinersVal c)) = _
    rw [callAt_eq (F := Code.mJoiners) rfl]
    have hj : (Val.pair (iterVal f it.iter .nil) (joinersVal c)).typedAs [none, none] = some [iterVal f it.iter .nil, joinersVal c] := by
      cases c <;> rfl
    rw [run_eq hj]
    show (exec (worldOf Code.program O fuel (d + 6)) fuel Code.mJoiners_s0 [iterVal f it.iter .nil, joinersVal c]).result [] = _
    unfold Code.mJoiners_s0
    have : (callAt Code.program.funcs O fuel (d + 6) 18 (.pair (iterVal f it.iter .nil) (.bound 7 (joinersVal c))))
        = (iterVal (.bound 7 (joinersVal c)) it.iter .nil, .ok .nil) := by
      rw [callAt_eq (F := Code.mSplit) rfl]; exact setSplit_run hi
    rw [exec]
    go_run [this]
    rfl
  show Stands _ _ _ (Code.program.call O (d + 7) fuel (iterVal f it.iter .nil) (.config c : Uax29.Op .words)).1 _
    ∧ (Code.program.call O (d + 7) fuel (iterVal f it.iter .nil) (.config c : Uax29.Op .words)).2 = _
  rw [e]
  refine ⟨⟨hf, .bound 7 (joinersVal c), rfl, fun _ => rfl, fun d N hN data hd => ?_⟩, rfl⟩
  exact joinersSplitFunc_call (d := d + 1) hO c true (by unfold loopFuel; omega) hc
end Words

/-- The methods of phrases and of sentences. -/
theorem api_skipping {p : Pkg} {P : Program} {O : Outside} {fuel : Nat} (hp : p = .phrases ∨ p = .sentences)
    (h7 : P.funcs[7]? = some (some alnumOrSpaceCode)) (h8 : P.funcs[8]? = some (some nextSkippingCode))
    (h9 : P.funcs[9]? = some (some valueCode)) (h10 : P.funcs[10]? = some (some startCode)) (h11 : P.funcs[11]? = some (some endCode))
    (h12 : P.funcs[12]? = some (some resetCode)) (h13 : P.funcs[13]? = some (some setTextCode)) (h14 : P.funcs[14]? = some (some (firstCode 8 9)))
    (hn : P.names = Phrases.Code.program.names) : Api p P O fuel 8 9 where
  placeNext := by rw [hn]; rfl
  placeValue := by rw [hn]; rfl
  placeStart := ⟨10, by rw [hn]; rfl, h10⟩
  placeEnd := ⟨11, by rw [hn]; rfl, h11⟩
  placeReset := ⟨12, by rw [hn]; rfl, h12⟩
  placeSetText := ⟨13, by rw [hn]; rfl, h13⟩
  placeFirst := ⟨14, by rw [hn]; rfl, h14⟩
  value := h9
  next d f it o hf hs := by
    have hsp : SpaceCalls (worldOf P O fuel (d + 5)) := fun b => by
      show (callAt P.funcs O fuel (d + 5) 7 _).2 = _
      rw [callAt_eq h7, alnumOrSpace_run]
    rw [callAt_eq h8]
    rcases hp with rfl | rfl
    · exact nextSkipping_run hsp hs (by omega)
    · exact nextSkipping_run hsp hs (by omega)

namespace Phrases
theorem api {O : Outside} {fuel : Nat} : Api .phrases Code.program O fuel 8 9 :=
  api_skipping (Or.inl rfl) rfl rfl rfl rfl rfl rfl rfl rfl rfl

theorem stands {O : Outside} (hO : O.table = arrays .uint32 trie) {fuel : Nat} {data : Bytes} (hf : 2 * data.length + 2 ≤ fuel) :
    Stands Code.program O fuel (iterVal (.fn 3) (fromBytes data) .nil) (Iterator.fromBytes .phrases data) :=
  stands_new (it := Iterator.fromBytes .phrases data) hf fun d _ h => splitFunc_call (d := d + 1) hO true h
end Phrases

namespace Sentences
theorem api {O : Outside} {fuel : Nat} : Api .sentences Code.program O fuel 8 9 :=
  api_skipping (Or.inr rfl) rfl rfl rfl rfl rfl rfl rfl rfl rfl

theorem stands {O : Outside} (hO : O.table = arrays .uint16 trie) {fuel : Nat} {data : Bytes} (hf : 2 * data.length + 2 ≤ fuel) :
    Stands Code.program O fuel (iterVal (.fn 3) (fromBytes data) .nil) (Iterator.fromBytes .sentences data) :=
  stands_new (it := Iterator.fromBytes .sentences data) hf fun d _ h => splitFunc_call (d := d + 1) hO true h
end Sentences

namespace Graphemes
theorem api {O : Outside} {fuel : Nat} : Api .graphemes Code.program O fuel 6 7 where
  placeNext := rfl
  placeValue := rfl
  placeStart := ⟨8, rfl, rfl⟩
  placeEnd := ⟨9, rfl, rfl⟩
  placeReset := ⟨10, rfl, rfl⟩
  placeSetText := ⟨11, rfl, rfl⟩
  placeFirst := ⟨12, rfl, rfl⟩
  value := rfl
  next d f it o hf hs := by
    rw [callAt_eq (F := Code.mNext) rfl]
    refine next_run (fun data hd => ⟨?_, ?_⟩) hs
    · show (callAt Code.program.funcs O fuel (d + 5) 13 _).2 = _
      rw [callAt_eq (F := Code.ansiEscapeLength) rfl]
      exact ansiEscapeLength_run (ansiCalls (by omega)) (by omega)
    · show (callAt Code.program.funcs O fuel (d + 5) 17 _).2 = _
      rw [callAt_eq (F := Code.ansiEscapeLength8Bit) rfl]
      exact ansiEscapeLength8Bit_run (ansiCalls (N := data.length) (by omega))

theorem stands {O : Outside} (hO : O.table = arrays .uint32 trie) {fuel : Nat} {data : Bytes} (hf : 2 * data.length + 2 ≤ fuel) :
    Stands Code.program O fuel (iterVal (.fn 3) (fromBytes data) (optionsVal {})) (Iterator.fromBytes .graphemes data) :=
  stands_new (it := Iterator.fromBytes .graphemes data) hf fun d _ h => splitFunc_call (d := d + 2) hO true h

theorem config_run {O : Outside} {fuel : Nat} (d : Nat) (x : Val) (it : Iterator .graphemes) (c : Config .graphemes)
    (hr : Stands Code.program O fuel x it) :
    Stands Code.program O fuel (Code.program.call O d fuel x (.config c : Uax29.Op .graphemes)).1 (it.config c)
      ∧ (Code.program.call O d fuel x (.config c : Uax29.Op .graphemes)).2 = .ok .nil := by
  obtain ⟨hf, f, rfl, hi, hs⟩ := hr
  exact ⟨⟨hf, f, rfl, hi, hs⟩, rfl⟩
end Graphemes

end Uax29
