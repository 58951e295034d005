import Verif.Proofs.GoGraphemes
import Verif.Proofs.GoPhrases
import Verif.Proofs.GoWords
import Verif.Proofs.GoSentences
import Verif.Props.MachineTrie
/-! # The functions of the packages, with the functions they call -/
namespace Uax29.Source

theorem tableAt_flatten : ∀ {table : List (List Nat)} (_ : ∀ b ∈ table, b.length = 64) (o : Nat),
    tableAt table o = match table.flatten[o]? with | some v => .ok v | none => .error .bounds := by
  intro table
  induction table with
  | nil => intro _ o; simp [tableAt]
  | cons b bs ih =>
    intro h o
    have hb := h b List.mem_cons_self
    by_cases c : o < 64
    · have e1 : o / 64 = 0 := by omega
      have e2 : o % 64 = o := by omega
      simp only [tableAt, e1, e2, List.getElem?_cons_zero, List.flatten_cons]
      rw [List.getElem?_append_left (by omega)]
      cases b[o]? <;> rfl
    · have e1 : o / 64 = (o - 64) / 64 + 1 := by omega
      have e2 : o % 64 = (o - 64) % 64 := by omega
      have := ih (fun b hb => h b (List.mem_cons_of_mem _ hb)) (o - 64)
      rw [List.flatten_cons, List.getElem?_append_right (by omega), hb, ← this]
      simp only [tableAt, e1, e2, List.getElem?_cons_succ]

/-- The tables of the trie as arrays of type `t`. -/
structure Fits (T : Trie) (t : IntTy) : Prop where
  wf : T.Wf
  typed : t = .uint16 ∨ t = .uint32
  small : ∀ v ∈ T.index.flatten, v < 65536
  fits : ∀ v ∈ T.values.flatten, wrap t v = v

theorem Fits.tables {T : Trie} {t : IntTy} (h : Fits T t) {W : World} (hW : W.table = arrays t T) : Tables W T t where
  values n := by
    rw [hW, tableAt_flatten h.wf.v64]
    simp only [arrays, arrayAt, Int.natCast_nonneg, if_true, Int.toNat_natCast]
    cases T.values.flatten[n]? <;> rfl
  index n := by
    rw [hW, tableAt_flatten h.wf.i64]
    simp only [arrays, arrayAt, Int.natCast_nonneg, if_true, Int.toNat_natCast]
    cases T.index.flatten[n]? <;> rfl
  typed := h.typed
  small o v e := h.small v (tableAt_mem e)
  fits o v e := h.fits v (tableAt_mem e)

/-- The parts that the packages have in common; the method `is` has number `k`. -/
structure Common (funcs : List (Option Func)) (t : IntTy) (k : Nat) : Prop where
  lookup : funcs[0]? = some (some (lookupCode t))
  lookupValue : funcs[1]? = some (some (lookupValueCode t))
  is : funcs[k]? = some (some (isCode t))

section
variable {funcs : List (Option Func)} {O : Outside} {fuel d k : Nat}

theorem callAt_eq {F : Func} (h : funcs[k]? = some (some F)) (v : Val) :
    callAt funcs O fuel (d + 1) k v = F.run ⟨callAt funcs O fuel d, O.table, O.inst⟩ fuel v := by
  rw [callAt, h]

variable {T : Trie} {t : IntTy}

theorem callAt_lookup (h : Common funcs t k) (hT : Fits T t) (hO : O.table = arrays t T) (s : Bytes) :
    (callAt funcs O fuel (d + 2) 0 (.bytes s)).2 = lookupRes t (T.lookup s) := by
  rw [callAt_eq h.lookup]
  refine lookup_run (hT.tables hO) fuel (fun n b hn hb => ?_) s
  show (callAt funcs O fuel (d + 1) 1 _).2 = _
  rw [callAt_eq h.lookupValue]
  exact lookupValue_run (hT.tables hO) fuel n b hn hb

theorem calls_of (h : Common funcs t k) (hT : Fits T t) (hO : O.table = arrays t T) :
    Calls ⟨callAt funcs O fuel (d + 2), O.table, O.inst⟩ T t k where
  typed := hT.typed
  lookup s := callAt_lookup h hT hO s
  is a b := by
    show (callAt funcs O fuel (d + 2) k _).2 = _
    rw [callAt_eq h.is]
    exact is_run hT.typed fuel a b

theorem callAt_subsequent (h : Common funcs t k) (hT : Fits T t) (hO : O.table = arrays t T) {j ignore : Nat}
    (hj : funcs[j]? = some (some (subsequentCode k t ignore))) (p : Int) {data : Bytes} (eof : Bool) (hf : data.length < fuel) :
    (callAt funcs O fuel (d + 3) j (.pair (.num t p) (.pair (.bytes data) (.bool eof)))).2
      = subRes (subsequent T ignore p.toNat data eof) := by
  rw [callAt_eq hj, subsequent_run (calls_of h hT hO) fuel ignore p data eof, subsequent_fuel hT.wf ignore p.toNat data eof hf]

theorem subCalls_of (h : Common funcs t k) (hT : Fits T t) (hO : O.table = arrays t T) {j ignore N : Nat}
    (hj : funcs[j]? = some (some (subsequentCode k t ignore))) (hf : N < fuel) :
    SubCalls ⟨callAt funcs O fuel (d + 3), O.table, O.inst⟩ T t j ignore N :=
  fun p _ eof hd => callAt_subsequent h hT hO hj p eof (Nat.lt_of_le_of_lt hd hf)
end

/-- The start of a split function, in which `f` follows. -/
def startWith (T : Trie) (data : Bytes) (eof : Bool) (f : Nat → Nat → Res SplitRes) : Res SplitRes :=
  if data.length = 0 then .ok .requestMore
  else
    match T.lookupAt data 0 with
    | .error f => .error f
    | .ok (v, w) =>
      if w = 0 then
        if !eof then .ok .requestMore else finish data (.brk data.length)
      else f v w

theorem startWith_congr {T : Trie} {data : Bytes} {eof : Bool} {f f' : Nat → Nat → Res SplitRes} {r : SplitRes}
    (hr : startWith T data eof f = .ok r) (h : ∀ v w r, f v w = .ok r → f' v w = .ok r) : startWith T data eof f' = startWith T data eof f := by
  rw [hr]
  unfold startWith at hr ⊢
  split
  · rename_i c; rw [if_pos c] at hr; exact hr
  · rename_i c
    rw [if_neg c] at hr
    cases e : T.lookupAt data 0 with
    | error f => rw [e] at hr; cases hr
    | ok x =>
      obtain ⟨v, w⟩ := x
      simp only [e] at hr ⊢
      split
      · rename_i c; rw [if_pos c] at hr; exact hr
      · rename_i c; rw [if_neg c] at hr; exact h _ _ _ hr

theorem finish_fuel {σ : Type} {step : σ → Step σ} {data : Bytes} {n g : Nat} {s : σ} {r : SplitRes}
    (h : finish data (runLoop step n s) = .ok r) (hg : n ≤ g) : finish data (runLoop step g s) = .ok r := by
  rw [runLoop_mono (fuel := n) _ g hg, h]
  intro e; rw [e] at h; cases h

theorem good_ok {data : Bytes} {eof : Bool} {r : Res SplitRes} (h : GoodSplit data eof r) : ∃ x, r = .ok x := by
  rcases h with ⟨h, _⟩ | ⟨k, _, _, h⟩ <;> exact ⟨_, h⟩

theorem wrap_lt {t : IntTy} (ht : t = .uint16 ∨ t = .uint32) {v : Nat} (h : v < (if t = .uint16 then 2 ^ 16 else 2 ^ 32)) :
    wrap t v = v := by
  rcases ht with rfl | rfl <;> simp [wrap] at h ⊢ <;> omega
end Uax29.Source

namespace Uax29
open Source

namespace Graphemes
theorem fits : Fits trie .uint32 where
  wf := wf
  typed := .inr rfl
  small := Gen.flatten_lt (by decide +kernel)
  fits v hv := wrap_lt (.inr rfl) (Gen.flatten_lt (B := 2 ^ 32) (by decide +kernel) v hv)

theorem common : Common Code.program.funcs .uint32 2 := ⟨rfl, rfl, rfl⟩

theorem splitFunc_call {O : Outside} (hO : O.table = arrays .uint32 trie) {data : Bytes} (eof : Bool) {fuel d : Nat}
    (hf : loopFuel data ≤ fuel) :
    (callAt Code.program.funcs O fuel (d + 3) 3 (.pair (.bytes data) (.bool eof))).2 = splitRes (splitFunc data eof) := by
  rw [callAt_eq (F := Code.splitFunc) rfl, splitFunc_loop (calls_of common fits hO)]
  obtain ⟨r, hr⟩ := good_ok (splitFunc_good data eof)
  exact congrArg splitRes (startWith_congr hr fun v w r h => finish_fuel h hf)
end Graphemes

namespace Phrases
theorem fits : Fits trie .uint32 where
  wf := wf
  typed := .inr rfl
  small := Gen.flatten_lt (by decide +kernel)
  fits v hv := wrap_lt (.inr rfl) (Gen.flatten_lt (B := 2 ^ 32) (by decide +kernel) v hv)

theorem common : Common Code.program.funcs .uint32 2 := ⟨rfl, rfl, rfl⟩

theorem splitFunc_call {O : Outside} (hO : O.table = arrays .uint32 trie) {data : Bytes} (eof : Bool) {fuel d : Nat}
    (hf : loopFuel data ≤ fuel) :
    (callAt Code.program.funcs O fuel (d + 4) 3 (.pair (.bytes data) (.bool eof))).2 = splitRes (splitFunc data eof) := by
  rw [callAt_eq (F := Code.splitFunc) rfl, splitFunc_loop (calls_of (d := d + 1) common fits hO)
    (subCalls_of (j := 4) (ignore := _Ignore) common fits hO rfl (by unfold loopFuel at hf; omega))]
  obtain ⟨r, hr⟩ := good_ok (splitFunc_good data eof)
  exact congrArg splitRes (startWith_congr hr fun v w r h => finish_fuel h hf)
end Phrases

namespace Sentences
theorem fits : Fits trie .uint16 where
  wf := wf
  typed := .inl rfl
  small := Gen.flatten_lt (by decide +kernel)
  fits v hv := wrap_lt (.inl rfl) (Gen.flatten_lt (B := 2 ^ 16) (by decide +kernel) v hv)

theorem common : Common Code.program.funcs .uint16 2 := ⟨rfl, rfl, rfl⟩

theorem splitFunc_call {O : Outside} (hO : O.table = arrays .uint16 trie) {data : Bytes} (eof : Bool) {fuel d : Nat}
    (hf : loopFuel data ≤ fuel) :
    (callAt Code.program.funcs O fuel (d + 4) 3 (.pair (.bytes data) (.bool eof))).2 = splitRes (splitFunc data eof) := by
  rw [callAt_eq (F := Code.splitFunc) rfl, splitFunc_loop (calls_of (d := d + 1) common fits hO)
    (subCalls_of (j := 4) (ignore := _Ignore) common fits hO rfl (by unfold loopFuel at hf; omega)) (by unfold loopFuel at hf; omega)]
  obtain ⟨r, hr⟩ := good_ok (splitFunc_good data eof)
  exact congrArg splitRes (startWith_congr hr fun v w r h => finish_fuel h hf)
end Sentences

namespace Words
theorem fits : Fits trie .uint32 where
  wf := wf
  typed := .inr rfl
  small := Gen.flatten_lt (by decide +kernel)
  fits v hv := wrap_lt (.inr rfl) (Gen.flatten_lt (B := 2 ^ 32) (by decide +kernel) v hv)

theorem common : Common Code.program.funcs .uint32 4 := ⟨rfl, rfl, rfl⟩

theorem joinersSplitFunc_call {O : Outside} (hO : O.table = arrays .uint32 trie) (j : Option Joiners) {data : Bytes} (eof : Bool)
    {fuel d : Nat} (hf : loopFuel data ≤ fuel)
    (hj : ∀ l, j.bind Joiners.middle = some l ∨ j.bind Joiners.leading = some l → l.length < fuel) :
    (callAt Code.program.funcs O fuel (d + 4) 7 (.pair (joinersVal j) (.pair (.bytes data) (.bool eof)))).2
      = splitRes (joinersSplitFunc j data eof) := by
  rw [callAt_eq (F := Code.msplitFunc) rfl, joinersSplitFunc_loop (calls_of (d := d + 1) common fits hO)
    (subCalls_of (j := 8) (ignore := _Ignore) common fits hO rfl (by unfold loopFuel at hf; omega))
    ⟨fun l hl r => by
      show (callAt Code.program.funcs O fuel (d + 3) 3 _).2 = _
      rw [callAt_eq (F := Code.runesContain) rfl]
      exact runesContain_run l r (hj l hl), fun b => by
      show (callAt Code.program.funcs O fuel (d + 3) 5 _).2 = _
      rw [callAt_eq (F := Code.decodeRune) rfl]
      exact decodeRune_run b⟩]
  obtain ⟨r, hr⟩ := good_ok (splitFunc_good j data eof)
  refine congrArg splitRes (startWith_congr hr fun v w r h => ?_)
  revert h
  cases applyJoiner (j.bind Joiners.leading) _AHLetter data 0 v with
  | error f => intro h; cases h
  | ok c => exact fun h => finish_fuel h hf

theorem splitFunc_call {O : Outside} (hO : O.table = arrays .uint32 trie) {data : Bytes} (eof : Bool) {fuel d : Nat}
    (hf : loopFuel data ≤ fuel) :
    (callAt Code.program.funcs O fuel (d + 5) 6 (.pair (.bytes data) (.bool eof))).2 = splitRes (splitFunc data eof) := by
  rw [callAt_eq (F := Code.splitFunc) rfl, run_eq (vs := [.bytes data, .bool eof]) rfl]
  show ((exec _ fuel Code.splitFunc.body [.bytes data, .bool eof, .nil, .nil, .nil, .nil]).result [some .int, none, none]).2 = _
  unfold Code.splitFunc Code.splitFunc_s0 Code.splitFunc_s1 Code.splitFunc_s2 Code.splitFunc_s3 Code.splitFunc_s4
  have := joinersSplitFunc_call hO (some ⟨none, none⟩) eof (d := d) hf (by rintro l (h | h) <;> cases h)
  simp only [joinersVal, runesVal] at this
  go_run [this]
  show _ = splitRes (joinersSplitFunc (some ⟨none, none⟩) data eof)
  cases joinersSplitFunc (some ⟨none, none⟩) data eof <;> rfl
end Words
end Uax29
