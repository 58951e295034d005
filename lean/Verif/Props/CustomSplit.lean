import Verif.Spec.CustomSplit
import Verif.Proofs.Ascii
import Verif.Proofs.Splits
import Verif.Model.IntIter
/-! # Properties C32, C44 and C45: split functions of the user -/
namespace Uax29
open Spec

theorem Spec.WellBehaved.goodFn {f : SplitFn} (h : WellBehaved f) : GoodFn f := by
  intro d hd
  obtain ⟨tok, rest, rfl, h1, h2⟩ := h d hd
  exact ⟨tok.length, _, List.length_pos_iff.mpr h1, by simp, h2⟩

theorem isAlnum_iff (b : UInt8) : Words.isASCIIAlphanumeric b = true ↔ asciiAlnum b := by
  simp [Words.isASCIIAlphanumeric, asciiAlnum, UInt8.le_iff_toNat_le]
  omega

/-- The iterator of package words with the split function `f`, over `data`. -/
def wordsSplit (f : SplitFn) (data : Bytes) : Iter := (Words.fromBytes data).setSplit f

/-- A fast word at the front is what the fast path takes. -/
theorem fast_adv (f : SplitFn) {tok rest : Bytes} (h : FastWord tok rest) : Words.adv f (tok ++ rest) = tok.length := by
  obtain ⟨hne, hal, hr⟩ := h
  obtain ⟨b, tok, rfl⟩ := List.exists_cons_of_ne_nil hne
  have hcount : ∀ (tok : Bytes), (∀ b ∈ tok, asciiAlnum b) →
      countWhile Words.isASCIIAlphanumeric (tok ++ rest) = tok.length := by
    intro tok
    induction tok with
    | nil =>
      intro _
      cases rest with
      | nil => rfl
      | cons x rest =>
        rcases hr with hr | hr
        · cases hr
        · simp only [List.head?_cons, Option.some.injEq] at hr
          subst hr
          rfl
    | cons a tok ih =>
      intro h
      rw [List.cons_append, countWhile, if_pos ((isAlnum_iff a).mpr (h a List.mem_cons_self)),
        ih fun b hb => h b (List.mem_cons_of_mem _ hb)]
      rfl
  simp only [List.cons_append, Words.adv]
  rw [if_pos ((isAlnum_iff b).mpr (hal b List.mem_cons_self)),
    hcount tok fun b hb => hal b (List.mem_cons_of_mem _ hb), if_pos]
  · simp [Nat.add_comm]
  · rcases hr with rfl | hr
    · simp [Nat.add_comm]
    · simp only [Bool.or_eq_true]
      right
      rw [Nat.add_comm, List.getElem?_cons_succ, List.getElem?_append_right (Nat.le_refl _), Nat.sub_self,
        ← List.head?_eq_getElem?, hr]
      rfl

/-- Without one, the split function is asked. -/
theorem slow_adv (f : SplitFn) {d : Bytes} (h : ∀ a b, d = a ++ b → ¬ FastWord a b) : Words.adv f d = splitAdv f d ∨ d = [] := by
  cases d with
  | nil => exact .inr rfl
  | cons b d =>
    left
    simp only [Words.adv]
    split
    · rename_i hb
      split
      · rename_i he
        exfalso
        obtain ⟨run, rest, rfl, h2, h3, h4⟩ := countWhile_split Words.isASCIIAlphanumeric d
        refine h (b :: run) rest (by simp) ⟨by simp, ?_, ?_⟩
        · intro x hx
          rcases List.mem_cons.mp hx with rfl | hx
          · exact (isAlnum_iff x).mp hb
          · exact (isAlnum_iff x).mp (h3 x hx)
        · rw [h2] at he
          simp only [Bool.or_eq_true, decide_eq_true_eq, List.length_cons, List.length_append, beq_iff_eq] at he
          rcases he with he | he
          · left
            exact List.length_eq_zero_iff.mp (by omega)
          · right
            rw [Nat.add_comm, List.getElem?_cons_succ, List.getElem?_append_right (Nat.le_refl _), Nat.sub_self,
              ← List.head?_eq_getElem?] at he
            exact he
      · rfl
    · rfl

theorem splitAdv_tok {f : SplitFn} {d tok : Bytes} (h : f d true = .ok ⟨tok.length, some tok, none⟩) :
    splitAdv f d = tok.length := by
  simp [splitAdv, h]

/-- C32, what happens in all cases: the tokens are fast words where there is one, and what `f` gives
elsewhere. -/
theorem C32_general (f : SplitFn) (hf : WellBehaved f) (data : Bytes) :
    ∃ ts, tokensWith Words.next (wordsSplit f data) = .ok ts ∧ FastSplits f data ts := by
  have hspec := Words.next_spec (WellBehaved.goodFn hf)
  refine ⟨_, hspec.tokensWith_eq (it := wordsSplit f data) rfl, ?_⟩
  show FastSplits f data (segs (Words.adv f) data)
  induction data using hspec.goodAdv.induction with
  | hnil => rw [segs_nil]; exact .nil
  | hcons d hd ih =>
    rw [hspec.goodAdv.segs_cons hd]
    by_cases h : ∃ a b, d = a ++ b ∧ FastWord a b
    · obtain ⟨a, b, rfl, hw⟩ := h
      rw [fast_adv f hw] at ih ⊢
      rw [List.take_left, List.drop_left] at *
      exact .fast hw ih
    · have hn : ∀ a b, d = a ++ b → ¬ FastWord a b := fun a b h1 h2 => h ⟨a, b, h1, h2⟩
      obtain ⟨tok, rest, rfl, hne, hfirst⟩ := hf d hd
      have ha : Words.adv f (tok ++ rest) = tok.length :=
        ((slow_adv f hn).resolve_right hd).trans (splitAdv_tok hfirst)
      rw [ha] at ih ⊢
      rw [List.take_left, List.drop_left] at *
      exact .slow hne hn hfirst ih

/-- C32 for split functions that take fast words too. Missing: other split functions, for which the
statement is false, see `C32_fails`; `C32_general` says what happens then. -/
theorem C32_partial (f : SplitFn) (hf : WellBehaved f)
    (hfast : ∀ tok rest, FastWord tok rest → f (tok ++ rest) true = .ok ⟨tok.length, some tok, none⟩) (data : Bytes) :
    ∃ ts, tokensWith Words.next (wordsSplit f data) = .ok ts ∧ Splits f data ts ∧ ∀ us, Splits f data us → us = ts := by
  obtain ⟨ts, h1, h2⟩ := C32_general f hf data
  have h3 : Splits f data ts := by
    clear h1
    induction h2 with
    | nil => exact .nil
    | fast word _ ih => exact .cons word.1 (hfast _ _ word) ih
    | slow ne _ first _ ih => exact .cons ne first ih
  exact ⟨ts, h1, h3, fun us h => h.unique h3⟩

/-- A split function that takes one byte at a time. -/
def byteSplit : SplitFn := fun d _ =>
  match d with
  | [] => .ok ⟨0, none, none⟩
  | b :: _ => .ok ⟨1, some [b], none⟩

/-- C32 fails: a split function that takes one byte at a time is not asked about `ab`. -/
theorem C32_fails : ∃ f, WellBehaved f ∧ ∃ data ts, Splits f data ts
    ∧ tokensWith Words.next (wordsSplit f data) ≠ .ok ts := by
  refine ⟨byteSplit, ?_, [0x61, 0x62], [[0x61], [0x62]], ?_, by decide +kernel⟩
  · intro d hd
    obtain ⟨b, d, rfl⟩ := List.exists_cons_of_ne_nil hd
    exact ⟨[b], d, rfl, by simp, rfl⟩
  · exact .cons (tok := [0x61]) (by simp) rfl (.cons (tok := [0x62]) (rest := []) (by simp) rfl .nil)

-- "ab, c": `ab` is not followed by a space, so the split function is asked; `c` is taken by the fast path.
example : tokensWith Words.next (wordsSplit byteSplit (utf8 "ab, c".toList))
    = .ok [[0x61], [0x62], [0x2C], [0x20], [0x63]] := by decide +kernel
example : tokensWith Words.next (wordsSplit byteSplit (utf8 "ab c".toList))
    = .ok [[0x61, 0x62], [0x20], [0x63]] := by decide +kernel

/-! ## the iterator in internal/iterators -/

/-- `Next` of the internal iterator where there is data left. -/
theorem Generic.next_lt {it : Iter} (h : GoodFn it.split) (hp : it.pos < it.data.length) :
    Generic.next it
      = ({ it with start := it.pos, pos := it.pos + splitAdv it.split (it.data.drop it.pos) }, .ret true) := by
  have hd : it.data.drop it.pos ≠ [] := by simp; omega
  obtain ⟨k, tok, h1, h2, h3⟩ := h _ hd
  have h2' : k ≤ it.data.length - it.pos := by simpa using h2
  have h4 : splitAdv it.split (it.data.drop it.pos) = k := by
    simp only [splitAdv, h3, Int.ofNat_eq_natCast, Int.toNat_natCast]
  have h5 : ¬ ((k : Int) ≤ 0) := by omega
  have h6 : ¬ (it.pos + k > it.data.length) := by omega
  simp only [Generic.next]
  rw [if_neg (by omega), if_neg (by omega), sliceFrom_ok (Nat.le_of_lt hp)]
  dsimp only
  split
  · rename_i hl
    simp only [List.length_drop] at hl
    rw [h4, show k = 1 by omega]
  · simp only [h3, h4, if_neg h5, Int.ofNat_eq_natCast, Int.toNat_natCast, if_neg h6]

theorem Generic.collect_eq : ∀ (fuel : Nat) (it : Iter), GoodFn it.split → it.pos ≤ it.data.length →
    it.data.length - it.pos < fuel →
    collect Generic.next fuel it = .ok (segs (splitAdv it.split) (it.data.drop it.pos))
  | 0, it, _, _, hf => by omega
  | fuel + 1, it, h, hp, hf => by
    simp only [collect]
    by_cases hlt : it.pos < it.data.length
    · have hd : it.data.drop it.pos ≠ [] := by simp; omega
      have h1 := (h.adv hd).1
      have h2 := (h.adv hd).2
      simp only [List.length_drop] at h2
      rw [Generic.next_lt h hlt]
      dsimp only
      rw [value_ok (by simp) (by simp; omega), Generic.collect_eq fuel ⟨it.split, it.data, it.pos + splitAdv it.split (it.data.drop it.pos), it.pos⟩ h
          (by dsimp only; omega) (by dsimp only; omega),
        GoodAdv.segs_cons ⟨fun d hd => (h.adv hd).1, fun d hd => (h.adv hd).2⟩ hd]
      simp [List.drop_drop]
    · have : it.pos = it.data.length := by omega
      have hn : Generic.next it = (it, .ret false) := by simp [Generic.next, this]
      rw [hn]
      simp [this, segs_nil]

theorem splits_wellBehaved {f : SplitFn} (hf : WellBehaved f) (data : Bytes) :
    Splits f data (segs (splitAdv f) data) := by
  have hg : GoodAdv (splitAdv f) := ⟨fun _ hd => (hf.goodFn.adv hd).1, fun _ hd => (hf.goodFn.adv hd).2⟩
  induction data using hg.induction with
  | hnil => rw [segs_nil]; exact .nil
  | hcons d hd ih =>
    rw [hg.segs_cons hd]
    obtain ⟨tok, rest, rfl, hne, hfirst⟩ := hf d hd
    rw [splitAdv_tok hfirst] at ih ⊢
    rw [List.take_left, List.drop_left] at *
    exact .cons hne hfirst ih

/-- C44: the tokens of the internal iterator are those its split function gives when applied repeatedly. -/
theorem C44_tokens (f : SplitFn) (hf : WellBehaved f) (data : Bytes) :
    ∃ ts, tokensWith Generic.next (Generic.new f data) = .ok ts ∧ Splits f data ts := by
  have := Generic.collect_eq (data.length + 1) (Generic.new f data) hf.goodFn (by simp [Generic.new])
    (by simp [Generic.new])
  exact ⟨_, this, splits_wellBehaved hf data⟩

/-- C44, `First` of the internal iterator is the first token, wherever the iterator stands; on the
empty text it is the empty text. -/
theorem C44_first (f : SplitFn) (hf : WellBehaved f) (data : Bytes) (pos start : Nat) :
    ∃ ts, Splits f data ts ∧ Generic.first ⟨f, data, pos, start⟩ = .ok (ts.head?.getD []) := by
  refine ⟨_, splits_wellBehaved hf data, ?_⟩
  by_cases hd : data = []
  · subst hd
    simp [Generic.first, segs_nil]
  · have hg : GoodAdv (splitAdv f) := ⟨fun _ hd => (hf.goodFn.adv hd).1, fun _ hd => (hf.goodFn.adv hd).2⟩
    obtain ⟨k, tok, h1, h2, h3⟩ := hf.goodFn data hd
    have h4 : splitAdv f data = k := by
      simp only [splitAdv, h3, Int.ofNat_eq_natCast, Int.toNat_natCast]
    have h5 : ¬ ((k : Int) ≤ 0) := by omega
    have h6 : ¬ ((k : Int) > (data.length : Int)) := by omega
    have h7 : data.length ≠ 0 := by simpa using hd
    rw [hg.segs_cons hd, h4]
    simp only [Generic.first, if_neg h7, h3, Int.ofNat_eq_natCast, if_neg h5, if_neg h6, Int.toNat_natCast]
    simp [sliceTo, h2]

example : tokensWith Generic.next (Generic.new byteSplit [0x61, 0x62]) = .ok [[0x61], [0x62]] := by decide +kernel
example : Generic.first (Generic.new byteSplit [0x61, 0x62]) = .ok [0x61] := by decide +kernel

/-! ## any split function -/

/-- `SafeInt` below for positions that are natural numbers. -/
def SafeNext (it : Iter) (r : Iter × NextOut) : Prop :=
  match r.2 with
  | .ret false => r.1 = it ∧ it.pos = it.data.length
  | .ret true => r.1.data = it.data ∧ r.1.split = it.split ∧ r.1.start = it.pos ∧ it.pos < r.1.pos
      ∧ r.1.pos ≤ it.data.length ∧ ∃ v, r.1.value = .ok v ∧ v ≠ [] ∧ it.data = it.data.take it.pos ++ v ++ it.data.drop r.1.pos
  | .fault _ => r.1.data = it.data ∧ r.1.split = it.split ∧ it.pos < it.data.length

theorem safe_moved {it it' : Iter} (h1 : it'.data = it.data) (h2 : it'.split = it.split) (h3 : it'.start = it.pos)
    (h4 : it.pos < it'.pos) (h5 : it'.pos ≤ it.data.length) : SafeNext it (it', .ret true) := by
  have hv := value_ok (it := it') (by omega) (by rw [h1]; exact h5)
  refine ⟨h1, h2, h3, h4, h5, _, hv, ?_, ?_⟩
  · intro h
    have := congrArg List.length h
    rw [h1, h3] at this
    simp only [List.length_take, List.length_drop, List.length_nil] at this
    omega
  · dsimp only
    rw [h1, h3, List.append_assoc]
    have : it.data.drop it'.pos = (it.data.drop it.pos).drop (it'.pos - it.pos) := by
      rw [List.drop_drop]; congr 1; omega
    rw [this, List.take_append_drop, List.take_append_drop]

theorem callSplit_safe {it : Iter} (hp : it.pos < it.data.length) (hs : it.start = it.pos) (it0 : Iter)
    (h0 : it = { it0 with start := it0.pos }) : SafeNext it0 it.callSplit := by
  subst h0
  simp only at hp hs
  unfold Iter.callSplit
  rw [sliceFrom_ok (Nat.le_of_lt hp)]
  dsimp only
  split
  · exact ⟨rfl, rfl, hp⟩
  split
  · exact ⟨rfl, rfl, hp⟩
  split
  · exact ⟨rfl, rfl, hp⟩
  split
  · exact ⟨rfl, rfl, hp⟩
  · rename_i h1 h2
    refine safe_moved rfl rfl rfl ?_ ?_
    · dsimp only; omega
    · dsimp only at h2 ⊢; omega

theorem safe_words (it : Iter) (hp : it.pos ≤ it.data.length) : SafeNext it (Words.next it) := by
  unfold Words.next
  split
  · exact ⟨rfl, by omega⟩
  · rename_i hlt
    dsimp only
    rw [index_ok (by omega)]
    dsimp only
    split
    · split
      · refine safe_moved rfl rfl rfl ?_ ?_
        · dsimp only; omega
        · have := countWhile_le Words.isASCIIAlphanumeric (it.data.drop (it.pos + 1))
          simp only [List.length_drop] at this
          dsimp only
          omega
      · exact callSplit_safe (by dsimp only; omega) rfl it rfl
    · exact callSplit_safe (by dsimp only; omega) rfl it rfl

theorem safe_internal (it : Iter) (hp : it.pos ≤ it.data.length) : SafeNext it (Generic.next it) := by
  unfold Generic.next
  split
  · exact ⟨rfl, by omega⟩
  rename_i hne
  have hlt : it.pos < it.data.length := by omega
  rw [if_neg (by omega)]
  dsimp only
  rw [sliceFrom_ok hp]
  dsimp only
  split
  · exact safe_moved rfl rfl rfl (by simp) (by simp; omega)
  split
  · exact ⟨rfl, rfl, hlt⟩
  split
  · exact ⟨rfl, rfl, hlt⟩
  split
  · exact ⟨rfl, rfl, hlt⟩
  split
  · exact ⟨rfl, rfl, hlt⟩
  · rename_i h1 h2
    refine safe_moved rfl rfl rfl ?_ ?_
    · dsimp only; omega
    · dsimp only at h2 ⊢; omega

/-- The iterator with natural numbers as one with `int`s. -/
abbrev toInt (it : Iter) : IntIter := ⟨it.split, it.data, it.pos, it.start⟩

/-- `int`s that do not overflow. -/
theorem wrap64_of_lt {n : Int} (h : 0 ≤ n) (h' : n < 2 ^ 63) : wrap64 n = n := by
  unfold wrap64
  omega

/-- What may happen to an iterator in a call of `Next`, whatever the split function does: it is at the
end and stays there, it moves over at least one byte and stays within the text, or it panics. -/
def SafeInt (it : IntIter) (r : IntIter × NextOut) : Prop :=
  match r.2 with
  | .ret false => r.1 = it ∧ it.pos = it.data.length
  | .ret true => r.1.data = it.data ∧ r.1.split = it.split ∧ r.1.start = it.pos ∧ it.pos < r.1.pos
      ∧ r.1.pos ≤ it.data.length
      ∧ ∃ v, r.1.value = .ok v ∧ v ≠ [] ∧ it.data = it.data.take it.pos.toNat ++ v ++ it.data.drop r.1.pos.toNat
  | .fault _ => r.1.data = it.data ∧ r.1.split = it.split ∧ it.pos < it.data.length

/-- The function does not return, for the rest of the text, an `int` so large that it overflows when added to the
position. -/
def NoOverflow (f : SplitFn) (data : Bytes) (pos : Nat) : Prop :=
  ∀ r, f (data.drop pos) true = .ok r → pos + r.advance < 2 ^ 63

theorem value_toInt (it : Iter) : (toInt it).value = it.value := by
  simp only [IntIter.value, sliceFromToInt, Iter.value]
  rw [if_neg (by omega)]
  simp

theorem callSplit_toInt {it : Iter} (ho : NoOverflow it.split it.data it.pos) :
    (toInt it).callSplit = (toInt it.callSplit.1, it.callSplit.2) := by
  simp only [IntIter.callSplit, Iter.callSplit, toInt, sliceFromInt]
  rw [if_neg (by omega), Int.toNat_natCast]
  cases hd : sliceFrom it.data it.pos with
  | error f => rfl
  | ok d =>
    dsimp only
    have hdd : d = it.data.drop it.pos := by
      unfold sliceFrom at hd
      split at hd
      · exact (Except.ok.inj hd).symm
      · cases hd
    subst hdd
    cases hs : it.split (it.data.drop it.pos) true with
    | error f => rfl
    | ok r =>
      dsimp only
      have := ho r hs
      cases r.err with
      | some e => rfl
      | none =>
        dsimp only
        by_cases ha : r.advance ≤ 0
        · simp only [if_pos ha]
        · have hc : ((it.pos + r.advance.toNat : Nat) : Int) = it.pos + r.advance := by omega
          simp only [if_neg ha]
          rw [wrap64_of_lt (by omega) this, ← hc]
          by_cases hg : it.pos + r.advance.toNat > it.data.length
          · rw [if_pos hg, if_pos (by omega)]
          · rw [if_neg hg, if_neg (by omega)]

/-- Without overflow, `Next` with `int`s is `Next` with natural numbers. -/
theorem wordsNext_toInt {it : Iter} (hd : it.data.length < 2 ^ 63) (ho : NoOverflow it.split it.data it.pos) :
    (toInt it).wordsNext = (toInt (Words.next it).1, (Words.next it).2) := by
  have hcs := callSplit_toInt (it := { it with start := it.pos }) ho
  simp only [toInt] at hcs
  simp only [IntIter.wordsNext, Words.next, toInt, indexInt]
  by_cases hp : it.pos ≥ it.data.length
  · rw [if_pos hp, if_pos (by omega)]
  · rw [if_neg hp, if_neg (by omega), if_neg (by omega), Int.toNat_natCast, index_ok (by omega)]
    dsimp only
    split
    · have hcw := countWhile_le Words.isASCIIAlphanumeric (it.data.drop (it.pos + 1))
      simp only [List.length_drop] at hcw
      rw [show ((it.pos : Int) + 1).toNat = it.pos + 1 by omega]
      generalize countWhile Words.isASCIIAlphanumeric (it.data.drop (it.pos + 1)) = n at *
      have hc : ((it.pos + 1 + n : Nat) : Int) = (it.pos : Int) + 1 + n := by omega
      rw [← hc, wrap64_of_lt (by omega) (by omega), Int.toNat_natCast]
      have hiff : (((it.pos + 1 + n : Nat) : Int) ≥ (it.data.length : Int)) ↔ it.pos + 1 + n ≥ it.data.length := by omega
      simp only [hiff]
      split
      · rfl
      · exact hcs
    · exact hcs

/-- The same for the internal iterator. -/
theorem internalNext_toInt {it : Iter} (hd : it.data.length < 2 ^ 63) (ho : NoOverflow it.split it.data it.pos) :
    (toInt it).internalNext = (toInt (Generic.next it).1, (Generic.next it).2) := by
  simp only [IntIter.internalNext, Generic.next, toInt, sliceFromInt]
  by_cases h1 : it.pos = it.data.length
  · rw [if_pos h1, if_pos (by omega)]
  rw [if_neg h1, if_neg (by omega)]
  by_cases h2 : it.pos > it.data.length
  · rw [if_pos h2, if_pos (by omega)]
  rw [if_neg h2, if_neg (by omega), if_neg (by omega), Int.toNat_natCast, sliceFrom_ok (by omega)]
  dsimp only
  split
  · rw [wrap64_of_lt (by omega) (by omega)]
    rfl
  · cases hs : it.split (it.data.drop it.pos) true with
    | error f => rfl
    | ok r =>
      dsimp only
      have := ho r hs
      cases r.err with
      | some e => rfl
      | none =>
        dsimp only
        by_cases ha : r.advance ≤ 0
        · simp only [if_pos ha]
        · have hc : ((it.pos + r.advance.toNat : Nat) : Int) = it.pos + r.advance := by omega
          simp only [if_neg ha]
          rw [wrap64_of_lt (by omega) this, ← hc]
          by_cases hg : it.pos + r.advance.toNat > it.data.length
          · rw [if_pos hg, if_pos (by omega)]
          · rw [if_neg hg, if_neg (by omega)]

theorem safeInt_of {it : Iter} {r : Iter × NextOut} (h : SafeNext it r) : SafeInt (toInt it) (toInt r.1, r.2) := by
  obtain ⟨it', o⟩ := r
  cases o with
  | fault f => exact ⟨h.1, h.2.1, by have := h.2.2; dsimp only; omega⟩
  | ret b =>
    cases b with
    | false =>
      obtain ⟨h1, h2⟩ := h
      exact ⟨congrArg toInt h1, by dsimp only; omega⟩
    | true =>
      obtain ⟨h1, h2, h3, h4, h5, v, h6, h7, h8⟩ := h
      refine ⟨h1, h2, ?_, ?_, ?_, v, (value_toInt it').trans h6, h7, ?_⟩
      · dsimp only at h3 ⊢; omega
      · dsimp only at h4 ⊢; omega
      · dsimp only at h5 ⊢; omega
      · simpa only [toInt, Int.toNat_natCast] using h8

/-- C45 for package words if the sum of position and advance does not overflow. Missing: an advance of nearly 2^63,
for which it is false, see `C45_fails`; `C45_words_value` is what holds for all functions. -/
theorem C45_words_partial (f : SplitFn) (data : Bytes) (hd : data.length < 2 ^ 63) (pos start : Nat) (hp : pos ≤ data.length)
    (ho : NoOverflow f data pos) : SafeInt ⟨f, data, pos, start⟩ (IntIter.wordsNext ⟨f, data, pos, start⟩) := by
  have := wordsNext_toInt (it := ⟨f, data, pos, start⟩) hd ho
  rw [toInt] at this
  rw [this]
  exact safeInt_of (safe_words ⟨f, data, pos, start⟩ hp)

/-- C45 for the internal iterator, likewise. -/
theorem C45_internal_partial (f : SplitFn) (data : Bytes) (hd : data.length < 2 ^ 63) (pos start : Nat)
    (hp : pos ≤ data.length) (ho : NoOverflow f data pos) :
    SafeInt ⟨f, data, pos, start⟩ (IntIter.internalNext ⟨f, data, pos, start⟩) := by
  have := internalNext_toInt (it := ⟨f, data, pos, start⟩) hd ho
  rw [toInt] at this
  rw [this]
  exact safeInt_of (safe_internal ⟨f, data, pos, start⟩ hp)

/-- The function returns `int`s. -/
def ReturnsInts (f : SplitFn) : Prop := ∀ d e r, f d e = .ok r → -2 ^ 63 ≤ r.advance ∧ r.advance < 2 ^ 63

/-- What may happen in a call of `Next` with any function that returns `int`s: also that `Next` returns true although
the position has become negative; then `Value` panics. -/
def SafeOrNegative (it : IntIter) (r : IntIter × NextOut) : Prop :=
  SafeInt it r ∨ (r.2 = .ret true ∧ r.1.data = it.data ∧ r.1.pos < 0 ∧ r.1.value = .error .bounds)

theorem wrap64_overflow {n : Int} (h : 2 ^ 63 ≤ n) (h' : n < 2 ^ 64) : wrap64 n = n - 2 ^ 64 := by
  unfold wrap64
  omega

theorem negative_of {it : IntIter} (h : it.pos < 0) : it.value = .error .bounds := by
  rw [IntIter.value, sliceFromToInt, if_pos (Or.inr h)]

theorem callSplit_overflow {f : SplitFn} {data : Bytes} {pos start : Nat} (hd : data.length < 2 ^ 63) (hp : pos ≤ data.length)
    {r : SplitRes} (hs : f (data.drop pos) true = .ok r) (ha : r.advance < 2 ^ 63) (ho : 2 ^ 63 ≤ pos + r.advance) :
    IntIter.callSplit ⟨f, data, pos, start⟩ =
      match r.err with
      | some e => (⟨f, data, pos, start⟩, .fault (.panic e))
      | none => (⟨f, data, pos + r.advance - 2 ^ 64, start⟩, .ret true) := by
  simp only [IntIter.callSplit, sliceFromInt]
  rw [if_neg (by omega), Int.toNat_natCast, sliceFrom_ok hp]
  dsimp only
  rw [hs]
  dsimp only
  rw [wrap64_overflow ho (by omega), if_neg (by omega), if_neg (by omega)]
  cases r.err <;> rfl

/-- `Next` of package words either calls the split function or has found a word of ASCII letters and digits. -/
theorem wordsNext_cases (f : SplitFn) (data : Bytes) (hd : data.length < 2 ^ 63) (pos start : Nat) (hp : pos < data.length) :
    IntIter.wordsNext ⟨f, data, pos, start⟩ = IntIter.callSplit ⟨f, data, pos, pos⟩ ∨
      ∃ e : Nat, pos < e ∧ e ≤ data.length ∧ IntIter.wordsNext ⟨f, data, pos, start⟩ = (⟨f, data, e, pos⟩, .ret true) := by
  simp only [IntIter.wordsNext, indexInt]
  rw [if_neg (by omega), if_neg (by omega), Int.toNat_natCast, index_ok hp]
  dsimp only
  split
  · have hcw := countWhile_le Words.isASCIIAlphanumeric (data.drop (pos + 1))
    simp only [List.length_drop] at hcw
    rw [show ((pos : Int) + 1).toNat = pos + 1 by omega]
    generalize countWhile Words.isASCIIAlphanumeric (data.drop (pos + 1)) = n at *
    have hc : ((pos + 1 + n : Nat) : Int) = (pos : Int) + 1 + n := by omega
    rw [← hc, wrap64_of_lt (by omega) (by omega)]
    split
    · exact .inr ⟨pos + 1 + n, by omega, by omega, rfl⟩
    · exact .inl rfl
  · exact .inl rfl

theorem safeInt_move {f : SplitFn} {data : Bytes} {pos start e : Nat} (h : pos < e) (h' : e ≤ data.length) :
    SafeInt ⟨f, data, pos, start⟩ (⟨f, data, e, pos⟩, .ret true) := by
  refine ⟨rfl, rfl, rfl, by dsimp only; omega, by dsimp only; omega, (data.drop pos).take (e - pos), ?_, ?_, ?_⟩
  · simp only [IntIter.value, sliceFromToInt]
    rw [if_neg (by omega), Int.toNat_natCast, Int.toNat_natCast, sliceFromTo, if_pos (by omega)]
  · intro hn
    have := congrArg List.length hn
    simp only [List.length_take, List.length_drop, List.length_nil] at this
    omega
  · simp only [Int.toNat_natCast]
    rw [List.append_assoc, show data.drop e = (data.drop pos).drop (e - pos) by
      rw [List.drop_drop]; congr 1; omega, List.take_append_drop, List.take_append_drop]

/-- C45 for package words, what holds for all functions: when `Next` returns true, `Value` is the piece of the text
from the old position to the new one, or it panics. -/
theorem C45_words_any_partial (f : SplitFn) (hf : ReturnsInts f) (data : Bytes) (hd : data.length < 2 ^ 63) (pos start : Nat)
    (hp : pos ≤ data.length) : SafeOrNegative ⟨f, data, pos, start⟩ (IntIter.wordsNext ⟨f, data, pos, start⟩) := by
  cases hs : f (data.drop pos) true with
  | error e => exact .inl (C45_words_partial f data hd pos start hp (fun r hr => by rw [hs] at hr; cases hr))
  | ok r =>
    by_cases ho : pos + r.advance < 2 ^ 63
    · exact .inl (C45_words_partial f data hd pos start hp (fun r' hr => by rw [hs] at hr; cases hr; exact ho))
    · have hr := (hf _ _ _ hs).2
      by_cases he : pos = data.length
      · refine .inl ?_
        rw [IntIter.wordsNext, if_pos (by dsimp only; omega)]
        exact ⟨rfl, by dsimp only; omega⟩
      rcases wordsNext_cases f data hd pos start (by omega) with h | ⟨e, h1, h2, h⟩
      · rw [h, callSplit_overflow hd hp hs hr (by omega)]
        cases r.err with
        | some e => exact .inl ⟨rfl, rfl, by dsimp only; omega⟩
        | none => exact .inr ⟨rfl, rfl, by dsimp only; omega, negative_of (by dsimp only; omega)⟩
      · rw [h]
        exact .inl (safeInt_move h1 h2)

/-- C45 for the internal iterator, what holds for all functions. -/
theorem C45_internal_any_partial (f : SplitFn) (hf : ReturnsInts f) (data : Bytes) (hd : data.length < 2 ^ 63)
    (pos start : Nat) (hp : pos ≤ data.length) :
    SafeOrNegative ⟨f, data, pos, start⟩ (IntIter.internalNext ⟨f, data, pos, start⟩) := by
  cases hs : f (data.drop pos) true with
  | error e => exact .inl (C45_internal_partial f data hd pos start hp (fun r hr => by rw [hs] at hr; cases hr))
  | ok r =>
    by_cases ho : pos + r.advance < 2 ^ 63
    · exact .inl (C45_internal_partial f data hd pos start hp (fun r' hr => by rw [hs] at hr; cases hr; exact ho))
    · have hr := (hf _ _ _ hs).2
      simp only [IntIter.internalNext, sliceFromInt]
      by_cases he : pos = data.length
      · rw [if_pos (by omega)]
        exact .inl ⟨rfl, by dsimp only; omega⟩
      rw [if_neg (by omega), if_neg (by omega), if_neg (by omega), Int.toNat_natCast, sliceFrom_ok hp]
      dsimp only
      by_cases h1 : (data.drop pos).length = 1
      · rw [if_pos h1, wrap64_of_lt (by omega) (by omega)]
        rw [List.length_drop] at h1
        exact .inl (safeInt_move (e := pos + 1) (by omega) (by omega))
      · rw [if_neg h1, hs]
        dsimp only
        cases r.err with
        | some e => exact .inl ⟨rfl, rfl, by dsimp only; omega⟩
        | none =>
          dsimp only
          rw [if_neg (by omega), wrap64_overflow (by omega) (by omega), if_neg (by omega)]
          exact .inr ⟨rfl, rfl, by dsimp only; omega, negative_of (by dsimp only; omega)⟩

/-- A function that first moves by one byte and then by the largest `int`. -/
def hugeAdvance : SplitFn := fun d _ => .ok ⟨if d.length = 3 then 1 else 2 ^ 63 - 1, some [0x2C], none⟩

theorem hugeAdvance_ints : ReturnsInts hugeAdvance := by
  intro d e r h
  cases h
  dsimp only
  split <;> omega

/-- C45 is violated for both iterators. The text is `,,,`. The first `Next` moves to position 1. In the second the sum
of the position and the largest `int` is negative, which is not beyond the end of the text, and `Next` returns true
instead of panicking. -/
theorem C45_fails :
    ∃ f : SplitFn, ReturnsInts f ∧ ∃ data : Bytes,
      (∃ it, IntIter.wordsNext ⟨f, data, 0, 0⟩ = (it, .ret true) ∧ (IntIter.wordsNext it).2 = .ret true
        ∧ (IntIter.wordsNext it).1.pos = -2 ^ 63 ∧ ¬ SafeInt it (IntIter.wordsNext it))
      ∧ (∃ it, IntIter.internalNext ⟨f, data, 0, 0⟩ = (it, .ret true) ∧ (IntIter.internalNext it).2 = .ret true
        ∧ (IntIter.internalNext it).1.pos = -2 ^ 63 ∧ ¬ SafeInt it (IntIter.internalNext it)) := by
  refine ⟨hugeAdvance, hugeAdvance_ints, [0x2C, 0x2C, 0x2C], ⟨⟨hugeAdvance, [0x2C, 0x2C, 0x2C], 1, 0⟩, ?_⟩,
    ⟨⟨hugeAdvance, [0x2C, 0x2C, 0x2C], 1, 0⟩, ?_⟩⟩
  · have h : IntIter.wordsNext ⟨hugeAdvance, [0x2C, 0x2C, 0x2C], 1, 0⟩ =
        (⟨hugeAdvance, [0x2C, 0x2C, 0x2C], -2 ^ 63, 1⟩, .ret true) := rfl
    refine ⟨rfl, by rw [h], by rw [h], ?_⟩
    rw [h]
    intro hs
    have := hs.2.2.2.1
    revert this
    decide
  · have h : IntIter.internalNext ⟨hugeAdvance, [0x2C, 0x2C, 0x2C], 1, 0⟩ =
        (⟨hugeAdvance, [0x2C, 0x2C, 0x2C], -2 ^ 63, 1⟩, .ret true) := rfl
    refine ⟨rfl, by rw [h], by rw [h], ?_⟩
    rw [h]
    intro hs
    have := hs.2.2.2.1
    revert this
    decide

/-- A fast word begins here: what the fast path finds without a split function. -/
theorem fast_iff (d : Bytes) : Words.adv (fun _ _ => .error .bounds) d ≠ 0 ↔ ∃ a b, d = a ++ b ∧ FastWord a b := by
  constructor
  · intro h
    refine Classical.byContradiction fun hn => h ?_
    rcases slow_adv (fun _ _ => .error .bounds) (d := d) (fun a b h1 h2 => hn ⟨a, b, h1, h2⟩) with h1 | rfl
    · rw [h1]; rfl
    · rfl
  · rintro ⟨a, b, rfl, h⟩
    rw [fast_adv _ h]
    exact fun h0 => h.1 (List.length_eq_zero_iff.mp h0)

/-- `Next` of package words takes a fast word if there is one, and otherwise calls the split function. -/
theorem wordsNext_fast (f : SplitFn) (data : Bytes) (hd : data.length < 2 ^ 63) (pos start : Nat) (hp : pos < data.length) :
    (Words.adv (fun _ _ => .error .bounds) (data.drop pos) = 0 →
      IntIter.wordsNext ⟨f, data, pos, start⟩ = IntIter.callSplit ⟨f, data, pos, pos⟩)
    ∧ (Words.adv (fun _ _ => .error .bounds) (data.drop pos) ≠ 0 → ∃ e : Nat, pos < e ∧ e ≤ data.length ∧ IntIter.wordsNext ⟨f, data, pos, start⟩ = (⟨f, data, e, pos⟩, .ret true)) := by
  simp only [IntIter.wordsNext, indexInt]
  rw [if_neg (by omega), if_neg (by omega), Int.toNat_natCast, index_ok hp]
  rw [List.drop_eq_getElem_cons hp]
  dsimp only [Words.adv]
  by_cases hb : Words.isASCIIAlphanumeric data[pos] = true
  · rw [if_pos hb, if_pos hb]
    have hcw := countWhile_le Words.isASCIIAlphanumeric (data.drop (pos + 1))
    simp only [List.length_drop] at hcw
    rw [show ((pos : Int) + 1).toNat = pos + 1 by omega]
    generalize countWhile Words.isASCIIAlphanumeric (data.drop (pos + 1)) = n at *
    have hc : ((pos + 1 + n : Nat) : Int) = (pos : Int) + 1 + n := by omega
    rw [← hc, wrap64_of_lt (by omega) (by omega), Int.toNat_natCast]
    have hsame : (data[pos] :: data.drop (pos + 1))[1 + n]? = data[pos + 1 + n]? := by
      rw [Nat.add_comm 1 n, List.getElem?_cons_succ, List.getElem?_drop]
    have hlen : (data[pos] :: data.drop (pos + 1)).length = data.length - pos := by
      simp only [List.length_cons, List.length_drop]; omega
    rw [hsame, hlen]
    have hiff : (decide (((pos + 1 + n : Nat) : Int) ≥ (data.length : Int))) = decide (1 + n ≥ data.length - pos) :=
      decide_eq_decide.mpr (by omega)
    rw [hiff]
    by_cases he : (decide (1 + n ≥ data.length - pos) || data[pos + 1 + n]? == some 0x20) = true
    · rw [if_pos he, if_pos he]
      exact ⟨fun h => by omega, fun _ => ⟨pos + 1 + n, by omega, by omega, rfl⟩⟩
    · rw [if_neg he, if_neg he]
      exact ⟨fun _ => rfl, fun h => absurd rfl h⟩
  · rw [if_neg hb, if_neg hb]
    exact ⟨fun _ => rfl, fun h => absurd rfl h⟩

/-- C45 for package words, the exact condition: there is nothing left, or a fast word, or the function has no result or
an error, or the sum does not overflow. -/
theorem C45_words_iff (f : SplitFn) (hf : ReturnsInts f) (data : Bytes) (hd : data.length < 2 ^ 63) (pos start : Nat)
    (hp : pos ≤ data.length) :
    SafeInt ⟨f, data, pos, start⟩ (IntIter.wordsNext ⟨f, data, pos, start⟩) ↔
      (pos < data.length → (∀ a b, data.drop pos = a ++ b → ¬ FastWord a b) →
        ∀ r, f (data.drop pos) true = .ok r → r.err = none → pos + r.advance < 2 ^ 63) := by
  constructor
  · intro h hlt hn r hs he
    have hfast := wordsNext_fast f data hd pos start hlt
    replace hfast := hfast.1 (Classical.byContradiction fun h0 => by
      obtain ⟨a, b, h1, h2⟩ := (fast_iff _).mp h0
      exact hn a b h1 h2)
    refine Int.not_le.mp fun ho => ?_
    rw [hfast, callSplit_overflow hd hp hs (hf _ _ _ hs).2 ho, he] at h
    have h3 := h.2.2.2.1
    have := (hf _ _ _ hs).2
    dsimp only at h3
    omega
  · intro h
    cases hs : f (data.drop pos) true with
    | error e => exact C45_words_partial f data hd pos start hp (fun r hr => by rw [hs] at hr; cases hr)
    | ok r =>
      by_cases ho : pos + r.advance < 2 ^ 63
      · exact C45_words_partial f data hd pos start hp (fun r' hr => by rw [hs] at hr; cases hr; exact ho)
      by_cases he : pos = data.length
      · rw [IntIter.wordsNext, if_pos (by dsimp only; omega)]
        exact ⟨rfl, by dsimp only; omega⟩
      have hlt : pos < data.length := by omega
      have hfast := wordsNext_fast f data hd pos start hlt
      by_cases h0 : Words.adv (fun _ _ => .error .bounds) (data.drop pos) = 0
      · replace hfast := hfast.1 h0
        have hn : ∀ a b, data.drop pos = a ++ b → ¬ FastWord a b := fun a b h1 h2 => (fast_iff _).mpr ⟨a, b, h1, h2⟩ h0
        rw [hfast, callSplit_overflow hd hp hs (hf _ _ _ hs).2 (by omega)]
        cases hr : r.err with
        | some e => exact ⟨rfl, rfl, by dsimp only; omega⟩
        | none => exact absurd (h hlt hn r hs hr) ho
      · obtain ⟨e, h1, h2, h3⟩ := hfast.2 h0
        rw [h3]
        exact safeInt_move h1 h2

/-- C45 for the internal iterator, the exact condition: there is at most one byte left, or the function has no result or
an error, or the sum does not overflow. -/
theorem C45_internal_iff (f : SplitFn) (hf : ReturnsInts f) (data : Bytes) (hd : data.length < 2 ^ 63) (pos start : Nat)
    (hp : pos ≤ data.length) :
    SafeInt ⟨f, data, pos, start⟩ (IntIter.internalNext ⟨f, data, pos, start⟩) ↔
      (pos + 1 < data.length → ∀ r, f (data.drop pos) true = .ok r → r.err = none → pos + r.advance < 2 ^ 63) := by
  by_cases he : pos + 1 < data.length
  · have hlen : (data.drop pos).length ≠ 1 := by rw [List.length_drop]; omega
    constructor
    · intro h _ r hs hr
      refine Int.not_le.mp fun ho => ?_
      have ha := (hf _ _ _ hs).2
      simp only [IntIter.internalNext, sliceFromInt] at h
      rw [if_neg (by omega), if_neg (by omega), if_neg (by omega), Int.toNat_natCast, sliceFrom_ok hp] at h
      dsimp only at h
      rw [if_neg hlen, hs] at h
      dsimp only at h
      rw [hr] at h
      dsimp only at h
      rw [if_neg (by omega), wrap64_overflow ho (by omega), if_neg (by omega)] at h
      have h3 := h.2.2.2.1
      dsimp only at h3
      omega
    · intro h
      rcases C45_internal_any_partial f hf data hd pos start hp with h1 | ⟨h1, h2, h3, _⟩
      · exact h1
      cases hs : f (data.drop pos) true with
      | error e => exact C45_internal_partial f data hd pos start hp (fun r hr => by rw [hs] at hr; cases hr)
      | ok r =>
        cases hr : r.err with
        | none => exact C45_internal_partial f data hd pos start hp (fun r' hr' => by rw [hs] at hr'; cases hr'; exact h he r hs hr)
        | some e =>
          simp only [IntIter.internalNext, sliceFromInt] at h1
          rw [if_neg (by omega), if_neg (by omega), if_neg (by omega), Int.toNat_natCast, sliceFrom_ok hp] at h1
          dsimp only at h1
          rw [if_neg hlen, hs] at h1
          dsimp only at h1
          rw [hr] at h1
          cases h1
  · refine ⟨fun _ h => absurd h he, fun _ => ?_⟩
    rcases C45_internal_any_partial f hf data hd pos start hp with h1 | ⟨h1, h2, h3, _⟩
    · exact h1
    · exfalso
      simp only [IntIter.internalNext, sliceFromInt] at h1 h3
      by_cases h0 : pos = data.length
      · rw [if_pos (by omega)] at h1
        cases h1
      · rw [if_neg (by omega), if_neg (by omega), if_neg (by omega), Int.toNat_natCast, sliceFrom_ok hp] at h3
        dsimp only at h3
        rw [if_pos (by rw [List.length_drop]; omega), wrap64_of_lt (by omega) (by omega)] at h3
        dsimp only at h3
        omega

-- With a fast word, or with one byte left, the function is not asked.
example : (IntIter.wordsNext ⟨hugeAdvance, [0x2C, 0x61, 0x62], 1, 0⟩).1.value = .ok [0x61, 0x62] := rfl
example : (IntIter.internalNext ⟨hugeAdvance, [0x2C, 0x2C], 1, 0⟩).1.value = .ok [0x2C] := rfl
-- A split function that goes too far, or does not move: `Next` panics.
example : (IntIter.wordsNext ⟨fun _ _ => .ok ⟨3, none, none⟩, [0x2C, 0x2C], 0, 0⟩).2
    = .fault (.panic "splitFunc advanced beyond end of data") := rfl
example : (IntIter.internalNext ⟨fun _ _ => .ok ⟨0, none, none⟩, [0x2C, 0x2C], 0, 0⟩).2
    = .fault (.panic "SplitFunc returned a zero or negative advance") := rfl
-- One that stays in the text.
example : ∃ it, IntIter.internalNext ⟨fun _ _ => .ok ⟨2, none, none⟩, [0x2C, 0x2C, 0x2C], 0, 0⟩ = (it, .ret true)
    ∧ it.pos = 2 ∧ it.value = .ok [0x2C, 0x2C] := ⟨_, rfl, rfl, rfl⟩
-- After an overflow `Value` panics, and so does the next call of `Next`.
example : ((IntIter.wordsNext ⟨hugeAdvance, [0x2C, 0x2C, 0x2C], 1, 0⟩).1.value) = .error .bounds := rfl
example : (IntIter.wordsNext (IntIter.wordsNext ⟨hugeAdvance, [0x2C, 0x2C, 0x2C], 1, 0⟩).1).2 = .fault .bounds := rfl

end Uax29
