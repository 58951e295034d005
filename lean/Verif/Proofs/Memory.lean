import Verif.Spec.Memory
import Verif.Props.Iteration
/-! # Lemmas on iterators over slices -/
namespace Uax29
open Spec

theorem Slice.length_bytes (m : Memory) (s : Slice) : (s.bytes m).length = s.len := by simp [Slice.bytes]

theorem Slice.getElem?_bytes (m : Memory) (s : Slice) (i : Nat) :
    (s.bytes m)[i]? = if i < s.len then some (m s.arr (s.off + i)) else none := by
  by_cases h : i < s.len
  · rw [if_pos h, Slice.bytes, List.getElem?_map, List.getElem?_range h]; rfl
  · rw [if_neg h, List.getElem?_eq_none (by rw [Slice.length_bytes]; omega)]

/-- The bytes of a part of a slice, in any memory. -/
theorem bytes_part (m : Memory) (s : Slice) {a b : Nat} (hb : b ≤ s.len) :
    (part s a b).bytes m = ((s.bytes m).drop a).take (b - a) := by
  apply List.ext_getElem?
  intro i
  rw [Slice.getElem?_bytes]
  show (if i < b - a then some (m s.arr (s.off + a + i)) else none) = _
  by_cases h : i < b - a
  · rw [if_pos h, List.getElem?_take_of_lt h, List.getElem?_drop, Slice.getElem?_bytes, if_pos (by omega)]
    rw [Nat.add_assoc]
  · rw [if_neg h, List.getElem?_eq_none]
    rw [List.length_take]
    omega

/-- Memories that agree ahead of `n` have the same bytes there. -/
theorem drop_bytes_congr {m m' : Memory} {s : Slice} {n : Nat}
    (h : ∀ a i, Ahead s n a i → m' a i = m a i) : (s.bytes m').drop n = (s.bytes m).drop n := by
  apply List.ext_getElem?
  intro i
  rw [List.getElem?_drop, List.getElem?_drop, Slice.getElem?_bytes, Slice.getElem?_bytes]
  split
  · rw [h _ _ ⟨rfl, by omega, by omega⟩]
  · rfl

namespace SliceIter

/-- The iterator field by field. -/
def mk' (p : Pkg) (c : Config p) (s : Slice) (pos start : Nat) : SliceIter p :=
  ⟨Iterator.splitOf p c, s, pos, start, Iterator.optsOf p c⟩

theorem view_mk' (p : Pkg) (c : Config p) (s : Slice) (pos start : Nat) (m : Memory) :
    (mk' p c s pos start).view m = Iterator.mk' p c (s.bytes m) pos start := rfl

theorem after_mk' (p : Pkg) (c c' : Config p) (s : Slice) (d : Bytes) (pos start pos' start' : Nat) :
    (mk' p c s pos start).after (Iterator.mk' p c' d pos' start') = mk' p c' s pos' start' := rfl

theorem fromBytes_eq (p : Pkg) (s : Slice) : fromBytes p s = mk' p (Iterator.defaultConfig p) s 0 0 := by
  cases p <;> rfl

theorem next_eq {p : Pkg} (c : Config p) (s : Slice) (pos start : Nat) (m : Memory) :
    (mk' p c s pos start).next m =
      if pos < s.len then
        (mk' p c s (pos + Iterator.advOf p c ((s.bytes m).drop pos)) pos, .ret true)
      else (mk' p c s pos start, .ret false) := by
  simp only [next, view_mk', Iterator.next_eq, Slice.length_bytes]
  split
  · rfl
  · rfl

theorem value_eq {p : Pkg} (c : Config p) (s : Slice) {pos start : Nat} (h1 : start ≤ pos) (h2 : pos ≤ s.len)
    (h3 : s.len ≤ s.cap) : (mk' p c s pos start).value = .ok (part s start pos) := by
  show Slice.sub s start pos = _
  rw [Slice.sub, if_pos ⟨h1, by omega⟩]
  rfl

theorem adv_bounds (p : Pkg) (c : Config p) (s : Slice) {pos : Nat} (h : pos < s.len) (m : Memory) :
    0 < Iterator.advOf p c ((s.bytes m).drop pos)
      ∧ pos + Iterator.advOf p c ((s.bytes m).drop pos) ≤ s.len := by
  have hd : (s.bytes m).drop pos ≠ [] := by
    intro h0
    have := congrArg List.length h0
    simp [Slice.length_bytes] at this
    omega
  have h1 := (Iterator.goodAdv p c).pos _ hd
  have h2 := (Iterator.goodAdv p c).le _ hd
  simp [Slice.length_bytes] at h2
  exact ⟨h1, by omega⟩

theorem first_eq {p : Pkg} (c : Config p) (s : Slice) (pos start : Nat) (m : Memory) (h3 : s.len ≤ s.cap) :
    (mk' p c s pos start).first m
      = .ok (part s 0 (if s.len = 0 then 0 else Iterator.advOf p c (s.bytes m))) := by
  show (if s.len = 0 then Except.ok s else match next m (mk' p c s 0 0) with
    | (_, .fault f) => Except.error f
    | (cp, .ret _) => cp.value) = _
  by_cases h : s.len = 0
  · have hs : part s 0 0 = s := by
      cases s
      simp only at h
      subst h
      rfl
    rw [if_pos h, if_pos h, hs]
  · rw [if_neg h, if_neg h]
    have := next_eq c s 0 0 m
    rw [if_pos (by omega)] at this
    rw [this]
    have hb := adv_bounds p c s (pos := 0) (by omega) m
    rw [List.drop_zero, Nat.zero_add] at *
    exact value_eq c s (by omega) hb.2 h3

theorem config_eq {p : Pkg} (c c' : Config p) (s : Slice) (pos start : Nat) (m : Memory) :
    (mk' p c s pos start).after (((mk' p c s pos start).view m).config c') = mk' p c' s pos start := by
  rw [view_mk', Iterator.config_mk', after_mk']

/-- The states that can be reached. -/
def Reach {p : Pkg} (it : SliceIter p) (c : Config p) (s : Slice) : Prop :=
  ∃ pos start, it = mk' p c s pos start ∧ start ≤ pos ∧ pos ≤ s.len ∧ s.len ≤ s.cap

end SliceIter

/-- The configuration after a program. -/
def cfgAfter {p : Pkg} (c : Config p) : List (SliceOp p) → Config p
  | [] => c
  | .config c' :: ops => cfgAfter c' ops
  | _ :: ops => cfgAfter c ops

theorem cfgAfter_eq {p : Pkg} (d : Config p) (ops : List (SliceOp p)) : ∀ o : Option (Config p),
    cfgAfter (o.getD d) ops = (sliceConfigAfter o ops).getD d := by
  induction ops with
  | nil => intro o; rfl
  | cons op ops ih =>
    intro o
    cases op <;> first | exact ih o | exact ih (some _)

open SliceIter in
theorem SliceIter.Reach.run {p : Pkg} {it : SliceIter p} {c : Config p} {s : Slice} (h : Reach it c s) (m : Memory)
    (op : SliceOp p) (hop : ∀ t, op = .setText t → t.len ≤ t.cap) :
    Reach (op.run m it).2.1 (cfgAfter c [op]) (sliceAfter s [op])
      ∧ (op.run m it).1 = memoryAfter m [op]
      ∧ ∀ f, (op.run m it).2.2 ≠ some (.fault f) := by
  obtain ⟨pos, start, rfl, h1, h2, h3⟩ := h
  cases op with
  | next =>
    simp only [SliceOp.run, SliceIter.next_eq]
    split
    · rename_i hp
      have hb := adv_bounds p c s hp m
      exact ⟨⟨_, _, rfl, by omega, hb.2, h3⟩, rfl, by intro f h; cases h⟩
    · exact ⟨⟨_, _, rfl, h1, h2, h3⟩, rfl, by intro f h; cases h⟩
  | value =>
    refine ⟨⟨_, _, rfl, h1, h2, h3⟩, rfl, ?_⟩
    intro f
    simp only [SliceOp.run, SliceIter.value_eq c s h1 h2 h3]
    intro h; cases h
  | start => exact ⟨⟨_, _, rfl, h1, h2, h3⟩, rfl, by intro f h; cases h⟩
  | «end» => exact ⟨⟨_, _, rfl, h1, h2, h3⟩, rfl, by intro f h; cases h⟩
  | first =>
    refine ⟨⟨_, _, rfl, h1, h2, h3⟩, rfl, ?_⟩
    intro f
    simp only [SliceOp.run, SliceIter.first_eq c s pos start m h3]
    intro h; cases h
  | reset => exact ⟨⟨_, _, rfl, Nat.le_refl _, Nat.zero_le _, h3⟩, rfl, by intro f h; cases h⟩
  | setText t => exact ⟨⟨_, _, rfl, Nat.le_refl _, Nat.zero_le _, hop t rfl⟩, rfl, by intro f h; cases h⟩
  | config c' =>
    simp only [SliceOp.run, SliceIter.config_eq]
    exact ⟨⟨_, _, rfl, h1, h2, h3⟩, rfl, by intro f h; cases h⟩
  | store a i b => exact ⟨⟨_, _, rfl, h1, h2, h3⟩, rfl, by intro f h; cases h⟩

theorem runSliceState_append {p : Pkg} (m : Memory) (it : SliceIter p) (ops ops' : List (SliceOp p)) :
    runSliceState m it (ops ++ ops')
      = runSliceState (runSliceState m it ops).1 (runSliceState m it ops).2 ops' := by
  induction ops generalizing m it with
  | nil => rfl
  | cons op ops ih => exact ih _ _

theorem runSliceObs_append {p : Pkg} (m : Memory) (it : SliceIter p) (ops ops' : List (SliceOp p)) :
    runSliceObs m it (ops ++ ops')
      = runSliceObs m it ops ++ runSliceObs (runSliceState m it ops).1 (runSliceState m it ops).2 ops' := by
  induction ops generalizing m it with
  | nil => rfl
  | cons op ops ih => simp only [List.cons_append, runSliceObs, runSliceState, ih, List.append_assoc]

theorem cfgAfter_cons {p : Pkg} (c : Config p) (op : SliceOp p) (ops : List (SliceOp p)) :
    cfgAfter c (op :: ops) = cfgAfter (cfgAfter c [op]) ops := by cases op <;> rfl

theorem sliceAfter_cons {p : Pkg} (s : Slice) (op : SliceOp p) (ops : List (SliceOp p)) :
    sliceAfter s (op :: ops) = sliceAfter (sliceAfter s [op]) ops := by cases op <;> rfl

theorem memoryAfter_cons {p : Pkg} (m : Memory) (op : SliceOp p) (ops : List (SliceOp p)) :
    memoryAfter m (op :: ops) = memoryAfter (memoryAfter m [op]) ops := by cases op <;> rfl

theorem SliceIter.Reach.runState {p : Pkg} (ops : List (SliceOp p)) : ∀ {it : SliceIter p} {c : Config p} {s : Slice}
    (_ : Reach it c s) (m : Memory) (_ : Fits ops),
    Reach (runSliceState m it ops).2 (cfgAfter c ops) (sliceAfter s ops)
      ∧ (runSliceState m it ops).1 = memoryAfter m ops
      ∧ ∀ f, .fault f ∉ runSliceObs m it ops := by
  induction ops with
  | nil => intro it c s h m _; exact ⟨h, rfl, fun f h => nomatch h⟩
  | cons op ops ih =>
    intro it c s h m hf
    obtain ⟨h1, h2, h3⟩ := h.run m op fun t e => hf t (e ▸ List.mem_cons_self)
    obtain ⟨h4, h5, h6⟩ := ih h1 (op.run m it).1 fun t e => hf t (List.mem_cons_of_mem _ e)
    refine ⟨?_, ?_, ?_⟩
    · rw [cfgAfter_cons, sliceAfter_cons]; exact h4
    · rw [memoryAfter_cons, ← h2]; exact h5
    · intro f hm
      rcases List.mem_append.mp hm with hm | hm
      · rw [Option.mem_toList] at hm
        exact h3 f hm
      · exact h6 f hm

theorem SliceIter.reach_fromBytes (p : Pkg) (s : Slice) (h : s.len ≤ s.cap) :
    Reach (fromBytes p s) (Iterator.defaultConfig p) s :=
  ⟨0, 0, fromBytes_eq p s, Nat.le_refl _, Nat.zero_le _, h⟩

theorem fresh_tokens (p : Pkg) (o : Option (Config p)) (t : Bytes) :
    (fresh p o t).tokens = .ok (segs (Iterator.advOf p (o.getD (Iterator.defaultConfig p))) t) := by
  rw [fresh_eq]
  exact (Iterator.spec p _).tokensWith_eq rfl

theorem Spec.Ahead.mono {s : Slice} {n n' a i : Nat} (h : Ahead s n' a i) (hn : n ≤ n') : Ahead s n a i :=
  ⟨h.1, by have := h.2.1; omega, h.2.2⟩

open SliceIter in
/-- Stores behind the iterator do not change what is seen. -/
theorem frame {p : Pkg} (ops : List (SliceOp p)) : ∀ (c : Config p) (s : Slice) (pos start : Nat) (m m' : Memory),
    (∀ a i, Ahead s pos a i → m' a i = m a i) → (∀ op ∈ ops, Forward op) →
    StoresBehind m' (mk' p c s pos start) ops →
    runSliceObs m' (mk' p c s pos start) ops = runSliceObs m (mk' p c s pos start) (withoutStores ops) := by
  induction ops with
  | nil => intros; rfl
  | cons op ops ih =>
    intro c s pos start m m' hm hf hs
    have hf' : ∀ op ∈ ops, Forward op := fun o ho => hf o (List.mem_cons_of_mem _ ho)
    cases op with
    | first => exact (hf _ List.mem_cons_self).elim
    | reset => exact (hf _ List.mem_cons_self).elim
    | setText t => exact (hf _ List.mem_cons_self).elim
    | next =>
      have hs' := hs.2
      by_cases hp : pos < s.len
      · simp only [withoutStores, runSliceObs, SliceOp.run, SliceIter.next_eq, drop_bytes_congr hm, if_pos hp] at hs' ⊢
        rw [ih c s _ _ m m' (fun a i h => hm a i (Ahead.mono h (by omega))) hf' hs']
      · simp only [withoutStores, runSliceObs, SliceOp.run, SliceIter.next_eq, if_neg hp] at hs' ⊢
        rw [ih c s _ _ m m' hm hf' hs']
    | value => exact congrArg _ (ih c s pos start m m' hm hf' hs.2)
    | start => exact congrArg _ (ih c s pos start m m' hm hf' hs.2)
    | «end» => exact congrArg _ (ih c s pos start m m' hm hf' hs.2)
    | config c' =>
      have hs' := hs.2
      simp only [withoutStores, runSliceObs, SliceOp.run, SliceIter.config_eq] at hs' ⊢
      rw [ih c' s pos start m m' hm hf' hs']
    | store arr i b =>
      refine ih c s pos start m (m'.store arr i b) ?_ hf' hs.2
      intro a k hk
      have hne : ¬ (a = arr ∧ k = i) := by
        rintro ⟨rfl, rfl⟩
        exact hs.1 hk
      rw [Memory.store, if_neg hne]
      exact hm a k hk

theorem getElem?_overlay (t x : Bytes) (i : Nat) :
    (overlay t x)[i]? = if i < t.length then some ((x[i]?).getD ((t[i]?).getD 0)) else none := by
  rw [overlay]
  by_cases hx : i < (x.take t.length).length
  · rw [List.getElem?_append_left hx]
    rw [List.length_take] at hx
    rw [List.getElem?_take_of_lt (by omega), if_pos (by omega), List.getElem?_eq_getElem (by omega)]
    rfl
  · rw [List.getElem?_append_right (by omega), List.getElem?_drop]
    rw [List.length_take] at hx ⊢
    by_cases ht : i < t.length
    · have hxl : x.length ≤ i := by omega
      rw [if_pos ht, List.getElem?_eq_none hxl, show x.length + (i - min t.length x.length) = i by omega,
        List.getElem?_eq_getElem ht]
      rfl
    · rw [if_neg ht, List.getElem?_eq_none (by omega)]

theorem length_overlay (t x : Bytes) : (overlay t x).length = t.length := by
  simp only [overlay, List.length_append, List.length_take, List.length_drop]
  omega

/-- The bytes of a slice after a copy to a part of it. -/
theorem bytes_copy (m : Memory) (s : Slice) {a b : Nat} (hab : a ≤ b) (hb : b ≤ s.len) (cap : Nat) (x : Bytes) :
    s.bytes (Slice.copy m ⟨s.arr, s.off + a, b - a, cap⟩ x)
      = (s.bytes m).take a ++ (overlay (((s.bytes m).drop a).take (b - a)) x ++ (s.bytes m).drop b) := by
  apply List.ext_getElem?
  intro i
  have hl := Slice.length_bytes m s
  have ho : (overlay (((s.bytes m).drop a).take (b - a)) x).length = b - a := by
    rw [length_overlay, List.length_take, List.length_drop, hl]; omega
  have ht : ((s.bytes m).take a).length = a := by rw [List.length_take, hl]; omega
  rw [Slice.getElem?_bytes]
  by_cases h1 : i < a
  · have : Slice.copy m ⟨s.arr, s.off + a, b - a, cap⟩ x s.arr (s.off + i) = m s.arr (s.off + i) :=
      if_neg (by dsimp only; omega)
    rw [List.getElem?_append_left (by omega), List.getElem?_take_of_lt h1, Slice.getElem?_bytes, this]
  · rw [List.getElem?_append_right (by omega), ht]
    by_cases h2 : i < b
    · rw [List.getElem?_append_left (by omega), getElem?_overlay, if_pos (by omega), if_pos (by
        rw [List.length_take, List.length_drop, hl]; omega), Slice.copy, if_pos ⟨rfl, by dsimp only; omega, by dsimp only; omega⟩,
        List.getElem?_take_of_lt (by omega), List.getElem?_drop, Slice.getElem?_bytes, if_pos (by omega),
        show a + (i - a) = i by omega, show s.off + i - (s.off + a) = i - a by omega]
      rfl
    · have : Slice.copy m ⟨s.arr, s.off + a, b - a, cap⟩ x s.arr (s.off + i) = m s.arr (s.off + i) :=
        if_neg (by dsimp only; omega)
      rw [List.getElem?_append_right (by omega), ho, List.getElem?_drop, Slice.getElem?_bytes, this,
        show b + (i - a - (b - a)) = i by omega]

open SliceIter in
theorem mapLoop_eq {p : Pkg} (c : Config p) (s : Slice) (hs : s.len ≤ s.cap) (f : Bytes → Bytes) :
    ∀ (fuel : Nat) (m : Memory) (pos start : Nat), pos ≤ s.len → s.len - pos < fuel →
    ∃ m', mapLoop f fuel m (mk' p c s pos start) = .ok m'
      ∧ s.bytes m' = (s.bytes m).take pos
          ++ ((segs (Iterator.advOf p c) ((s.bytes m).drop pos)).map fun t => overlay t (f t)).flatten
      ∧ ∀ a i, ¬ Ahead s pos a i → m' a i = m a i := by
  intro fuel
  induction fuel with
  | zero => intro m pos start _ h; omega
  | succ fuel ih =>
    intro m pos start hp hf
    have hl := Slice.length_bytes m s
    simp only [mapLoop, SliceIter.next_eq]
    by_cases h : pos < s.len
    · rw [if_pos h]
      have hb := adv_bounds p c s h m
      have hd : (s.bytes m).drop pos ≠ [] := by
        intro h0
        have := congrArg List.length h0
        simp [hl] at this
        omega
      generalize ht : Iterator.advOf p c ((s.bytes m).drop pos) = n at hb
      dsimp only
      rw [value_eq c s (by omega) hb.2 hs]
      dsimp only
      rw [bytes_part m s hb.2, Nat.add_sub_cancel_left]
      generalize hx : f (((s.bytes m).drop pos).take n) = x
      obtain ⟨m', h1, h2, h3⟩ := ih (Slice.copy m (part s pos (pos + n)) x) (pos + n) pos hb.2 (by omega)
      have hc := bytes_copy m s (Nat.le_add_right pos n) hb.2 (s.cap - pos) x
      rw [Nat.add_sub_cancel_left] at hc
      have hp' : part s pos (pos + n) = ⟨s.arr, s.off + pos, n, s.cap - pos⟩ := by
        rw [part, Nat.add_sub_cancel_left]
      have ho : (overlay (((s.bytes m).drop pos).take n) x).length = n := by
        rw [length_overlay, List.length_take, List.length_drop, hl]; omega
      have htk : ((s.bytes m).take pos).length = pos := by rw [List.length_take, hl]; omega
      refine ⟨m', h1, ?_, ?_⟩
      · rw [h2, (Iterator.goodAdv p c).segs_cons hd, ht, List.map_cons, List.flatten_cons, hx, hp', hc, ← List.append_assoc]
        have hlen : ((s.bytes m).take pos ++ overlay (((s.bytes m).drop pos).take n) x).length = pos + n := by
          rw [List.length_append, ho, htk]
        rw [List.take_left' hlen, List.drop_left' hlen, List.drop_drop, List.append_assoc]
      · intro a i hn
        rw [h3 a i fun h => hn (h.mono (by omega)), Slice.copy, if_neg]
        rintro ⟨e1, e2, e3⟩
        refine hn ⟨e1, e2, ?_⟩
        simp only [part] at e3
        omega
    · rw [if_neg h]
      refine ⟨m, rfl, ?_, fun _ _ _ => rfl⟩
      have : pos = s.len := by omega
      rw [List.drop_eq_nil_iff.mpr (by omega), segs_nil, List.take_of_length_le (by omega)]
      simp

end Uax29
