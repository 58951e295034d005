import Verif.Proofs.Memory
/-!
# Properties C57 - C60: iterators over slices in memory

The texts are slices of arrays that the caller may change at any time. `s.len ≤ s.cap` and `Fits ops` say that the
slices are slices of Go.
-/
namespace Uax29
open Spec SliceIter

/-- Where the iterator is after a program. -/
theorem state_after (p : Pkg) (s : Slice) (hs : s.len ≤ s.cap) (m : Memory) (ops : List (SliceOp p)) (hf : Fits ops) :
    ∃ a b, a ≤ b ∧ b ≤ (sliceAfter s ops).len ∧ (sliceAfter s ops).len ≤ (sliceAfter s ops).cap
      ∧ runSliceState m (fromBytes p s) ops
        = (memoryAfter m ops, mk' p ((sliceConfigAfter none ops).getD (Iterator.defaultConfig p)) (sliceAfter s ops) b a) := by
  obtain ⟨⟨b, a, h1, h2, h3, h4⟩, h5, _⟩ := (reach_fromBytes p s hs).runState ops m hf
  refine ⟨a, b, h2, h3, h4, Prod.ext h5 ?_⟩
  rw [h1]
  exact congrArg (fun c => mk' p c (sliceAfter s ops) b a) (cfgAfter_eq _ ops none)

/-- C57 In no program does a call panic or fail to return, whatever the caller stores between the calls. -/
theorem C57_no_fault (p : Pkg) (s : Slice) (hs : s.len ≤ s.cap) (m : Memory) (ops : List (SliceOp p)) (hf : Fits ops) :
    ∀ f, .fault f ∉ runSliceObs m (fromBytes p s) ops :=
  ((reach_fromBytes p s hs).runState ops m hf).2.2

/-- C57 `Value` is the view of the text from `Start` to `End`, in the caller's array, and its capacity is the one of
the text from `Start` on. Its bytes are those of the text there, at whatever time they are read. -/
theorem C57_value (p : Pkg) (s : Slice) (hs : s.len ≤ s.cap) (m : Memory) (ops : List (SliceOp p)) (hf : Fits ops) :
    ∃ a b v, a ≤ b ∧ b ≤ (sliceAfter s ops).len
      ∧ runSliceObs m (fromBytes p s) (ops ++ [.start, .end, .value])
        = runSliceObs m (fromBytes p s) ops ++ [.nat a, .nat b, .slice v]
      ∧ v = part (sliceAfter s ops) a b
      ∧ ∀ m', v.bytes m' = (((sliceAfter s ops).bytes m').drop a).take (b - a) := by
  obtain ⟨a, b, h1, h2, h3, h4⟩ := state_after p s hs m ops hf
  refine ⟨a, b, _, h1, h2, ?_, rfl, fun m' => bytes_part m' _ h2⟩
  rw [runSliceObs_append, h4]
  simp only [runSliceObs, SliceOp.run, SliceIter.value_eq _ _ h1 h2 h3, SliceObs.ofRes]
  rfl

/-- C57 `Next` takes the first token of what is in memory, at the time of the call, from `End` to the end of the
text; at the end it returns false and does nothing. -/
theorem C57_next (p : Pkg) (s : Slice) (hs : s.len ≤ s.cap) (m : Memory) (ops : List (SliceOp p)) (hf : Fits ops) :
    ∃ a b, runSliceObs m (fromBytes p s) (ops ++ [.start, .end])
        = runSliceObs m (fromBytes p s) ops ++ [.nat a, .nat b]
      ∧ if b = (sliceAfter s ops).len then
          runSliceObs m (fromBytes p s) (ops ++ [.next, .start, .end])
            = runSliceObs m (fromBytes p s) ops ++ [.bool false, .nat a, .nat b]
        else
          ∃ tok more, (fresh p (sliceConfigAfter none ops)
              (((sliceAfter s ops).bytes (memoryAfter m ops)).drop b)).tokens = .ok (tok :: more)
            ∧ runSliceObs m (fromBytes p s) (ops ++ [.next, .start, .end])
              = runSliceObs m (fromBytes p s) ops ++ [.bool true, .nat b, .nat (b + tok.length)] := by
  obtain ⟨a, b, h1, h2, h3, h4⟩ := state_after p s hs m ops hf
  refine ⟨a, b, ?_, ?_⟩
  · rw [runSliceObs_append, h4]
    rfl
  · rw [runSliceObs_append, h4]
    simp only [runSliceObs, SliceOp.run, SliceIter.next_eq]
    split
    · rename_i hb
      rw [if_neg (by omega)]
      rfl
    · rename_i hb
      have hlt : b < (sliceAfter s ops).len := by omega
      rw [if_pos hlt]
      have hl : ((sliceAfter s ops).bytes (memoryAfter m ops)).length = (sliceAfter s ops).len := Slice.length_bytes _ _
      have hd : ((sliceAfter s ops).bytes (memoryAfter m ops)).drop b ≠ [] := by
        intro h0
        have := congrArg List.length h0
        simp [hl] at this
        omega
      refine ⟨_, _, (fresh_tokens p _ _).trans (congrArg Except.ok ((Iterator.goodAdv p _).segs_cons hd)), ?_⟩
      · have := (Iterator.goodAdv p ((sliceConfigAfter none ops).getD (Iterator.defaultConfig p))).le _ hd
        rw [List.length_take, Nat.min_eq_left this]
        rfl

/-- C57 `First` is the view of the first token of what is in memory at the time of the call. -/
theorem C57_first (p : Pkg) (s : Slice) (hs : s.len ≤ s.cap) (m : Memory) (ops : List (SliceOp p)) (hf : Fits ops) :
    ∃ ts, (fresh p (sliceConfigAfter none ops) ((sliceAfter s ops).bytes (memoryAfter m ops))).tokens = .ok ts
      ∧ runSliceObs m (fromBytes p s) (ops ++ [.first])
        = runSliceObs m (fromBytes p s) ops ++ [.slice (part (sliceAfter s ops) 0 (ts.head?.getD []).length)] := by
  obtain ⟨a, b, h1, h2, h3, h4⟩ := state_after p s hs m ops hf
  refine ⟨_, fresh_tokens p _ _, ?_⟩
  · rw [runSliceObs_append, h4]
    simp only [runSliceObs, SliceOp.run, SliceIter.first_eq _ _ _ _ _ h3, SliceObs.ofRes]
    have hl : ((sliceAfter s ops).bytes (memoryAfter m ops)).length = (sliceAfter s ops).len := Slice.length_bytes _ _
    split
    · rename_i h0
      rw [List.length_eq_zero_iff.mp (hl.trans h0), segs_nil]
      rfl
    · rename_i h0
      have hd : (sliceAfter s ops).bytes (memoryAfter m ops) ≠ [] := by
        intro h; rw [h] at hl; exact h0 hl.symm
      have := (Iterator.goodAdv p ((sliceConfigAfter none ops).getD (Iterator.defaultConfig p))).le _ hd
      rw [(Iterator.goodAdv p _).segs_cons hd]
      simp only [List.head?_cons, Option.getD_some, List.length_take, Nat.min_eq_left this]
      rfl

/-- Memory with the bytes of `l` in array 1 and zeros elsewhere. -/
def memoryOf (l : Bytes) : Memory := fun a i => if a = 1 then l[i]?.getD 0 else 0

-- "ab cd!" where the text is "ab cd": the tokens are views of array 1, and their capacity reaches to the end of the
-- array; a store ahead of the iterator is seen.
example : runSliceObs (memoryOf [0x61, 0x62, 0x20, 0x63, 0x64, 0x21]) (fromBytes .words ⟨1, 0, 5, 6⟩)
    [.next, .value, .store 1 4 0x20, .next, .next, .value, .first]
    = [.bool true, .slice ⟨1, 0, 2, 6⟩, .bool true, .bool true, .slice ⟨1, 3, 1, 3⟩, .slice ⟨1, 0, 2, 6⟩] := by
  decide +kernel

/-- One call on a slice and on its bytes. -/
theorem run_view {p : Pkg} (m : Memory) {it : SliceIter p} {c : Config p} {s : Slice} (h : Reach it c s)
    (op : SliceOp p) (o : Op p) (ho : SliceOp.toOp m op = some o) :
    (op.run m it).1 = m ∧ (op.run m it).2.1.view m = (o.run (it.view m)).1
      ∧ (op.run m it).2.2.map (SliceObs.read m) = some (o.run (it.view m)).2 := by
  obtain ⟨pos, start, rfl, h1, h2, h3⟩ := h
  have hl := Slice.length_bytes m s
  cases op with
  | store a i b => cases ho
  | next =>
    cases ho
    by_cases hp : pos < s.len
    · simp only [SliceOp.run, Op.run, SliceIter.next_eq, view_mk', Iterator.next_eq, hl, if_pos hp]
      exact ⟨trivial, trivial, rfl⟩
    · simp only [SliceOp.run, Op.run, SliceIter.next_eq, view_mk', Iterator.next_eq, hl, if_neg hp]
      exact ⟨trivial, trivial, rfl⟩
  | value =>
    cases ho
    refine ⟨rfl, rfl, ?_⟩
    simp only [SliceOp.run, Op.run, SliceIter.value_eq c s h1 h2 h3, view_mk', Iterator.mk']
    rw [value_ok (by exact h1) (by simpa [hl] using h2)]
    exact congrArg (fun b => some (Obs.bytes b)) (bytes_part m s h2)
  | start => cases ho; exact ⟨rfl, rfl, rfl⟩
  | «end» => cases ho; exact ⟨rfl, rfl, rfl⟩
  | first =>
    cases ho
    refine ⟨rfl, rfl, ?_⟩
    simp only [SliceOp.run, Op.run, SliceIter.first_eq c s pos start m h3, view_mk', Iterator.first_eq]
    refine congrArg (fun b => some (Obs.bytes b)) ((bytes_part m s ?_).trans ?_)
    · split
      · omega
      · have := (adv_bounds p c s (pos := 0) (by omega) m).2
        simpa using this
    · rw [List.drop_zero, Nat.sub_zero]
      split
      · rename_i h0
        rw [List.length_eq_zero_iff.mp (hl.trans h0)]
        simp
      · rfl
  | reset => cases ho; exact ⟨rfl, rfl, rfl⟩
  | setText t => cases ho; exact ⟨rfl, rfl, rfl⟩
  | config c' =>
    cases ho
    refine ⟨rfl, ?_, rfl⟩
    simp only [SliceOp.run, Op.run, view_mk', Iterator.config_mk']
    rfl

/-- C57 Without stores, a program sees what it sees with the bytes of the slices in place of the slices: the
properties of iterators over lists of bytes are those of iterators over slices. -/
theorem C57_bytes (p : Pkg) (s : Slice) (hs : s.len ≤ s.cap) (m : Memory) (ops : List (SliceOp p)) (hf : Fits ops) :
    (runSliceObs m (fromBytes p s) (withoutStores ops)).map (SliceObs.read m)
      = runObs (Iterator.fromBytes p (s.bytes m)) (ops.filterMap (SliceOp.toOp m)) := by
  have key : ∀ (ops : List (SliceOp p)) (it : SliceIter p) (c : Config p) (s : Slice), Reach it c s → Fits ops →
      (runSliceObs m it (withoutStores ops)).map (SliceObs.read m)
        = runObs (it.view m) (ops.filterMap (SliceOp.toOp m)) := by
    intro ops
    induction ops with
    | nil => intros; rfl
    | cons op ops ih =>
      intro it c s h hf
      have hf' : Fits ops := fun t ht => hf t (List.mem_cons_of_mem _ ht)
      have hr := (h.run m op fun t e => hf t (e ▸ List.mem_cons_self)).1
      cases ho : SliceOp.toOp m op with
      | none =>
        have hst : withoutStores (op :: ops) = withoutStores ops := by
          cases op <;> first | rfl | cases ho
        rw [hst, List.filterMap_cons_none ho]
        exact ih it c s h hf'
      | some o =>
        have hst : withoutStores (op :: ops) = op :: withoutStores ops := by
          cases op <;> first | rfl | cases ho
        obtain ⟨h1, h2, h3⟩ := run_view m h op o ho
        rw [hst, List.filterMap_cons_some ho]
        simp only [runSliceObs, runObs, List.map_append]
        rw [h1, ih _ _ _ hr hf', h2]
        have h4 : ((op.run m it).2.2.toList).map (SliceObs.read m) = [(o.run (it.view m)).2] := by
          cases hv : (op.run m it).2.2 with
          | none => rw [hv] at h3; cases h3
          | some v => rw [hv] at h3; exact congrArg (fun x => [x]) (Option.some.inj h3)
        rw [h4]
        rfl
  have := key ops _ _ s (reach_fromBytes p s hs) hf
  rw [this]
  congr 1
  cases p <;> rfl

-- the slice of length 2 in the middle of "xa b": its bytes are "a "
example : (runSliceObs (memoryOf [0x78, 0x61, 0x20, 0x62]) (fromBytes .words ⟨1, 1, 2, 3⟩)
    [.next, .value, .next, .value, .next]).map (SliceObs.read (memoryOf [0x78, 0x61, 0x20, 0x62]))
    = [.bool true, .bytes [0x61], .bool true, .bytes [0x20], .bool false] := by decide +kernel

/-! ## changing the tokens -/

/-- C58 What the caller stores behind the `End` of the current token, or outside of the text, does not change what is
seen of `Next`, `Value`, `Start` and `End` (the bytes of a token that is changed in place do change, of course): in
any program, all stores of this kind can be left out. -/
theorem C58_behind (p : Pkg) (s : Slice) (m : Memory) (ops : List (SliceOp p)) (hf : ∀ op ∈ ops, Forward op)
    (hb : StoresBehind m (fromBytes p s) ops) :
    runSliceObs m (fromBytes p s) ops = runSliceObs m (fromBytes p s) (withoutStores ops) := by
  rw [fromBytes_eq] at *
  exact frame ops _ s 0 0 m m (fun _ _ _ => rfl) hf hb

-- "ab, c": the word is overwritten after it was returned; the rest is as before.
example : StoresBehind (memoryOf [0x61, 0x62, 0x2C, 0x20, 0x63]) (fromBytes .words ⟨1, 0, 5, 5⟩)
    [.next, .value, .store 1 0 0x2C, .store 1 1 0x2C, .next, .value] := by
  refine ⟨trivial, trivial, ?_, ?_, trivial, trivial, trivial⟩ <;> (unfold Ahead; decide +kernel)
-- a store directly behind the end of the text is allowed, too
example : StoresBehind (memoryOf [0x61, 0x20, 0x63]) (fromBytes .words ⟨1, 0, 2, 3⟩) [.store 1 2 0x62, .next, .store 1 0 0x62] := by
  simp [StoresBehind, Ahead, fromBytes, SliceOp.run]
  decide +kernel
-- A store ahead is seen: the two words become one.
example : runSliceObs (memoryOf [0x61, 0x20, 0x63]) (fromBytes .words ⟨1, 0, 3, 3⟩) [.store 1 1 0x62, .next, .value]
    = [.bool true, .slice ⟨1, 0, 3, 3⟩] := by decide +kernel

/-- C58 `append` to a value, exactly. If the capacity of the text allows it, the bytes behind the token in the array
are overwritten: in the text those from `End` on. Otherwise the text is not touched (`new` is an array that the
program does not have yet). -/
theorem C58_append (p : Pkg) (s : Slice) (hs : s.len ≤ s.cap) (m : Memory) (ops : List (SliceOp p)) (hf : Fits ops)
    (src : Bytes) (new : Nat) (hnew : new ≠ (sliceAfter s ops).arr) (m' : Memory) :
    ∃ b v, runSliceObs m (fromBytes p s) (ops ++ [.end, .value])
        = runSliceObs m (fromBytes p s) ops ++ [.nat b, .slice v]
      ∧ (sliceAfter s ops).bytes (v.append m' src new).1
        = if b + src.length ≤ (sliceAfter s ops).cap then
            ((sliceAfter s ops).bytes m').take b ++ overlay (((sliceAfter s ops).bytes m').drop b) src
          else (sliceAfter s ops).bytes m' := by
  obtain ⟨a, b, h1, h2, h3, h4⟩ := state_after p s hs m ops hf
  refine ⟨b, part (sliceAfter s ops) a b, ?_, ?_⟩
  · rw [runSliceObs_append, h4]
    simp only [runSliceObs, SliceOp.run, SliceIter.value_eq _ _ h1 h2 h3, SliceObs.ofRes]
    rfl
  · generalize sliceAfter s ops = t at *
    have hl := Slice.length_bytes m' t
    have hcap : (part t a b).len + src.length ≤ (part t a b).cap ↔ b + src.length ≤ t.cap := by
      simp only [part]; omega
    unfold Slice.append
    by_cases hc : b + src.length ≤ t.cap
    · rw [if_pos (hcap.mpr hc), if_pos hc]
      apply List.ext_getElem?
      intro i
      have htk : ((t.bytes m').take b).length = b := by rw [List.length_take, hl]; omega
      rw [Slice.getElem?_bytes]
      by_cases h5 : i < b
      · have : Slice.copy m' ⟨t.arr, t.off + a + (b - a), src.length, src.length⟩ src t.arr (t.off + i)
            = m' t.arr (t.off + i) := if_neg (by dsimp only; omega)
        rw [List.getElem?_append_left (by omega), List.getElem?_take_of_lt h5, Slice.getElem?_bytes]
        exact congrArg (fun x => if i < t.len then some x else none) this
      · rw [List.getElem?_append_right (by omega), htk, getElem?_overlay, List.length_drop, hl, List.getElem?_drop,
          Slice.getElem?_bytes, show b + (i - b) = i by omega]
        by_cases h6 : i < t.len
        · rw [if_pos h6, if_pos (by omega), if_pos h6]
          by_cases h7 : i - b < src.length
          · have : Slice.copy m' ⟨t.arr, t.off + a + (b - a), src.length, src.length⟩ src t.arr (t.off + i)
                = (src[i - b]?).getD (m' t.arr (t.off + i)) := by
              refine (if_pos ⟨rfl, by dsimp only; omega, by dsimp only; omega⟩).trans ?_
              rw [show t.off + i - (t.off + a + (b - a)) = i - b by omega]
            exact congrArg some this
          · have : Slice.copy m' ⟨t.arr, t.off + a + (b - a), src.length, src.length⟩ src t.arr (t.off + i)
                = m' t.arr (t.off + i) := if_neg (by dsimp only; omega)
            rw [List.getElem?_eq_none (by omega)]
            exact congrArg some this
        · rw [if_neg h6, if_neg (by omega)]
    · rw [if_neg (fun h => hc (hcap.mp h)), if_neg hc]
      apply List.ext_getElem?
      intro i
      rw [Slice.getElem?_bytes, Slice.getElem?_bytes]
      have : ∀ l, Slice.copy m' ⟨new, 0, l, l⟩ ((part t a b).bytes m' ++ src) t.arr (t.off + i) = m' t.arr (t.off + i) :=
        fun l => if_neg fun h => hnew h.1.symm
      exact congrArg (fun x => if i < t.len then some x else none) (this _)

-- "a b": appending "!" to the word `a` overwrites the space.
example : (Slice.bytes ((⟨1, 0, 1, 3⟩ : Slice).append (memoryOf [0x61, 0x20, 0x62]) [0x21] 2).1 ⟨1, 0, 3, 3⟩)
    = [0x61, 0x21, 0x62] := by decide +kernel

/-- C59 A loop that changes every token in place sees the tokens of the text as it was, and leaves the changed tokens in
their places, one after the other; nothing outside of the text changes. `copy` cuts what is too long and leaves
the end of the token as it is if the change is shorter (`overlay`). -/
theorem C59_in_place (p : Pkg) (c : Config p) (f : Bytes → Bytes) (m : Memory) (s : Slice) (hs : s.len ≤ s.cap) :
    ∃ m' ts, mapTokens p c f m s = .ok m' ∧ tokens p c (s.bytes m) = .ok ts
      ∧ s.bytes m' = (ts.map fun t => overlay t (f t)).flatten
      ∧ ∀ a i, ¬ Ahead s 0 a i → m' a i = m a i := by
  obtain ⟨m', h1, h2, h3⟩ := mapLoop_eq c s hs f (s.len + 1) m 0 0 (Nat.zero_le _) (by omega)
  refine ⟨m', _, ?_, tokens_eq p c _, ?_, h3⟩
  · rw [mapTokens, fromBytes_eq, SliceIter.config_eq]
    exact h1
  · simpa using h2

/-- C59 for changes that keep the length of the tokens. -/
theorem C59_same_length (p : Pkg) (c : Config p) (f : Bytes → Bytes) (hlen : ∀ t, (f t).length = t.length) (m : Memory)
    (s : Slice) (hs : s.len ≤ s.cap) :
    ∃ m' ts, mapTokens p c f m s = .ok m' ∧ tokens p c (s.bytes m) = .ok ts ∧ s.bytes m' = (ts.map f).flatten
      ∧ ∀ a i, ¬ Ahead s 0 a i → m' a i = m a i := by
  obtain ⟨m', ts, h1, h2, h3, h4⟩ := C59_in_place p c f m s hs
  refine ⟨m', ts, h1, h2, ?_, h4⟩
  rw [h3]
  congr 2
  funext t
  rw [overlay, ← hlen t, List.take_length, List.drop_eq_nil_iff.mpr (by rw [hlen]; exact Nat.le_refl _), List.append_nil]

-- "ab, c!" with the text "ab, c": every token is reversed in place.
example : (match mapTokens .words none List.reverse (memoryOf [0x61, 0x62, 0x2C, 0x20, 0x63, 0x21]) ⟨1, 0, 5, 6⟩ with
    | .ok m' => Slice.bytes m' ⟨1, 0, 6, 6⟩
    | .error _ => []) = [0x62, 0x61, 0x2C, 0x20, 0x63, 0x21] := by decide +kernel

/-! ## after a panic -/

/-- C60 for slices without further capacity (and so for strings): whatever function is given to `Split`, and whatever
calls are made after a panic of `Next` from which the caller recovered, `Value` panics or is a part of the text.
Missing: slices with more capacity, for which it is false, see `C60_fails`. -/
theorem C60_partial (s : Slice) (hs : s.cap = s.len) (m : Memory) (parts : List (SplitFn × List (SliceOp .words)))
    (hcap : ∀ part ∈ parts, ∀ t, .setText t ∈ part.2 → t.cap = t.len) (v : Slice)
    (hv : (runSplitState m (fromBytes .words s) parts).2.value = .ok v) :
    v.arr = (sliceAfter s (parts.flatMap (·.2))).arr ∧ (sliceAfter s (parts.flatMap (·.2))).off ≤ v.off
      ∧ v.off + v.len ≤ (sliceAfter s (parts.flatMap (·.2))).off + (sliceAfter s (parts.flatMap (·.2))).len := by
  have key : ∀ (ops : List (SliceOp .words)) (m : Memory) (it : SliceIter .words) (s : Slice), it.data = s → s.cap = s.len →
      (∀ t, .setText t ∈ ops → t.cap = t.len) →
      (runSliceState m it ops).2.data = sliceAfter s ops ∧ (sliceAfter s ops).cap = (sliceAfter s ops).len := by
    intro ops
    induction ops with
    | nil => intro m it s h hs _; exact ⟨h, hs⟩
    | cons op ops ih =>
      intro m it s h hs hc
      have hc' : ∀ t, .setText t ∈ ops → t.cap = t.len := fun t ht => hc t (List.mem_cons_of_mem _ ht)
      cases op with
      | setText t => exact ih _ _ t rfl (hc t List.mem_cons_self) hc'
      | _ => exact ih _ _ s h hs hc'
  have happ : ∀ (a b : List (SliceOp .words)) (s : Slice), sliceAfter s (a ++ b) = sliceAfter (sliceAfter s a) b := by
    intro a b
    induction a with
    | nil => intro s; rfl
    | cons op a ih =>
      intro s
      cases op <;> exact ih _
  have key2 : ∀ (parts : List (SplitFn × List (SliceOp .words))) (m : Memory) (it : SliceIter .words) (s : Slice),
      it.data = s → s.cap = s.len → (∀ part ∈ parts, ∀ t, .setText t ∈ part.2 → t.cap = t.len) →
      (runSplitState m it parts).2.data = sliceAfter s (parts.flatMap (·.2))
        ∧ (sliceAfter s (parts.flatMap (·.2))).cap = (sliceAfter s (parts.flatMap (·.2))).len := by
    intro parts
    induction parts with
    | nil => intro m it s h hs _; exact ⟨h, hs⟩
    | cons part parts ih =>
      intro m it s h hs hc
      obtain ⟨f, ops⟩ := part
      obtain ⟨k1, k2⟩ := key ops m (it.setSplit f) s h hs (hc _ List.mem_cons_self)
      rw [List.flatMap_cons, happ]
      exact ih _ _ _ k1 k2 fun p hp => hc p (List.mem_cons_of_mem _ hp)
  obtain ⟨h1, h2⟩ := key2 parts m (fromBytes .words s) s rfl hs hcap
  rw [SliceIter.value, h1] at hv
  generalize (runSplitState m (fromBytes .words s) parts).2.start = a, (runSplitState m (fromBytes .words s) parts).2.pos = b at hv
  rw [Slice.sub] at hv
  split at hv
  · rename_i h
    cases hv
    refine ⟨rfl, Nat.le_add_right _ _, ?_⟩
    dsimp only
    omega
  · cases hv

/-- C57 `Split` changes nothing that can be seen before the next call of `Next` or `First`. -/
theorem C57_split (it : SliceIter .words) (f : SplitFn) (m : Memory) :
    runSliceObs m (it.setSplit f) [.start, .end, .value] = runSliceObs m it [.start, .end, .value]
      ∧ (it.setSplit f).split = f ∧ (it.setSplit f).data = it.data := ⟨rfl, rfl, rfl⟩

/-- C60 fails: after a split function went too far, `Next` has panicked but the position remains, and `Value` shows
bytes behind the text if the slice has the capacity. -/
theorem C60_fails : ∃ (f : SplitFn) (s : Slice) (m : Memory) (v : Slice), s.len ≤ s.cap
    ∧ runSliceObs m ((fromBytes .words s).setSplit f) [.next, .value]
      = [.fault (.panic "splitFunc advanced beyond end of data"), .slice v]
    ∧ ¬ v.off + v.len ≤ s.off + s.len :=
  ⟨fun _ _ => .ok ⟨3, none, none⟩, ⟨1, 0, 1, 3⟩, memoryOf [0x2C, 0x78, 0x79], ⟨1, 0, 3, 3⟩, by decide,
    by decide +kernel, by decide⟩

/-- C60, the exact condition: for a slice that is not empty, `Value` shows no bytes behind it, whatever functions are given to `Split`
and whatever calls are made on whatever bytes, if and only if the slice has no further capacity. -/
theorem C60_iff (s : Slice) (h0 : 0 < s.len) (hc : s.len ≤ s.cap) :
    (∀ (m : Memory) (parts : List (SplitFn × List (SliceOp .words))) (v : Slice),
      (∀ part ∈ parts, ∀ t, .setText t ∉ part.2) → (runSplitState m (fromBytes .words s) parts).2.value = .ok v →
      v.arr = s.arr ∧ s.off ≤ v.off ∧ v.off + v.len ≤ s.off + s.len) ↔ s.cap = s.len := by
  constructor
  · intro h
    refine Nat.le_antisymm (Nat.le_of_not_lt fun hlt => ?_) hc
    obtain ⟨n, hn⟩ : ∃ n, s.len = n + 1 := ⟨s.len - 1, by omega⟩
    have hb : s.bytes (fun _ _ => 0x2C) = List.replicate (n + 1) 0x2C := by
      rw [Slice.bytes, hn]
      simp [List.map_const']
    have hnext : Words.next ⟨fun _ _ => .ok ⟨(s.len : Int) + 1, none, none⟩, List.replicate (n + 1) 0x2C, 0, 0⟩
        = (⟨fun _ _ => .ok ⟨(s.len : Int) + 1, none, none⟩, List.replicate (n + 1) 0x2C, s.len + 1, 0⟩,
          .fault (.panic "splitFunc advanced beyond end of data")) := by
      have h2 : ¬ ((s.len : Int) + 1 ≤ 0) := by omega
      simp [Words.next, index, List.replicate_succ, Words.isASCIIAlphanumeric, Iter.callSplit, sliceFrom, h2]
      omega
    have := h (fun _ _ => 0x2C) [(fun _ _ => .ok ⟨(s.len : Int) + 1, none, none⟩, [.next])] ⟨s.arr, s.off, s.len + 1, s.cap⟩
      (by simp) (by
        simp only [runSplitState, runSliceState, SliceOp.run, SliceIter.next]
        simp only [SliceIter.view, SliceIter.setSplit, fromBytes, hb]
        simp [Iterator.next, Iterator.nextIter, SliceIter.value, SliceIter.after, Slice.sub, hnext]
        omega)
    exact absurd this.2.2 (by simp only []; omega)
  · intro hs m parts v hp hv
    have hsame : sliceAfter s (parts.flatMap (·.2)) = s := by
      have : ∀ ops : List (SliceOp .words), (∀ t, .setText t ∉ ops) → sliceAfter s ops = s := by
        intro ops
        induction ops with
        | nil => intro _; rfl
        | cons op ops ih =>
          intro h
          cases op with
          | setText t => exact absurd List.mem_cons_self (h t)
          | _ => exact ih fun t ht => h t (List.mem_cons_of_mem _ ht)
      refine this _ fun t ht => ?_
      obtain ⟨part, h1, h2⟩ := List.mem_flatMap.mp ht
      exact hp part h1 t h2
    have := C60_partial s hs m parts (fun part h1 t h2 => absurd h2 (hp part h1 t)) v hv
    rwa [hsame] at this

-- The same without further capacity: `Value` panics.
example : runSliceObs (memoryOf [0x2C, 0x78, 0x79])
    ((fromBytes .words ⟨1, 0, 1, 1⟩).setSplit fun _ _ => .ok ⟨3, none, none⟩) [.next, .value]
    = [.fault (.panic "splitFunc advanced beyond end of data"), .fault .bounds] := by decide +kernel

end Uax29
