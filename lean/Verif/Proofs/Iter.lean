import Verif.Model.Iterators
import Verif.Proofs.Contract
/-! # The iterators as repeated application of an advance function -/
namespace Uax29

/-- The advance a split function gives for the rest of the data. -/
def splitAdv (split : SplitFn) (d : Bytes) : Nat :=
  match split d true with
  | .ok r => r.advance.toNat
  | .error _ => 0

/-- At the end of the data the split function finds a token inside the data. -/
def GoodFn (split : SplitFn) : Prop :=
  ∀ d, d ≠ [] → ∃ k tok, 0 < k ∧ k ≤ d.length ∧ split d true = .ok ⟨Int.ofNat k, tok, none⟩

theorem GoodFn.of_good {split : SplitFn} (h : ∀ d, GoodSplit d true (split d true)) :
    GoodFn split := by
  intro d hd
  rcases h d with ⟨_, h | h⟩ | ⟨k, h1, h2, h3⟩
  · exact absurd h hd
  · cases h
  · exact ⟨k, _, h1, h2, h3⟩

theorem GoodFn.adv {split : SplitFn} (h : GoodFn split) {d : Bytes} (hd : d ≠ []) :
    0 < splitAdv split d ∧ splitAdv split d ≤ d.length := by
  obtain ⟨k, tok, h1, h2, h3⟩ := h d hd
  simp only [splitAdv, h3, Int.ofNat_eq_natCast, Int.toNat_natCast]
  exact ⟨h1, h2⟩

theorem callSplit_eq {it : Iter} (h : GoodFn it.split) (hp : it.pos < it.data.length) :
    it.callSplit = ({ it with pos := it.pos + splitAdv it.split (it.data.drop it.pos) }, .ret true) := by
  have hd : it.data.drop it.pos ≠ [] := by simp; omega
  obtain ⟨k, tok, h1, h2, h3⟩ := h _ hd
  have h2' : k ≤ it.data.length - it.pos := by simpa using h2
  have h4 : splitAdv it.split (it.data.drop it.pos) = k := by
    simp only [splitAdv, h3, Int.ofNat_eq_natCast, Int.toNat_natCast]
  have h5 : ¬ ((k : Int) ≤ 0) := by omega
  have h6 : ¬ (it.pos + k > it.data.length) := by omega
  simp only [Iter.callSplit, sliceFrom_ok (Nat.le_of_lt hp), h3, h4, if_neg h5,
    Int.ofNat_eq_natCast, Int.toNat_natCast, if_neg h6]

/-- `Next` of an iterator with the split function `split` moves by `adv` of the rest of the data. -/
structure NextSpec (split : SplitFn) (next : Iter → Iter × NextOut) (adv : Bytes → Nat) : Prop where
  adv_pos : ∀ d, d ≠ [] → 0 < adv d
  adv_le : ∀ d, d ≠ [] → adv d ≤ d.length
  next_lt : ∀ it : Iter, it.split = split → it.pos < it.data.length →
    next it = ({ it with start := it.pos, pos := it.pos + adv (it.data.drop it.pos) }, .ret true)
  next_ge : ∀ it : Iter, it.split = split → it.data.length ≤ it.pos → next it = (it, .ret false)

theorem countWhile_le (p : UInt8 → Bool) : ∀ d, countWhile p d ≤ d.length
  | [] => by simp [countWhile]
  | b :: rest => by
    have := countWhile_le p rest
    simp only [countWhile]
    split <;> simp <;> omega

theorem index_ok {data : Bytes} {i : Nat} (h : i < data.length) : index data i = .ok data[i] := by
  simp [index, h]

/-! ## words -/
namespace Words

/-- How far `Next` moves over the rest `d` of the data. -/
def adv (split : SplitFn) (d : Bytes) : Nat :=
  match d with
  | [] => 0
  | b :: rest =>
    if isASCIIAlphanumeric b then
      let e := 1 + countWhile isASCIIAlphanumeric rest
      if e ≥ d.length || d[e]? == some 0x20 then e else splitAdv split d
    else splitAdv split d

theorem next_spec {split : SplitFn} (h : GoodFn split) : NextSpec split next (adv split) where
  adv_pos d hd := by
    cases d with
    | nil => exact absurd rfl hd
    | cons b rest =>
      have := (h.adv hd).1
      simp only [adv]
      repeat' split
      all_goals omega
  adv_le d hd := by
    cases d with
    | nil => exact absurd rfl hd
    | cons b rest =>
      have := (h.adv hd).2
      have := countWhile_le isASCIIAlphanumeric rest
      simp only [adv]
      repeat' split
      all_goals (simp only [List.length_cons] at *; omega)
  next_ge it _ hp := by simp only [next, if_pos hp]
  next_lt it hs hp := by
    subst hs
    have hn : ¬ it.pos ≥ it.data.length := by omega
    simp only [next, if_neg hn, index_ok hp]
    have hd : it.data.drop it.pos = it.data[it.pos] :: it.data.drop (it.pos + 1) := by simp
    have hc := callSplit_eq (it := { it with start := it.pos }) h hp
    have hl : (it.data.drop it.pos).length = it.data.length - it.pos := by simp
    have hg : ∀ e, it.data[it.pos + 1 + e]? = (it.data.drop it.pos)[1 + e]? := by
      intro e; rw [List.getElem?_drop, Nat.add_assoc]
    simp only [hg]
    generalize it.data.drop (it.pos + 1) = rest at *
    rw [hc]
    simp only [adv, hd] at *
    generalize countWhile isASCIIAlphanumeric rest = e at *
    by_cases h1 : isASCIIAlphanumeric it.data[it.pos] = true
    · simp only [if_pos h1]
      have h2 : (decide (it.pos + 1 + e ≥ it.data.length)
          || (it.data[it.pos] :: rest)[1 + e]? == some 0x20)
          = (decide (1 + e ≥ (it.data[it.pos] :: rest).length)
          || (it.data[it.pos] :: rest)[1 + e]? == some 0x20) := by
        congr 1
        apply decide_eq_decide.mpr
        omega
      rw [h2]
      split
      · rw [Nat.add_assoc]
      · rfl
    · simp only [if_neg h1]

theorem joiners_good (j : Option Joiners) : GoodFn (joinersSplitFunc j) :=
  .of_good fun d => splitFunc_good j d true

end Words

/-! ## phrases and sentences -/

/-- How far `Next` of phrases and sentences moves over the rest `d` of the data. -/
def skipAdv (split : SplitFn) (d : Bytes) : Nat :=
  let c := countWhile isASCIIAlphanumericOrSpace d
  if c ≥ d.length then c else (c - 1) + splitAdv split (d.drop (c - 1))

theorem nextSkipping_spec {split : SplitFn} (h : GoodFn split) :
    NextSpec split Iter.nextSkipping (skipAdv split) where
  adv_pos d hd := by
    have hl : d.length ≠ 0 := by simpa using hd
    have hne : d.drop (countWhile isASCIIAlphanumericOrSpace d - 1) ≠ [] := by
      have := countWhile_le isASCIIAlphanumericOrSpace d
      simp; omega
    have := (h.adv hne).1
    simp only [skipAdv]
    split <;> omega
  adv_le d hd := by
    have hl : d.length ≠ 0 := by simpa using hd
    have := countWhile_le isASCIIAlphanumericOrSpace d
    have hne : d.drop (countWhile isASCIIAlphanumericOrSpace d - 1) ≠ [] := by
      simp; omega
    have h1 := (h.adv hne).2
    rw [List.length_drop] at h1
    simp only [skipAdv]
    split <;> omega
  next_ge it _ hp := by simp only [Iter.nextSkipping, if_pos hp]
  next_lt it hs hp := by
    subst hs
    have hn : ¬ it.pos ≥ it.data.length := by omega
    simp only [Iter.nextSkipping, if_neg hn, skipAdv]
    have hle := countWhile_le isASCIIAlphanumericOrSpace (it.data.drop it.pos)
    have hl : (it.data.drop it.pos).length = it.data.length - it.pos := by simp
    rw [hl] at hle ⊢
    rw [List.drop_drop]
    generalize countWhile isASCIIAlphanumericOrSpace (it.data.drop it.pos) = c at *
    by_cases h1 : it.pos + c ≥ it.data.length
    · have h2 : c ≥ it.data.length - it.pos := by omega
      simp only [if_pos h1, if_pos h2]
    · have h2 : ¬ c ≥ it.data.length - it.pos := by omega
      simp only [if_neg h1, if_neg h2]
      by_cases h3 : it.pos + c > it.pos
      · simp only [if_pos h3]
        rw [callSplit_eq (by exact h) (by simp; omega)]
        have : it.pos + c - 1 = it.pos + (c - 1) := by omega
        simp only [this, Nat.add_assoc]
      · have : c = 0 := by omega
        subst this
        simp only [if_neg h3]
        rw [callSplit_eq (by exact h) (by simp; omega)]
        simp

theorem Phrases.good : GoodFn Phrases.splitFunc := .of_good fun d => Phrases.splitFunc_good d true
theorem Sentences.good : GoodFn Sentences.splitFunc :=
  .of_good fun d => Sentences.splitFunc_good d true

theorem Phrases.next_spec : NextSpec splitFunc next (skipAdv splitFunc) :=
  nextSkipping_spec Phrases.good

theorem Sentences.next_spec : NextSpec splitFunc next (skipAdv splitFunc) :=
  nextSkipping_spec Sentences.good

/-! ## graphemes -/
namespace Graphemes

/-- How far the hot path and the split function move. -/
def advPlain (split : SplitFn) (d : Bytes) : Nat :=
  match d with
  | [] => 0
  | b :: rest =>
    if b.toNat < Utf8.runeSelf && b.toNat != cr then
      match rest with
      | [] => 1
      | b1 :: _ => if b1.toNat < Utf8.runeSelf then 1 else splitAdv split d
    else splitAdv split d

/-- How far `Next` with the 8-bit option moves, when the 7-bit option does not apply. -/
def adv8 (o : Options) (split : SplitFn) (d : Bytes) : Nat :=
  match d with
  | [] => 0
  | b :: _ =>
    if o.ansi8 && 0x80 ≤ b.toNat && b.toNat ≤ 0x9F then
      if ansiEscapeLength8Bit d > 0 then ansiEscapeLength8Bit d else advPlain split d
    else advPlain split d

/-- How far `Next` moves over the rest `d` of the data. -/
def adv (o : Options) (split : SplitFn) (d : Bytes) : Nat :=
  match d with
  | [] => 0
  | b :: _ =>
    if o.ansi7 && b.toNat == esc then
      if ansiEscapeLength d > 0 then ansiEscapeLength d else adv8 o split d
    else adv8 o split d

theorem csiLoop_le : ∀ (d : Bytes) (s : Bool) (i : Nat), csiLoop s i d ≤ i + d.length
  | [], s, i => by simp [csiLoop]
  | x :: rest, s, i => by
    have h1 := csiLoop_le rest s (i + 1)
    have h2 := csiLoop_le rest true (i + 1)
    simp only [csiLoop, List.length_cons]
    repeat' split
    all_goals omega

theorem nfLoop_le : ∀ (d : Bytes) (i : Nat), nfLoop i d ≤ i + d.length
  | [], i => by simp [nfLoop]
  | x :: rest, i => by
    have h1 := nfLoop_le rest (i + 1)
    simp only [nfLoop, List.length_cons]
    repeat' split
    all_goals omega

theorem isST7_length {x : UInt8} {rest : Bytes} (h : isST7 x rest = true) : 0 < rest.length := by
  cases rest with
  | nil => simp [isST7] at h
  | cons => simp

theorem oscLoop_le : ∀ (d : Bytes) (i n : Nat), oscLoop i d = some n → n ≤ i + d.length
  | [], i, n, h => by simp [oscLoop] at h
  | x :: rest, i, n, h => by
    have h1 := oscLoop_le rest (i + 1) n
    simp only [oscLoop] at h
    simp only [List.length_cons]
    repeat' split at h
    · cases h; omega
    · cases h; omega
    · rename_i h2; have := isST7_length h2; cases h; omega
    · have := h1 h; omega

theorem stLoop_le : ∀ (d : Bytes) (i n : Nat), stLoop i d = some n → n ≤ i + d.length
  | [], i, n, h => by simp [stLoop] at h
  | x :: rest, i, n, h => by
    have h1 := stLoop_le rest (i + 1) n
    simp only [stLoop] at h
    simp only [List.length_cons]
    repeat' split at h
    · cases h; omega
    · rename_i h2; have := isST7_length h2; cases h; omega
    · have := h1 h; omega

theorem oscLoopC1_le : ∀ (d : Bytes) (i n : Nat), oscLoopC1 i d = some n → n ≤ i + d.length
  | [], i, n, h => by simp [oscLoopC1] at h
  | x :: rest, i, n, h => by
    have h1 := oscLoopC1_le rest (i + 1) n
    simp only [oscLoopC1] at h
    simp only [List.length_cons]
    repeat' split at h
    · cases h; omega
    · cases h; omega
    · have := h1 h; omega

theorem stLoopC1_le : ∀ (d : Bytes) (i n : Nat), stLoopC1 i d = some n → n ≤ i + d.length
  | [], i, n, h => by simp [stLoopC1] at h
  | x :: rest, i, n, h => by
    have h1 := stLoopC1_le rest (i + 1) n
    simp only [stLoopC1] at h
    simp only [List.length_cons]
    repeat' split at h
    · cases h; omega
    · cases h; omega
    · have := h1 h; omega

theorem ansiEscapeLength_le (d : Bytes) : ansiEscapeLength d ≤ d.length := by
  match d with
  | [] => simp [ansiEscapeLength]
  | [_] => simp [ansiEscapeLength]
  | x0 :: x1 :: rest =>
    have h1 := csiLoop_le rest false 0
    have h2 := nfLoop_le rest 2
    simp only [ansiEscapeLength, csiBodyLength, oscLength, stSequenceLength, List.length_cons]
    repeat' split
    all_goals first
      | omega
      | (by_cases hz : csiLoop false 0 rest = 0 <;> simp only [hz, if_true, if_false] <;> omega)
      | (rename_i h; have := oscLoop_le _ _ _ h; omega)
      | (rename_i h; have := stLoop_le _ _ _ h; omega)

theorem ansiEscapeLength8Bit_le (d : Bytes) : ansiEscapeLength8Bit d ≤ d.length := by
  match d with
  | [] => simp [ansiEscapeLength8Bit]
  | x0 :: rest =>
    have h1 := csiLoop_le rest false 0
    simp only [ansiEscapeLength8Bit, csiBodyLength, oscLengthC1, stSequenceLengthC1, List.length_cons]
    repeat' split
    all_goals first
      | omega
      | (by_cases hz : csiLoop false 0 rest = 0 <;> simp only [hz, if_true, if_false] <;> omega)
      | (rename_i h; have := oscLoopC1_le _ _ _ h; omega)
      | (rename_i h; have := stLoopC1_le _ _ _ h; omega)

theorem advPlain_bounds {split : SplitFn} (h : GoodFn split) {d : Bytes} (hd : d ≠ []) :
    0 < advPlain split d ∧ advPlain split d ≤ d.length := by
  have h1 := h.adv hd
  cases d with
  | nil => exact absurd rfl hd
  | cons b rest =>
    simp only [advPlain]
    repeat' split
    all_goals (simp only [List.length_cons] at *; omega)

theorem adv8_bounds {o : Options} {split : SplitFn} (h : GoodFn split) {d : Bytes} (hd : d ≠ []) :
    0 < adv8 o split d ∧ adv8 o split d ≤ d.length := by
  have h1 := advPlain_bounds h hd
  have h2 := ansiEscapeLength8Bit_le d
  cases d with
  | nil => exact absurd rfl hd
  | cons b rest =>
    simp only [adv8]
    repeat' split
    all_goals (simp only [List.length_cons] at *; omega)

theorem adv_bounds {o : Options} {split : SplitFn} (h : GoodFn split) {d : Bytes} (hd : d ≠ []) :
    0 < adv o split d ∧ adv o split d ≤ d.length := by
  have h1 := adv8_bounds (o := o) h hd
  have h2 := ansiEscapeLength_le d
  cases d with
  | nil => exact absurd rfl hd
  | cons b rest =>
    simp only [adv]
    repeat' split
    all_goals (simp only [List.length_cons] at *; omega)

theorem nextPlain_eq {it : Iter} (h : GoodFn it.split) (hp : it.pos < it.data.length) :
    nextPlain it it.data[it.pos].toNat =
      ({ it with pos := it.pos + advPlain it.split (it.data.drop it.pos) }, .ret true) := by
  have hc := callSplit_eq h hp
  have hd : it.data.drop it.pos = it.data[it.pos] :: it.data.drop (it.pos + 1) := by simp
  unfold nextPlain
  rw [hc]
  by_cases h1 : it.pos + 1 ≥ it.data.length
  · have h2 : it.data.drop (it.pos + 1) = [] := by simp; omega
    rw [hd, h2]
    simp only [advPlain, if_pos h1]
    split <;> rfl
  · have h3 : it.data.drop (it.pos + 1) = it.data[it.pos + 1] :: it.data.drop (it.pos + 2) := by simp
    rw [hd, h3]
    simp only [advPlain, if_neg h1, index_ok (Nat.not_le.mp h1)]
    repeat' split
    all_goals rfl

theorem next_spec (o : Options) {split : SplitFn} (h : GoodFn split) :
    NextSpec split (next o) (adv o split) where
  adv_pos d hd := (adv_bounds h hd).1
  adv_le d hd := (adv_bounds h hd).2
  next_ge it _ hp := by simp only [next, if_pos hp]
  next_lt it hs hp := by
    subst hs
    have hn : ¬ it.pos ≥ it.data.length := by omega
    have hpl := nextPlain_eq (it := { it with start := it.pos }) h hp
    have hsl := sliceFrom_ok (Nat.le_of_lt hp)
    have hd : it.data.drop it.pos = it.data[it.pos] :: it.data.drop (it.pos + 1) := by simp
    have h8 : next8 o { it with start := it.pos } it.data[it.pos].toNat =
      ({ it with start := it.pos, pos := it.pos + adv8 o it.split (it.data.drop it.pos) }, .ret true) := by
      simp only [next8, hsl]
      simp only at hpl
      rw [hpl]
      generalize hl : it.data.drop it.pos = d at *
      subst hd
      simp only [adv8]
      repeat' split
      all_goals rfl
    simp only [next, if_neg hn, index_ok hp, hsl]
    rw [h8]
    generalize hl : it.data.drop it.pos = d at *
    subst hd
    simp only [adv]
    repeat' split
    all_goals rfl

theorem good : GoodFn splitFunc := .of_good fun d => splitFunc_good d true

end Graphemes
end Uax29
