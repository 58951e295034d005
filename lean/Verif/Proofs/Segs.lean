import Verif.Model.History
import Verif.Proofs.Iter
/-! # Greedy splitting by an advance function, and the user loops -/
namespace Uax29

/-- Split `d` by repeatedly taking `adv` of the rest. -/
def segs (adv : Bytes → Nat) (d : Bytes) : List Bytes :=
  if _h : d = [] then []
  else if _h' : adv d = 0 then []
  else d.take (adv d) :: segs adv (d.drop (adv d))
termination_by d.length
decreasing_by
  have : 0 < d.length := List.length_pos_iff.mpr ‹_›
  simp; omega

/-- The advance function moves, and stays inside the data. -/
structure GoodAdv (adv : Bytes → Nat) : Prop where
  pos : ∀ d, d ≠ [] → 0 < adv d
  le : ∀ d, d ≠ [] → adv d ≤ d.length

theorem NextSpec.goodAdv {split : SplitFn} {next : Iter → Iter × NextOut} {adv : Bytes → Nat}
    (h : NextSpec split next adv) : GoodAdv adv := ⟨h.adv_pos, h.adv_le⟩

theorem segs_nil (adv : Bytes → Nat) : segs adv [] = [] := by rw [segs]; simp

theorem GoodAdv.segs_cons {adv : Bytes → Nat} (h : GoodAdv adv) {d : Bytes} (hd : d ≠ []) :
    segs adv d = d.take (adv d) :: segs adv (d.drop (adv d)) := by
  have := h.pos d hd
  rw [segs, dif_neg hd, dif_neg (by omega)]

/-- Induction over the tokens. -/
theorem GoodAdv.induction {adv : Bytes → Nat} (h : GoodAdv adv) {P : Bytes → Prop} (hnil : P [])
    (hcons : ∀ d, d ≠ [] → P (d.drop (adv d)) → P d) : ∀ d, P d := by
  intro d
  induction hn : d.length using Nat.strongRecOn generalizing d with
  | _ n ih =>
    by_cases hd : d = []
    · exact hd ▸ hnil
    · have h1 := h.pos d hd
      have h2 := h.le d hd
      exact hcons d hd (ih (d.drop (adv d)).length (by simp; omega) _ rfl)

theorem GoodAdv.segs_flatten {adv : Bytes → Nat} (h : GoodAdv adv) (d : Bytes) :
    (segs adv d).flatten = d := by
  induction d using h.induction with
  | hnil => simp [segs_nil]
  | hcons d hd ih => rw [h.segs_cons hd, List.flatten_cons, ih, List.take_append_drop]

theorem GoodAdv.segs_ne_nil {adv : Bytes → Nat} (h : GoodAdv adv) (d : Bytes) :
    ∀ t ∈ segs adv d, t ≠ [] := by
  induction d using h.induction with
  | hnil => simp [segs_nil]
  | hcons d hd ih =>
    rw [h.segs_cons hd]
    intro t ht
    rcases List.mem_cons.mp ht with rfl | ht
    · have := h.pos d hd
      have := List.length_pos_iff.mpr hd
      rw [ne_eq, List.take_eq_nil_iff]
      rintro (h0 | h0)
      · omega
      · exact hd h0
    · exact ih t ht

theorem GoodAdv.segs_length {adv : Bytes → Nat} (h : GoodAdv adv) (d : Bytes) :
    (segs adv d).length ≤ d.length := by
  induction d using h.induction with
  | hnil => simp [segs_nil]
  | hcons d hd ih =>
    have := h.pos d hd
    have := h.le d hd
    rw [h.segs_cons hd]
    simp at ih ⊢
    omega

/-- Splitting the rest after some of the tokens gives the other tokens. -/
theorem GoodAdv.segs_resume {adv : Bytes → Nat} (h : GoodAdv adv) (d : Bytes) :
    ∀ a b, segs adv d = a ++ b → segs adv (d.drop a.flatten.length) = b := by
  induction d using h.induction with
  | hnil => intro a b hab; simp [segs_nil] at hab; simp [hab, segs_nil]
  | hcons d hd ih =>
    intro a b hab
    cases a with
    | nil => simpa using hab
    | cons t a =>
      rw [h.segs_cons hd] at hab
      simp only [List.cons_append, List.cons.injEq] at hab
      have hle := h.le d hd
      have := ih a b hab.2
      rw [List.drop_drop] at this
      rw [List.flatten_cons, List.length_append, ← hab.1, List.length_take, Nat.min_eq_left hle]
      exact this

/-- Two advance functions that agree on every rest that occurs give the same tokens. -/
theorem segs_congr {adv adv' : Bytes → Nat} (h : ∀ d, adv d = adv' d) : segs adv = segs adv' := by
  have : adv = adv' := funext h
  rw [this]

/-- The same, with the advance looked at only for non-empty rests. -/
theorem GoodAdv.segs_congr {adv adv' : Bytes → Nat} (h : GoodAdv adv) (h' : GoodAdv adv')
    (he : ∀ d, d ≠ [] → adv d = adv' d) (d : Bytes) : segs adv d = segs adv' d := by
  induction d using h.induction with
  | hnil => rw [segs_nil, segs_nil]
  | hcons d hd ih => rw [h.segs_cons hd, ih, h'.segs_cons hd, he d hd]

/-! ## the user loops -/

theorem value_ok {it : Iter} (h1 : it.start ≤ it.pos) (h2 : it.pos ≤ it.data.length) :
    it.value = .ok ((it.data.drop it.start).take (it.pos - it.start)) := by
  simp [Iter.value, sliceFromTo, h1, h2]

variable {split : SplitFn} {next : Iter → Iter × NextOut} {adv : Bytes → Nat}

theorem NextSpec.collect_eq (h : NextSpec split next adv) : ∀ fuel it, it.split = split →
    it.data.length - it.pos < fuel →
    collect next fuel it = .ok (segs adv (it.data.drop it.pos)) := by
  intro fuel
  induction fuel with
  | zero => intro it _ hf; omega
  | succ fuel ih =>
    intro it hs hf
    simp only [collect]
    by_cases hp : it.pos < it.data.length
    · have hd : it.data.drop it.pos ≠ [] := by simp; omega
      have h1 := h.adv_pos _ hd
      have h2 : adv (it.data.drop it.pos) ≤ it.data.length - it.pos := by
        simpa using h.adv_le _ hd
      rw [h.next_lt it hs hp]
      simp only
      rw [value_ok (by simp) (by simp; omega), ih ⟨it.split, it.data, it.pos + adv (it.data.drop it.pos), it.pos⟩ hs (by simp; omega),
        h.goodAdv.segs_cons hd]
      simp [List.drop_drop]
    · rw [h.next_ge it hs (by omega)]
      have hd : it.data.drop it.pos = [] := by simp; omega
      simp [hd, segs_nil]

theorem NextSpec.tokensWith_eq (h : NextSpec split next adv) {it : Iter} (hs : it.split = split) :
    tokensWith next it = .ok (segs adv (it.data.drop it.pos)) :=
  h.collect_eq _ it hs (by omega)

theorem NextSpec.first_eq (h : NextSpec split next adv) {it : Iter} (hs : it.split = split) :
    it.firstWith next = .ok (it.data.take (adv it.data)) := by
  unfold Iter.firstWith
  by_cases hl : it.data.length = 0
  · have : it.data = [] := List.length_eq_zero_iff.mp hl
    simp [this]
  · have hd : it.data ≠ [] := by intro h; simp [h] at hl
    have h2 := h.adv_le _ hd
    rw [if_neg hl, h.next_lt ⟨it.split, it.data, 0, 0⟩ hs (by simp; omega)]
    simp only
    rw [value_ok (by simp) (by simpa using h2)]
    simp

/-- Start, end and value of the tokens of `d`, which begins at position `p`. -/
def segsPos (adv : Bytes → Nat) (p : Nat) (d : Bytes) : List (Nat × Nat × Bytes) :=
  if _h : d = [] then []
  else if _h' : adv d = 0 then []
  else (p, p + adv d, d.take (adv d)) :: segsPos adv (p + adv d) (d.drop (adv d))
termination_by d.length
decreasing_by
  have : 0 < d.length := List.length_pos_iff.mpr ‹_›
  simp; omega

theorem segsPos_nil (adv : Bytes → Nat) (p : Nat) : segsPos adv p [] = [] := by rw [segsPos]; simp

theorem GoodAdv.segsPos_cons {adv : Bytes → Nat} (h : GoodAdv adv) {d : Bytes} (hd : d ≠ []) (p : Nat) :
    segsPos adv p d = (p, p + adv d, d.take (adv d)) :: segsPos adv (p + adv d) (d.drop (adv d)) := by
  have := h.pos d hd
  rw [segsPos, dif_neg hd, dif_neg (by omega)]

theorem NextSpec.collectPos_eq (h : NextSpec split next adv) : ∀ fuel it, it.split = split →
    it.data.length - it.pos < fuel →
    collectPos next fuel it = .ok (segsPos adv it.pos (it.data.drop it.pos)) := by
  intro fuel
  induction fuel with
  | zero => intro it _ hf; omega
  | succ fuel ih =>
    intro it hs hf
    simp only [collectPos]
    by_cases hp : it.pos < it.data.length
    · have hd : it.data.drop it.pos ≠ [] := by simp; omega
      have h1 := h.adv_pos _ hd
      have h2 : adv (it.data.drop it.pos) ≤ it.data.length - it.pos := by
        simpa using h.adv_le _ hd
      rw [h.next_lt it hs hp]
      simp only
      rw [value_ok (by simp) (by simp; omega), ih ⟨it.split, it.data, it.pos + adv (it.data.drop it.pos), it.pos⟩ hs (by simp; omega),
        h.goodAdv.segsPos_cons hd]
      simp [List.drop_drop, Iter.start', Iter.end']
    · rw [h.next_ge it hs (by omega)]
      have hd : it.data.drop it.pos = [] := by simp; omega
      simp [hd, segsPos_nil]

/-! ## the packages -/
namespace Iterator

/-- The split function of an iterator of package `p` with configuration `c`. -/
def splitOf : (p : Pkg) → Config p → SplitFn
  | .graphemes, _ => Graphemes.splitFunc
  | .words, j => Words.joinersSplitFunc j
  | .phrases, _ => Phrases.splitFunc
  | .sentences, _ => Sentences.splitFunc

/-- The options of an iterator of package `p` with configuration `c`. -/
def optsOf : (p : Pkg) → Config p → Graphemes.Options
  | .graphemes, o => o
  | .words, _ => {}
  | .phrases, _ => {}
  | .sentences, _ => {}

/-- The configuration of a fresh iterator. -/
def defaultConfig : (p : Pkg) → Config p
  | .graphemes => ({} : Graphemes.Options)
  | .words => some (⟨none, none⟩ : Words.Joiners)
  | .phrases => ()
  | .sentences => ()

/-- How far `Next` moves. -/
def advOf : (p : Pkg) → Config p → Bytes → Nat
  | .graphemes, o => Graphemes.adv o Graphemes.splitFunc
  | .words, j => Words.adv (Words.joinersSplitFunc j)
  | .phrases, _ => skipAdv Phrases.splitFunc
  | .sentences, _ => skipAdv Sentences.splitFunc

theorem spec : (p : Pkg) → (c : Config p) →
    NextSpec (splitOf p c) (nextIter p (optsOf p c)) (advOf p c)
  | .graphemes, o => Graphemes.next_spec o Graphemes.good
  | .words, j => Words.next_spec (Words.joiners_good j)
  | .phrases, _ => Phrases.next_spec
  | .sentences, _ => Sentences.next_spec

/-- A fresh iterator over `data` with configuration `c`, field by field. -/
def mk' (p : Pkg) (c : Config p) (data : Bytes) (pos start : Nat) : Iterator p :=
  ⟨⟨splitOf p c, data, pos, start⟩, optsOf p c⟩

theorem config_fromBytes (p : Pkg) (c : Config p) (data : Bytes) :
    (fromBytes p data).config c = mk' p c data 0 0 := by
  cases p <;> rfl

theorem fromBytes_eq (p : Pkg) (data : Bytes) : fromBytes p data = mk' p (defaultConfig p) data 0 0 := by
  cases p <;> rfl

theorem config_mk' (p : Pkg) (c c' : Config p) (data : Bytes) (pos start : Nat) :
    (mk' p c data pos start).config c' = mk' p c' data pos start := by
  cases p <;> rfl

theorem goodAdv (p : Pkg) (c : Config p) : GoodAdv (advOf p c) := (spec p c).goodAdv

end Iterator

theorem tokens_eq (p : Pkg) (c : Config p) (data : Bytes) :
    tokens p c data = .ok (segs (Iterator.advOf p c) data) := by
  rw [tokens, Iterator.config_fromBytes, Iterator.tokens]
  exact (Iterator.spec p c).tokensWith_eq rfl

theorem defaultTokens_eq (p : Pkg) (data : Bytes) :
    defaultTokens p data = tokens p (Iterator.defaultConfig p) data := by
  rw [tokens, Iterator.config_fromBytes, defaultTokens, Iterator.fromBytes_eq]

theorem positions_eq (p : Pkg) (c : Config p) (data : Bytes) :
    positions p c data = .ok (segsPos (Iterator.advOf p c) 0 data) := by
  rw [positions, Iterator.config_fromBytes]
  exact (Iterator.spec p c).collectPos_eq _ _ rfl (by simp [Iterator.mk'])

/-! ## histories -/

/-- The states an iterator can be in: some configuration, text and positions inside it. -/
def Iterator.Reach {p : Pkg} (it : Iterator p) : Prop :=
  ∃ c data pos start, it = Iterator.mk' p c data pos start ∧ start ≤ pos ∧ pos ≤ data.length

theorem Iterator.next_eq {p : Pkg} (c : Config p) (data : Bytes) (pos start : Nat) :
    (Iterator.mk' p c data pos start).next =
      if pos < data.length then
        (Iterator.mk' p c data (pos + advOf p c (data.drop pos)) pos, .ret true)
      else (Iterator.mk' p c data pos start, .ret false) := by
  by_cases h : pos < data.length
  · have := (spec p c).next_lt ⟨splitOf p c, data, pos, start⟩ rfl h
    simp only [Iterator.next, Iterator.mk', if_pos h, this]
  · have := (spec p c).next_ge ⟨splitOf p c, data, pos, start⟩ rfl (by simp; omega)
    simp only [Iterator.next, Iterator.mk', if_neg h, this]

theorem Iterator.first_eq {p : Pkg} (c : Config p) (data : Bytes) (pos start : Nat) :
    (Iterator.mk' p c data pos start).first = .ok (data.take (advOf p c data)) :=
  (spec p c).first_eq rfl

theorem Iterator.Reach.run {p : Pkg} {it : Iterator p} (h : it.Reach) (op : Op p) :
    (op.run it).1.Reach ∧ ∀ f, (op.run it).2 ≠ .fault f := by
  obtain ⟨c, data, pos, start, rfl, h1, h2⟩ := h
  cases op with
  | next =>
    simp only [Op.run, Iterator.next_eq]
    split
    · rename_i hp
      have hd : data.drop pos ≠ [] := by simp; omega
      have h4 := (Iterator.goodAdv p c).le _ hd
      simp at h4
      exact ⟨⟨c, data, _, pos, rfl, by omega, by omega⟩, by intro f h; cases h⟩
    · exact ⟨⟨c, data, pos, start, rfl, h1, h2⟩, by intro f h; cases h⟩
  | value =>
    refine ⟨⟨c, data, pos, start, rfl, h1, h2⟩, ?_⟩
    intro f
    simp only [Op.run]
    rw [value_ok (by exact h1) (by exact h2)]
    intro h; cases h
  | start => exact ⟨⟨c, data, pos, start, rfl, h1, h2⟩, by intro f h; cases h⟩
  | «end» => exact ⟨⟨c, data, pos, start, rfl, h1, h2⟩, by intro f h; cases h⟩
  | first =>
    refine ⟨⟨c, data, pos, start, rfl, h1, h2⟩, ?_⟩
    intro f
    simp only [Op.run, Iterator.first_eq]
    intro h; cases h
  | reset => exact ⟨⟨c, data, 0, 0, rfl, by simp, by simp⟩, by intro f h; cases h⟩
  | setText t => exact ⟨⟨c, t, 0, 0, rfl, by simp, by simp⟩, by intro f h; cases h⟩
  | config c' =>
    simp only [Op.run, Iterator.config_mk']
    exact ⟨⟨c', data, pos, start, rfl, h1, h2⟩, by intro f h; cases h⟩

theorem Iterator.Reach.fromBytes (p : Pkg) (data : Bytes) : (Iterator.fromBytes p data).Reach :=
  ⟨Iterator.defaultConfig p, data, 0, 0, Iterator.fromBytes_eq p data, by simp, by simp⟩

theorem Iterator.Reach.runState {p : Pkg} {it : Iterator p} (h : it.Reach) (ops : List (Op p)) :
    (runState it ops).Reach := by
  induction ops generalizing it with
  | nil => exact h
  | cons op ops ih => exact ih (h.run op).1

end Uax29
