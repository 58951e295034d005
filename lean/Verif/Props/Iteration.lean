import Verif.Spec.Iteration
import Verif.Proofs.Segs
/-!
# Properties of iteration, for all packages, configurations and inputs: C01 - C06, C38, C43

`tokens p c data` is what a user's loop `for it.Next() { use(it.Value()) }` collects.
-/
namespace Uax29

/-- **C01** The tokens exist, none is empty, and together they are the input. -/
theorem C01_lossless (p : Pkg) (c : Config p) (data : Bytes) :
    ∃ ts, tokens p c data = .ok ts ∧ ts.flatten = data ∧ ∀ t ∈ ts, t ≠ [] :=
  ⟨_, tokens_eq p c data, (Iterator.goodAdv p c).segs_flatten data,
    (Iterator.goodAdv p c).segs_ne_nil data⟩

/-- C01 for an iterator that has not been configured. -/
theorem C01_lossless_default (p : Pkg) (data : Bytes) :
    ∃ ts, defaultTokens p data = .ok ts ∧ ts.flatten = data ∧ ∀ t ∈ ts, t ≠ [] := by
  rw [defaultTokens_eq]
  exact C01_lossless p _ data

-- "a" + ill-formed byte + "b", CR LF, a flag cut short: all four packages
example : defaultTokens .words [0x61, 0xFF, 0x62, 0x0D, 0x0A, 0xF0, 0x9F] =
    .ok [[0x61], [0xFF], [0x62], [0x0D, 0x0A, 0xF0, 0x9F]] := by decide +kernel
example : tokens .words (some ⟨some [0x2D], none⟩) [0x61, 0x2D, 0x62] = .ok [[0x61, 0x2D, 0x62]] := by
  decide +kernel

theorem runObs_next_false {p : Pkg} (c : Config p) (data : Bytes) (pos start : Nat)
    (h : data.length ≤ pos) (k : Nat) :
    runObs (Iterator.mk' p c data pos start) (List.replicate k .next)
      = List.replicate k (.bool false) := by
  induction k with
  | zero => rfl
  | succ k ih =>
    simp only [List.replicate_succ, runObs, Op.run, Iterator.next_eq, if_neg (Nat.not_lt.mpr h), ih]

theorem runObs_next {p : Pkg} (c : Config p) (data : Bytes) : ∀ pos start, pos ≤ data.length →
    ∃ n, n ≤ data.length - pos ∧ ∀ k,
      runObs (Iterator.mk' p c data pos start) (List.replicate k .next)
        = List.replicate (min k n) (.bool true) ++ List.replicate (k - n) (.bool false) := by
  intro pos
  induction hm : data.length - pos using Nat.strongRecOn generalizing pos with
  | _ m ih =>
    intro start hp
    by_cases h : pos < data.length
    · have hd : data.drop pos ≠ [] := by simp; omega
      have h1 := (Iterator.goodAdv p c).pos _ hd
      have h2 := (Iterator.goodAdv p c).le _ hd
      rw [List.length_drop] at h2
      obtain ⟨n, hn, hk⟩ := ih _ (by omega) (pos + Iterator.advOf p c (data.drop pos)) rfl pos (by omega)
      refine ⟨n + 1, by omega, fun k => ?_⟩
      cases k with
      | zero => simp [runObs]
      | succ k =>
        simp only [List.replicate_succ, runObs, Op.run, Iterator.next_eq, if_pos h, hk]
        rw [Nat.add_min_add_right, List.replicate_succ, Nat.add_sub_add_right]
        rfl
    · refine ⟨0, by omega, fun k => ?_⟩
      rw [runObs_next_false c data pos start (by omega)]
      simp

/-- **C02** The first calls of `Next`, at most as many as the input has bytes, return true; all
further calls return false. (That every call returns is part of it: a call that does not return or
panics would be seen as a fault.) -/
theorem C02_ends (p : Pkg) (c : Config p) (data : Bytes) :
    ∃ n, n ≤ data.length ∧ ∀ k,
      runObs ((Iterator.fromBytes p data).config c) (List.replicate k .next)
        = List.replicate (min k n) (.bool true) ++ List.replicate (k - n) (.bool false) := by
  rw [Iterator.config_fromBytes]
  exact runObs_next c data 0 0 (by simp)

example : runObs (Iterator.fromBytes .graphemes [0x0D, 0x0A, 0x61]) (List.replicate 4 .next)
    = [.bool true, .bool true, .bool false, .bool false] := by decide +kernel

/-- **C03** No call in any history panics or fails to return. -/
theorem C03_no_fault (p : Pkg) (data : Bytes) (ops : List (Op p)) :
    ∀ o ∈ runObs (Iterator.fromBytes p data) ops, ∀ f, o ≠ .fault f := by
  have := Iterator.Reach.fromBytes p data
  generalize Iterator.fromBytes p data = it at this
  induction ops generalizing it with
  | nil => simp [runObs]
  | cons op ops ih =>
    intro o ho
    rcases List.mem_cons.mp ho with rfl | ho
    · exact (this.run op).2
    · exact ih _ (this.run op).1 o ho

-- Value before the first Next, Next past the end, a new text shorter than the position
example : runObs (Iterator.fromBytes .sentences [0x61, 0x62])
    [.value, .next, .next, .value, .setText [0x63], .value, .next, .end, .first, .reset, .start]
    = [.bytes [], .bool true, .bool false, .bytes [0x61, 0x62], .unit, .bytes [], .bool true, .nat 1,
       .bytes [0x63], .unit, .nat 0] := by decide +kernel

theorem contiguous_segsPos {adv : Bytes → Nat} (h : GoodAdv adv) (data : Bytes) (d : Bytes) :
    ∀ p, p ≤ data.length → data.drop p = d →
      Spec.Contiguous data p (segsPos adv p d) data.length := by
  induction d using h.induction with
  | hnil =>
    intro p hp hd
    rw [segsPos_nil]
    have : data.length - p = 0 := by simpa using congrArg List.length hd
    simp only [Spec.Contiguous]; omega
  | hcons d hd ih =>
    intro p hp he
    have h1 := h.pos d hd
    have h2 := h.le d hd
    have h3 : d.length = data.length - p := by rw [← he]; simp
    rw [h.segsPos_cons hd]
    refine ⟨rfl, by omega, by omega, by simp; omega, ?_, ih _ (by omega) (by rw [← he]; simp)⟩
    intro i hi
    rw [List.getElem?_take_of_lt (by omega), ← he, List.getElem?_drop]

/-- **C04** `Start`, `End` and `Value` describe contiguous pieces of the data, from its start to its
end; the values are the tokens. -/
theorem C04_positions (p : Pkg) (c : Config p) (data : Bytes) :
    ∃ ps, positions p c data = .ok ps ∧ Spec.Contiguous data 0 ps data.length
      ∧ tokens p c data = .ok (ps.map fun t => t.2.2) := by
  refine ⟨_, positions_eq p c data, contiguous_segsPos (Iterator.goodAdv p c) data data 0 (by simp)
    (by simp), ?_⟩
  rw [tokens_eq]
  congr 1
  have : ∀ d q, segs (Iterator.advOf p c) d
      = (segsPos (Iterator.advOf p c) q d).map fun t => t.2.2 := by
    intro d
    induction d using (Iterator.goodAdv p c).induction with
    | hnil => intro q; simp [segs_nil, segsPos_nil]
    | hcons d hd ih =>
      intro q
      rw [(Iterator.goodAdv p c).segs_cons hd, (Iterator.goodAdv p c).segsPos_cons hd,
        List.map_cons, ← ih]
  exact this data 0

example : positions .words none [0x61, 0x20, 0x62, 0x63]
    = .ok [(0, 1, [0x61]), (1, 2, [0x20]), (2, 4, [0x62, 0x63])] := by decide +kernel

theorem runState_append {p : Pkg} (it : Iterator p) (ops ops' : List (Op p)) :
    runState it (ops ++ ops') = runState (runState it ops) ops' := by
  induction ops generalizing it with
  | nil => rfl
  | cons op ops ih => exact ih _

theorem runObs_append {p : Pkg} (it : Iterator p) (ops ops' : List (Op p)) :
    runObs it (ops ++ ops') = runObs it ops ++ runObs (runState it ops) ops' := by
  induction ops generalizing it with
  | nil => rfl
  | cons op ops ih => simp only [List.cons_append, runObs, runState, ih]

theorem runState_mk' {p : Pkg} (ops : List (Op p)) : ∀ (c : Config p) (o : Option (Config p)) data
    pos start, c = o.getD (Iterator.defaultConfig p) →
    ∃ pos' start', runState (Iterator.mk' p c data pos start) ops
      = Iterator.mk' p ((Spec.configAfter o ops).getD (Iterator.defaultConfig p))
          (Spec.textAfter data ops) pos' start' := by
  induction ops with
  | nil => intro c o data pos start h; exact ⟨pos, start, by rw [h]; rfl⟩
  | cons op ops ih =>
    intro c o data pos start h
    cases op with
    | next =>
      simp only [runState, Op.run, Iterator.next_eq]
      split
      · exact ih c o data _ _ h
      · exact ih c o data _ _ h
    | setText t => exact ih c o t _ _ h
    | config c' =>
      simp only [runState, Op.run, Iterator.config_mk']
      exact ih c' (some c') data _ _ rfl
    | value => exact ih c o data _ _ h
    | start => exact ih c o data _ _ h
    | «end» => exact ih c o data _ _ h
    | first => exact ih c o data _ _ h
    | reset => exact ih c o data _ _ h

theorem fresh_eq (p : Pkg) (c : Option (Config p)) (t : Bytes) :
    Spec.fresh p c t = Iterator.mk' p (c.getD (Iterator.defaultConfig p)) t 0 0 := by
  cases c with
  | none => exact Iterator.fromBytes_eq p t
  | some c => exact Iterator.config_fromBytes p c t

/-- **C05** `First` after any history: it returns the first token of a fresh iteration over the
current text with the current configuration (nothing if the text is empty), and what is seen of later
calls is as without it. -/
theorem C05_first (p : Pkg) (data : Bytes) (ops ops' : List (Op p)) :
    ∃ ts later, (Spec.fresh p (Spec.configAfter none ops) (Spec.textAfter data ops)).tokens = .ok ts
      ∧ runObs (Iterator.fromBytes p data) (ops ++ .first :: ops')
        = runObs (Iterator.fromBytes p data) ops ++ .bytes (ts.head?.getD []) :: later
      ∧ runObs (Iterator.fromBytes p data) (ops ++ ops')
        = runObs (Iterator.fromBytes p data) ops ++ later := by
  obtain ⟨pos, start, hr⟩ := runState_mk' ops (Iterator.defaultConfig p) none data 0 0 rfl
  rw [← Iterator.fromBytes_eq] at hr
  refine ⟨segs (Iterator.advOf p ((Spec.configAfter none ops).getD (Iterator.defaultConfig p)))
    (Spec.textAfter data ops), runObs (runState (Iterator.fromBytes p data) ops) ops', ?_, ?_, runObs_append _ _ _⟩
  · rw [fresh_eq]
    exact (Iterator.spec p _).tokensWith_eq rfl
  · rw [runObs_append]
    simp only [runObs, Op.run, hr, Iterator.first_eq, Obs.ofRes]
    generalize Spec.textAfter data ops = t
    generalize (Spec.configAfter none ops).getD (Iterator.defaultConfig p) = c
    by_cases ht : t = []
    · subst ht; simp [segs_nil]
    · rw [(Iterator.goodAdv p c).segs_cons ht]; rfl

example : runObs (Iterator.fromBytes .words [0x61, 0x62, 0x20, 0x63]) [.next, .next, .first, .value]
    = [.bool true, .bool true, .bytes [0x61, 0x62], .bytes [0x20]] := by decide +kernel

/-- **C06** After any history, `Reset` makes the iterator indistinguishable from a fresh one over the
same text and `SetText` from a fresh one over the new text, with the same configuration. -/
theorem C06_reset (p : Pkg) (data : Bytes) (ops ops' : List (Op p)) :
    runObs (Iterator.fromBytes p data) (ops ++ .reset :: ops')
      = runObs (Iterator.fromBytes p data) ops ++ .unit ::
        runObs (Spec.fresh p (Spec.configAfter none ops) (Spec.textAfter data ops)) ops' := by
  obtain ⟨pos, start, hr⟩ := runState_mk' ops (Iterator.defaultConfig p) none data 0 0 rfl
  rw [← Iterator.fromBytes_eq] at hr
  rw [runObs_append, fresh_eq]
  simp only [runObs, Op.run, hr]
  rfl

/-- **C06** for `SetText`. -/
theorem C06_setText (p : Pkg) (data t : Bytes) (ops ops' : List (Op p)) :
    runObs (Iterator.fromBytes p data) (ops ++ .setText t :: ops')
      = runObs (Iterator.fromBytes p data) ops ++ .unit ::
        runObs (Spec.fresh p (Spec.configAfter none ops) t) ops' := by
  obtain ⟨pos, start, hr⟩ := runState_mk' ops (Iterator.defaultConfig p) none data 0 0 rfl
  rw [← Iterator.fromBytes_eq] at hr
  rw [runObs_append, fresh_eq]
  simp only [runObs, Op.run, hr]
  rfl

-- joiners survive SetText and Reset
example : runObs (Iterator.fromBytes .words [0x61])
    [.config (some ⟨some [0x2D], none⟩), .next, .setText [0x61, 0x2D, 0x62], .next, .value, .reset,
     .next, .value]
    = [.unit, .bool true, .unit, .bool true, .bytes [0x61, 0x2D, 0x62], .unit, .bool true,
       .bytes [0x61, 0x2D, 0x62]] := by decide +kernel

/-- **C38** Tokenizing the rest of the text after some of its tokens gives the other tokens. -/
theorem C38_resume (p : Pkg) (c : Config p) (data : Bytes) (a b : List Bytes)
    (h : tokens p c data = .ok (a ++ b)) :
    data = a.flatten ++ data.drop a.flatten.length
      ∧ tokens p c (data.drop a.flatten.length) = .ok b := by
  rw [tokens_eq] at h ⊢
  have h' := Except.ok.inj h
  have hf := (Iterator.goodAdv p c).segs_flatten data
  constructor
  · rw [h', List.flatten_append] at hf
    rw [← hf]; simp
  · rw [(Iterator.goodAdv p c).segs_resume data a b h']

example : tokens .sentences () [0x41, 0x2E, 0x20, 0x42, 0x2E]
    = .ok ([[0x41, 0x2E, 0x20]] ++ [[0x42, 0x2E]]) := by decide +kernel

/-- **C43** In a program with several iterators, of whatever packages, what is seen of the calls on
one of them is what would be seen if they were the only ones. -/
theorem C43_independent {ι : Type} [DecidableEq ι] {pkg : ι → Pkg}
    (its : (i : ι) → Iterator (pkg i)) (calls : List ((i : ι) × Op (pkg i))) (i : ι) :
    Spec.seenOf i (runMany its calls) = runObs (its i) (Spec.callsOn i calls) := by
  induction calls generalizing its with
  | nil => rfl
  | cons call calls ih =>
    obtain ⟨k, op⟩ := call
    simp only [runMany, Spec.seenOf, Spec.callsOn]
    by_cases h : k = i
    · subst h
      simp only [if_true, dif_pos, runObs, ih]
    · rw [if_neg h, dif_neg h, ih, dif_neg (Ne.symm h)]

example : runMany (pkg := fun b : Bool => if b then .words else .words)
    (fun b => Iterator.fromBytes _ (if b then [0x61, 0x20] else [0x62]))
    [⟨true, .next⟩, ⟨false, .next⟩, ⟨true, .next⟩, ⟨false, .next⟩, ⟨true, .value⟩]
    = [⟨true, .bool true⟩, ⟨false, .bool true⟩, ⟨true, .bool true⟩, ⟨false, .bool false⟩,
       ⟨true, .bytes [0x20]⟩] := by rfl

end Uax29
