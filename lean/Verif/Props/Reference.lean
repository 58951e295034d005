import Verif.Spec.Reference
import Verif.Props.Iteration
/-! # C49: every history of calls is seen as on the reference iterator -/
namespace Uax29

theorem firstToken_eq (p : Pkg) (c : Option (Config p)) {d : Bytes} (hd : d ≠ []) :
    Spec.firstToken p c d = d.take (Iterator.advOf p (c.getD (Iterator.defaultConfig p)) d) := by
  have : (Spec.fresh p c d).tokens
      = .ok (segs (Iterator.advOf p (c.getD (Iterator.defaultConfig p))) d) := by
    rw [fresh_eq]
    exact (Iterator.spec p _).tokensWith_eq rfl
  rw [Spec.firstToken, this, (Iterator.goodAdv p _).segs_cons hd]

theorem firstToken_nil (p : Pkg) (c : Option (Config p)) : Spec.firstToken p c [] = [] := by
  have : (Spec.fresh p c []).tokens
      = .ok (segs (Iterator.advOf p (c.getD (Iterator.defaultConfig p))) []) := by
    rw [fresh_eq]
    exact (Iterator.spec p _).tokensWith_eq rfl
  rw [Spec.firstToken, this, segs_nil]

/-- The iterator that a reference iterator stands for. -/
def iterOf {p : Pkg} (r : Spec.Ref p) : Iterator p :=
  Iterator.mk' p (r.conf.getD (Iterator.defaultConfig p)) (r.before ++ r.token ++ r.rest)
    (r.before ++ r.token).length r.before.length

theorem run_ref {p : Pkg} (r : Spec.Ref p) (op : Op p) :
    (op.run (iterOf r)).1 = iterOf (r.run op).1 ∧ (op.run (iterOf r)).2 = (r.run op).2 := by
  cases op with
  | next =>
    simp only [Op.run, iterOf, Iterator.next_eq, Spec.Ref.run]
    by_cases h : r.rest = []
    · rw [if_neg (by simp [h]), if_pos h]
      exact ⟨rfl, rfl⟩
    · have hl := List.length_pos_iff.mpr h
      have hd : (r.before ++ r.token ++ r.rest).drop (r.before ++ r.token).length = r.rest := by simp
      have hle := (Iterator.goodAdv p (r.conf.getD (Iterator.defaultConfig p))).le _ h
      rw [if_pos (by simp; omega), if_neg h, hd, firstToken_eq p _ h]
      refine ⟨?_, rfl⟩
      simp only [List.length_append, List.length_take, Nat.min_eq_left hle, List.append_assoc,
        List.take_append_drop, Nat.add_assoc]
  | value =>
    refine ⟨rfl, ?_⟩
    simp only [Op.run, Spec.Ref.run]
    rw [value_ok (by simp [iterOf, Iterator.mk']) (by simp [iterOf, Iterator.mk'])]
    simp [iterOf, Iterator.mk', Obs.ofRes]
  | start => exact ⟨rfl, rfl⟩
  | «end» => exact ⟨rfl, rfl⟩
  | first =>
    refine ⟨rfl, ?_⟩
    simp only [Op.run, Spec.Ref.run, iterOf, Iterator.first_eq, Obs.ofRes]
    by_cases h : r.before ++ r.token ++ r.rest = []
    · rw [h, firstToken_nil]; simp
    · rw [firstToken_eq p _ h]
  | reset => exact ⟨rfl, rfl⟩
  | setText t => exact ⟨rfl, rfl⟩
  | config c => simp only [Op.run, iterOf, Iterator.config_mk', Spec.Ref.run, Option.getD_some, and_self]

/-- **C49** What is seen of any sequence of calls on an iterator is what is seen of the same calls on
the reference iterator: a change of the configuration keeps the place and the current token and acts
on the tokens to come, `Next` at the end of the text changes nothing, and the other calls are as
described there. -/
theorem C49_reference (p : Pkg) (data : Bytes) (ops : List (Op p)) :
    runObs (Iterator.fromBytes p data) ops = Spec.Ref.obs ⟨none, [], [], data⟩ ops := by
  have : Iterator.fromBytes p data = iterOf (⟨none, [], [], data⟩ : Spec.Ref p) :=
    Iterator.fromBytes_eq p data
  rw [this]
  generalize (⟨none, [], [], data⟩ : Spec.Ref p) = r
  induction ops generalizing r with
  | nil => rfl
  | cons op ops ih => rw [runObs, Spec.Ref.obs, (run_ref r op).1, (run_ref r op).2, ih]

-- "a-b c-d", the joiner set after three tokens: the place is kept, the next words are joined
example : runObs (Iterator.fromBytes .words [0x61, 0x2D, 0x62, 0x20, 0x63, 0x2D, 0x64])
    [.next, .next, .next, .config (some ⟨some [0x2D], none⟩), .value, .start, .next, .next, .value, .start]
    = [.bool true, .bool true, .bool true, .unit, .bytes [0x62], .nat 2, .bool true, .bool true,
       .bytes [0x63, 0x2D, 0x64], .nat 4] := by decide +kernel
-- the same calls on the reference iterator
example : Spec.Ref.obs (p := .words) ⟨none, [], [], [0x61, 0x2D, 0x62, 0x20, 0x63, 0x2D, 0x64]⟩
    [.next, .next, .next, .config (some ⟨some [0x2D], none⟩), .value, .start, .next, .next, .value, .start]
    = [.bool true, .bool true, .bool true, .unit, .bytes [0x62], .nat 2, .bool true, .bool true,
       .bytes [0x63, 0x2D, 0x64], .nat 4] := by decide +kernel

end Uax29
