import Verif.Proofs.Cost
import Verif.Proofs.Iter
/-!
# A bound on the work that is linear in the text

A pass of a loop of `splitFunc` looks up one piece, and it may look ahead over the ignorable pieces that
follow, at most three times. The next pass looks at those ignorable pieces again, once each, and the next
call of `Next` at the first piece after the break again, at most once more with its look-aheads. `Pot`
is the bound on the work from the start of a token to the end of the text that accounts for this: the
ignorable pieces after the first piece of a token get a credit.
-/
namespace Uax29

/-- The ignorable pieces at the start of `d` have `k` bytes in all. -/
inductive Ign (T : Trie) (ig : Nat) : Bytes → Nat → Prop
  | stop {d : Bytes} (h : ∀ v w, T.lookup d = .ok (v, w) → w = 0 ∨ is v ig = false) : Ign T ig d 0
  | step {d : Bytes} {v w k : Nat} (h : T.lookup d = .ok (v, w)) (hw : w ≠ 0) (hi : is v ig = true)
      (hk : Ign T ig (d.drop w) k) : Ign T ig d (w + k)

theorem lookup_nil {T : Trie} {r : Nat × Nat} : T.lookup [] ≠ .ok r := by
  intro h
  have := lookupAt_pos_lt (T := T) (data := []) (pos := 0) (r := r) (by rw [lookupAt_eq (by simp)]; exact h)
  simp at this

theorem Ign.exists {T : Trie} (hT : T.Wf) (ig : Nat) : ∀ n (d : Bytes), d.length ≤ n → ∃ k, Ign T ig d k := by
  intro n
  induction n with
  | zero =>
    intro d hd
    have : d = [] := by cases d <;> simp_all
    exact ⟨0, .stop fun v w h => absurd (this ▸ h) lookup_nil⟩
  | succ n ih =>
    intro d hd
    by_cases hne : d = []
    · exact ⟨0, .stop fun v w h => absurd (hne ▸ h) lookup_nil⟩
    obtain ⟨v, w, h1, h2, _, _⟩ := hT.lookup_ok hne
    by_cases hw : w = 0
    · exact ⟨0, .stop fun v' w' h => by rw [h1] at h; cases h; exact .inl hw⟩
    · cases hi : is v ig
      · exact ⟨0, .stop fun v' w' h => by rw [h1] at h; cases h; exact .inr hi⟩
      · obtain ⟨k, hk⟩ := ih (d.drop w) (by simp; omega)
        exact ⟨w + k, .step h1 hw hi hk⟩

theorem Ign.le {T : Trie} (hT : T.Wf) {ig : Nat} {d : Bytes} {k : Nat} (h : Ign T ig d k) : k ≤ d.length := by
  induction h with
  | stop => exact Nat.zero_le _
  | @step d v w k h hw hi hk ih =>
    have hne : d ≠ [] := fun e => absurd (e ▸ h) lookup_nil
    obtain ⟨v', w', h1, h2, _, _⟩ := hT.lookup_ok hne
    rw [h1] at h; cases h
    simp only [List.length_drop] at ih
    omega

/-- The ignorable pieces from the first one on, if it is not ignorable or cut off. -/
theorem Ign.zero {T : Trie} {ig : Nat} {d : Bytes} {k v w : Nat} (h : Ign T ig d k) (hl : T.lookup d = .ok (v, w))
    (hw : w = 0 ∨ is v ig = false) : k = 0 := by
  cases h with
  | stop => rfl
  | step h hw' hi =>
    rw [hl] at h; cases h
    rcases hw with rfl | hw
    · exact absurd rfl hw'
    · rw [hi] at hw; cases hw

theorem Ign.succ {T : Trie} {ig : Nat} {d : Bytes} {k v w : Nat} (h : Ign T ig d k) (hl : T.lookup d = .ok (v, w))
    (hw : w ≠ 0) (hi : is v ig = true) : ∃ k', k = w + k' ∧ Ign T ig (d.drop w) k' := by
  cases h with
  | stop h =>
    rcases h v w hl with h | h
    · exact absurd h hw
    · rw [hi] at h; cases h
  | step h hw' hi' hk =>
    rw [hl] at h; cases h
    exact ⟨_, rfl, hk⟩

/-! ## Looking ahead -/

theorem subsequentLoopC_cost {T : Trie} (hT : T.Wf) (ig props : Nat) (data : Bytes) : ∀ fuel i k,
    i ≤ data.length → data.length < fuel + i → Ign T ig (data.drop i) k →
    ∃ n a, subsequentLoopC T ig props data true fuel i = (n, .ok (a, false)) ∧ n ≤ k + 1
      ∧ (a = notfound ∨ a = Int.ofNat (i + k)) := by
  intro fuel
  induction fuel with
  | zero => intro i k h1 h2; omega
  | succ fuel ih =>
    intro i k h1 h2 hk
    simp only [subsequentLoopC]
    by_cases hi : i < data.length
    · obtain ⟨v, w, e, h3, h4, _⟩ := hT.lookupAt_ok hi
      have e' := e
      rw [lookupAt_eq h1] at e'
      rw [if_pos hi, e]
      simp only
      by_cases hw : w = 0
      · exact ⟨1, notfound, by rw [if_pos hw]; rfl, by omega, .inl rfl⟩
      · rw [if_neg hw]
        cases hg : is v ig
        · cases hp : is v props
          · exact ⟨1, notfound, by rfl, by omega, .inl rfl⟩
          · refine ⟨1, i, by rfl, by omega, .inr ?_⟩
            rw [hk.zero e' (.inr hg)]; rfl
        · obtain ⟨k', rfl, hk'⟩ := hk.succ e' hw hg
          rw [List.drop_drop] at hk'
          obtain ⟨n, a, h5, h6, h7⟩ := ih (i + w) k' h3 (by omega) hk'
          refine ⟨1 + n, a, ?_, by omega, ?_⟩
          · simp only [if_true, h5, after]
          · rw [Nat.add_assoc] at h7; exact h7
    · rw [if_neg hi]
      exact ⟨0, notfound, rfl, by omega, .inl rfl⟩

theorem subsequentFromC_cost {T : Trie} (hT : T.Wf) (ig props : Nat) {data : Bytes} {i k : Nat}
    (hi : i ≤ data.length) (hk : Ign T ig (data.drop i) k) :
    ∃ n a, subsequentFromC T ig props data i true = (n, .ok (a, false)) ∧ n ≤ k + 1
      ∧ (a = notfound ∨ a = Int.ofNat k) := by
  obtain ⟨n, a, h1, h2, h3⟩ := subsequentLoopC_cost hT ig props (data.drop i) ((data.drop i).length + 1) 0 k
    (by simp) (by omega) hk
  exact ⟨n, a, by simp only [subsequentFromC, sliceFrom_ok hi, h1], h2, by simpa using h3⟩

/-! ## The loop -/

/-- The bound on the work from the start of the token at `d` to the end of the text. `c` is the number
of look-aheads of one pass. -/
def Pot (T : Trie) (ig c : Nat) (d : Bytes) (t : Nat) : Prop :=
  (d = [] → t = 0) ∧ ∀ v w, T.lookup d = .ok (v, w) → (w = 0 → t ≤ 1)
    ∧ (w ≠ 0 → ∀ k, Ign T ig (d.drop w) k → t + c * k ≤ 1 + (2 + c) * (d.length - w))

/-- What one pass at `p` costs, and where it leads. -/
structure PassCost {σ : Type} (T : Trie) (ig c : Nat) (d : Bytes) (pos : σ → Nat) (p : Nat)
    (x : Counted (Step σ)) : Prop where
  done : p = d.length → x = (0, .brk p)
  cut : ∀ v, T.lookup (d.drop p) = .ok (v, 0) → x = (1, .brk d.length)
  ign : ∀ v w, T.lookup (d.drop p) = .ok (v, w) → w ≠ 0 → is v ig = true →
    x.1 ≤ 1 ∧ (x.2 = .brk p ∨ ∃ s, x.2 = .cont s ∧ pos s = p + w)
  solid : ∀ v w k, T.lookup (d.drop p) = .ok (v, w) → w ≠ 0 → is v ig = false → Ign T ig (d.drop (p + w)) k →
    x.1 ≤ 1 + c * (k + 1) ∧ (x.2 = .brk p ∨ ∃ s, x.2 = .cont s ∧ (pos s = p + w ∨ pos s = p + w + k))

theorem runLoopC_pot {σ : Type} {T : Trie} (hT : T.Wf) {ig c : Nat} (hc : c = 0 ∨ c = 3) {d : Bytes} {pos : σ → Nat}
    {body : σ → Counted (Step σ)} (hb : ∀ s, pos s ≤ d.length → PassCost T ig c d pos (pos s) (body s)) :
    ∀ fuel s n b t, pos s ≤ d.length → runLoopC body fuel s = (n, .brk b) → Pot T ig c (d.drop b) t →
    ∀ k, Ign T ig (d.drop (pos s)) k → n + t + c * k ≤ (2 + c) * (d.length - pos s) := by
  intro fuel
  induction fuel with
  | zero => intro s n b t _ h; cases h
  | succ fuel ih =>
    intro s n b t hs h ht k hk
    have hp := hb s hs
    have hkl := hk.le hT
    simp only [List.length_drop] at hkl
    simp only [runLoopC] at h
    rcases hx : body s with ⟨m, x⟩
    rw [hx] at h hp
    by_cases hlast : pos s = d.length
    · have := hp.done hlast
      cases this
      simp only at h
      cases h
      have h1 := ht.1 (by rw [hlast]; simp)
      rcases hc with rfl | rfl <;> omega
    · have hlt : pos s < d.length := by omega
      have hne : d.drop (pos s) ≠ [] := by simp; omega
      obtain ⟨v, w, e, h2, _, _⟩ := hT.lookup_ok hne
      simp only [List.length_drop] at h2
      by_cases hw : w = 0
      · subst hw
        have := hp.cut v e
        cases this
        simp only at h
        cases h
        have h1 := ht.1 (by simp)
        have h3 := hk.zero e (.inl rfl)
        rcases hc with rfl | rfl <;> omega
      · cases hi : is v ig
        · have h3 := hk.zero e (.inr hi)
          subst h3
          obtain ⟨l, hl⟩ := Ign.exists hT ig _ (d.drop (pos s + w)) (Nat.le_refl _)
          have hll := hl.le hT
          simp only [List.length_drop] at hll
          obtain ⟨h4, h5⟩ := hp.solid v w l e hw hi hl
          simp only at h4 h5
          rcases h5 with h5 | ⟨s', h5, h6⟩
          · subst h5
            simp only at h
            cases h
            have h7 := (ht.2 v w e).2 hw l (by rw [List.drop_drop]; exact hl)
            simp only [List.length_drop] at h7
            rcases hc with rfl | rfl <;> omega
          · subst h5
            simp only at h
            rcases hr : runLoopC body fuel s' with ⟨n', o⟩
            rw [hr] at h
            simp only [after] at h
            cases h
            rcases h6 with h6 | h6
            · have h7 := ih s' n' b t (by omega) hr ht l (by rw [h6]; exact hl)
              rcases hc with rfl | rfl <;> omega
            · obtain ⟨l', hl'⟩ := Ign.exists hT ig _ (d.drop (pos s')) (Nat.le_refl _)
              have h7 := ih s' n' b t (by omega) hr ht l' hl'
              rcases hc with rfl | rfl <;> omega
        · obtain ⟨k', rfl, hk'⟩ := hk.succ e hw hi
          rw [List.drop_drop] at hk'
          obtain ⟨h4, h5⟩ := hp.ign v w e hw hi
          simp only at h4 h5
          rcases h5 with h5 | ⟨s', h5, h6⟩
          · subst h5
            simp only at h
            cases h
            have h7 := (ht.2 v w e).2 hw k' (by rw [List.drop_drop]; exact hk')
            simp only [List.length_drop] at h7
            rcases hc with rfl | rfl <;> omega
          · subst h5
            simp only at h
            rcases hr : runLoopC body fuel s' with ⟨n', o⟩
            rw [hr] at h
            simp only [after] at h
            cases h
            have h7 := ih s' n' b t (by omega) hr ht k' (by rw [h6]; exact hk')
            rcases hc with rfl | rfl <;> omega

/-- A split function whose work fits the bound. -/
def PotSplit (T : Trie) (ig c : Nat) (split : SplitFnC) : Prop :=
  ∀ d, d ≠ [] → ∀ t, Pot T ig c (d.drop (splitAdv (fun d e => (split d e).2) d)) t → Pot T ig c d ((split d true).1 + t)

/-- The split functions have this form. -/
theorem potSplit_of {σ : Type} {T : Trie} (hT : T.Wf) {ig c : Nat} (hc : c = 0 ∨ c = 3) {pos : σ → Nat}
    {split : SplitFnC} (hg : GoodFn fun d e => (split d e).2)
    (h : ∀ d v w, T.lookup d = .ok (v, w) → (w = 0 → (split d true).1 = 1) ∧
      (w ≠ 0 → ∃ body s fuel, split d true = after 1 (finishC d (runLoopC body fuel s)) ∧ pos s = w
        ∧ ∀ s, pos s ≤ d.length → PassCost T ig c d pos (pos s) (body s)))
    (hcut : ∀ d v, T.lookup d = .ok (v, 0) → splitAdv (fun d e => (split d e).2) d = d.length) :
    PotSplit T ig c split := by
  intro d hd t ht
  refine ⟨fun e => absurd e hd, fun v w e => ⟨fun hw => ?_, fun hw k hk => ?_⟩⟩
  · subst hw
    rw [hcut d v e] at ht
    have := ht.1 (by simp)
    rw [((h d v 0 e).1 rfl), this]
    exact Nat.le_refl _
  · obtain ⟨body, s, fuel, h1, h2, h3⟩ := (h d v w e).2 hw
    obtain ⟨v', w', e', h4, _, _⟩ := hT.lookup_ok hd
    rw [e] at e'
    cases e'
    obtain ⟨b, tok, g1, g2, g3⟩ := hg d hd
    have hadv : splitAdv (fun d e => (split d e).2) d = b := by simp [splitAdv, g3]
    rw [hadv] at ht
    simp only [h1, after, finishC] at g3
    rcases hr : runLoopC body fuel s with ⟨n, o⟩
    have ho : o = .brk b := by
      rw [hr] at g3
      cases o with
      | brk p =>
        simp only [finish] at g3
        split at g3
        · cases g3
        · cases g3; rfl
      | more => simp [finish, SplitRes.requestMore] at g3; omega
      | fault f => simp [finish] at g3
    subst ho
    have h5 := runLoopC_pot hT hc h3 fuel s n b t (by omega) hr ht k (by rw [h2]; exact hk)
    rw [h1, hr, h2] at *
    simp only [after, finishC]
    omega

end Uax29
