import Verif.Spec.SentenceRules
/-! # Facts about the sentence rules -/
namespace Uax29.Spec

theorem sunits_solid {b : SB} (h : b.ignorable = false) (left : List SB) : sunits (b :: left) = b :: sunits left := by
  cases left with
  | nil => rfl
  | cons c l => simp [sunits, h]

theorem sunits_ign {b a : SB} (h : b.ignorable = true) (ha : a.paraSep = false) (left : List SB) :
    sunits (b :: a :: left) = sunits (a :: left) := by
  simp [sunits, h, ha]

theorem sunits_mem {x : SB} : ∀ {left : List SB}, x ∈ sunits left → x ∈ left
  | [], h => by simp [sunits] at h
  | [a], h => by simpa [sunits] using h
  | a :: c :: l, h => by
    rw [sunits] at h
    split at h
    · exact List.mem_cons_of_mem _ (sunits_mem h)
    · rcases List.mem_cons.mp h with rfl | h
      · exact List.mem_cons_self
      · exact List.mem_cons_of_mem _ (sunits_mem h)

/-- A unit that is a ParaSep is the last character. -/
theorem sunits_head_para : ∀ {a : SB} {A : List SB}, (sunits (a :: A)).head?.any (·.paraSep) = true → a.paraSep = true
  | a, [], h => by simpa [sunits] using h
  | a, c :: A, h => by
    rw [sunits] at h
    split at h
    · rename_i hc
      have := sunits_head_para h
      simp [this] at hc
    · simpa using h

theorem endsClose_close (X : SB → Bool) (l : List SB) : endsClose X (.Close :: l) = endsClose X l := by
  simp [endsClose]

theorem endsClose_other (X : SB → Bool) {b : SB} (h : b ≠ .Close) (l : List SB) : endsClose X (b :: l) = X b := by
  simp [endsClose, h]

theorem endsCloseSp_sp (X : SB → Bool) (l : List SB) : endsCloseSp X (.Sp :: l) = endsCloseSp X l := by
  simp [endsCloseSp]

theorem endsCloseSp_not (X : SB → Bool) {b : SB} (h : b ≠ .Sp) (l : List SB) :
    endsCloseSp X (b :: l) = endsClose X (b :: l) := by
  simp [endsCloseSp, h]

theorem endsClose_mono {X Y : SB → Bool} (h : ∀ x, X x = true → Y x = true) {l : List SB}
    (hx : endsClose X l = true) : endsClose Y l = true := by
  unfold endsClose at *
  cases hd : (l.dropWhile (· = .Close)).head? with
  | none => simp [hd] at hx
  | some x => simp [hd] at hx ⊢; exact h x hx

/-- If `X` is not a space, `X Close*` is `X Close* Sp*`. -/
theorem endsClose_sp {X : SB → Bool} (h : X .Sp = false) {l : List SB} (hx : endsClose X l = true) (Y : SB → Bool) :
    endsCloseSp Y l = endsClose Y l := by
  cases l with
  | nil => rfl
  | cons a l =>
    by_cases ha : a = .Sp
    · subst ha; rw [endsClose_other _ (by decide), h] at hx; cases hx
    · exact endsCloseSp_not Y ha l

theorem ateTerm_saTerm (x : SB) : decide (x = .ATerm) = true → x.saTerm = true := by
  cases x <;> simp [SB.saTerm]

/-- What is found before is an ATerm, if anything is. -/
def OnlyATerm (U : List SB) : Prop :=
  (endsCloseSp (·.saTerm) U = true → endsCloseSp (· = .ATerm) U = true)
  ∧ (endsClose (·.saTerm) U = true → endsClose (· = .ATerm) U = true)

theorem OnlyATerm.of_ends {U : List SB} (h : endsCloseSp (· = .ATerm) U = true) : OnlyATerm U := by
  refine ⟨fun _ => h, fun h' => ?_⟩
  rw [← endsClose_sp (by decide) h']
  exact h

theorem OnlyATerm.cons {U : List SB} (h : OnlyATerm U) {z : SB} (hz : z.stops = false) : OnlyATerm (z :: U) := by
  by_cases h1 : z = .Sp
  · subst h1
    refine ⟨by simpa only [endsCloseSp_sp] using h.1, ?_⟩
    rw [endsClose_other _ (by decide)]
    intro h; cases h
  · by_cases h2 : z = .Close
    · subst h2
      rw [OnlyATerm, endsCloseSp_not _ (by decide), endsCloseSp_not _ (by decide), endsClose_close, endsClose_close]
      exact ⟨h.2, h.2⟩
    · rw [OnlyATerm, endsCloseSp_not _ h1, endsCloseSp_not _ h1, endsClose_other _ h2, endsClose_other _ h2]
      have : z.saTerm = false := by
        rw [Bool.eq_false_iff]; intro h; simp [SB.stops, h] at hz
      simp [this]

theorem SB.stops_para {z : SB} (h : z.stops = false) : z.paraSep = false := by
  rw [Bool.eq_false_iff]; intro h'; simp [SB.stops, h'] at h

theorem OnlyATerm.run {cl : List SB} (hne : cl ≠ []) (hp : ∀ x, cl.head? = some x → x.paraSep = false)
    (h : OnlyATerm (sunits cl)) :
    ∀ {P : List SB}, (∀ x ∈ P, x.stops = false) → OnlyATerm (sunits (P ++ cl))
  | [], _ => h
  | z :: P, hP => by
    have ih := OnlyATerm.run hne hp h (P := P) fun x hx => hP x (List.mem_cons_of_mem _ hx)
    have hz := hP z List.mem_cons_self
    cases hi : z.ignorable
    · rw [List.cons_append, sunits_solid hi]
      exact ih.cons hz
    · obtain ⟨a, L, hL⟩ := List.exists_cons_of_ne_nil (l := P ++ cl) (by simp [hne])
      rw [List.cons_append, hL, sunits_ign hi, ← hL]
      · exact ih
      · cases P with
        | nil => exact hp a (by rw [← List.nil_append cl, hL]; rfl)
        | cons x P =>
          simp at hL
          exact SB.stops_para (hP a (by simp [hL.1]))

/-- With a lower case letter ahead, everything up to it is joined after an ATerm. -/
theorem sjoinsIf_run {cl P : List SB} (hne : cl ≠ []) (hp : ∀ x, cl.head? = some x → x.paraSep = false)
    (h : endsCloseSp (· = .ATerm) (sunits cl) = true) (hP : ∀ x ∈ P, x.stops = false) (z : SB) (R : List SB) :
    sjoinsIf true (P ++ cl) (z :: R) = true := by
  have honly := (OnlyATerm.of_ends h).run hne hp hP
  obtain ⟨a, L, hL⟩ := List.exists_cons_of_ne_nil (l := P ++ cl) (by simp [hne])
  have hpara : a.paraSep = false := by
    cases P with
    | nil => exact hp a (by rw [← List.nil_append cl, hL]; rfl)
    | cons x P =>
      simp at hL
      exact SB.stops_para (hP a (by simp [hL.1]))
  have hbefore : (sunits (P ++ cl)).head?.any (·.paraSep) = false := by
    rw [Bool.eq_false_iff, hL]
    intro h
    rw [sunits_head_para h] at hpara
    cases hpara
  rw [hL] at hbefore honly ⊢
  simp only [sjoinsIf]
  split
  · rfl
  rw [if_neg (by simp [hpara])]
  split
  · rfl
  unfold sunitJoins
  dsimp only
  split
  · rfl
  split
  · rfl
  split
  · rfl
  rename_i h8
  split
  · rfl
  split
  · rfl
  split
  · rfl
  split
  · rename_i h11
    rw [hbefore, Bool.false_and, Bool.or_false] at h11
    exact absurd (honly.1 h11) (by simpa using h8)
  · rfl

/-- An SB8 lookahead that also takes text that ends within a character. -/
def lowerAheadCut (cut : Bool) (right : List SB) : Bool :=
  lowerAhead right || (cut && right.all (!·.stops))

theorem lowerAhead_nonstop {z : SB} (h : z.stops = false) (R : List SB) : lowerAhead (z :: R) = lowerAhead R := by
  simp [lowerAhead, h]

theorem lowerAheadCut_nonstop {z : SB} (h : z.stops = false) (cut : Bool) (R : List SB) :
    lowerAheadCut cut (z :: R) = lowerAheadCut cut R := by
  simp [lowerAheadCut, lowerAhead_nonstop h, h]

theorem lowerAheadCut_run (cut : Bool) (R : List SB) : ∀ {P : List SB}, (∀ x ∈ P, x.stops = false) →
    lowerAheadCut cut (P ++ R) = lowerAheadCut cut R
  | [], _ => rfl
  | z :: P, h => by
    rw [List.cons_append, lowerAheadCut_nonstop (h z List.mem_cons_self)]
    exact lowerAheadCut_run cut R fun x hx => h x (List.mem_cons_of_mem _ hx)

end Uax29.Spec
