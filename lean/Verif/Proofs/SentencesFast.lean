import Verif.Proofs.SentencesPass
import Verif.Proofs.SentenceRestart
import Verif.Proofs.Ascii
import Verif.Proofs.WordsFast
/-! # sentences: the split function and the fast path follow the rules -/
namespace Uax29.Sentences
open Spec

/-- The first character. -/
theorem ACtx.first (c : SB) (p : Nat) : ACtx ⟨p, c, .Other, .Other, .Other, .Other, .Other, .Other⟩ [c] := by
  have hu : sunits [c] = [c] := by simp [sunits]
  refine ⟨rfl, ?_, ?_, ?_, ?_, ?_, ?_⟩
  · intro f hf
    rw [hu]
    obtain ⟨h1, h2, h3⟩ := hf
    cases c <;> simp [AState.remember, SB.ignorable, h1, h2, h3]
  all_goals (try rw [hu])
  all_goals clear hu
  · intro h
    revert h
    cases c <;> simp [AState.remember, SB.ignorable]
  · cases c <;> rfl
  · cases c <;> rfl
  · cases c <;> rfl
  · cases h : c.paraSep
    · exact .inr (by simpa using h)
    · exact .inl rfl

theorem follows : Follows trie Prod.fst Prod.fst J (splitAdv splitFunc) := by
  apply Follows.of_loop (J := J)
  · intro d v hd hl
    have : ¬ d.length = 0 := by simpa using hd
    simp only [splitFunc, if_neg this, hl]
    simp
  · intro bs d' v l t hne hl hval hdec
    have h1 : ¬ (bs ++ d').length = 0 := by
      simp; intro h; exact absurd h hne
    have h2 : ¬ bs.length = 0 := by simpa using hne
    simp only [splitFunc, if_neg h1, hl, if_neg h2]
    have hlen := hdec.length_le
    have hpos := List.length_pos_iff.mpr hne
    have := runLoop_grow (T := trie) (data := bs ++ d') (t := t) (body := step (bs ++ d') true)
      (pos := State.pos) (Ctx := Ctx) (cell := Prod.fst) (J := J (!t.isEmpty))
      (by intro s left _ hp; simp [step, hp])
      (by
        intro s left _ hp ⟨v, hv⟩
        unfold step
        rw [if_neg (by omega)]
        simp only [hv]
        simp)
      (fun _ _ _ _ _ _ h1 h2 h3 h4 h5 h6 h7 => pass h1 h2 h3 h4 h5 h6 h7)
      l { pos := bs.length, current := v, lastExIgnore := 0, lastLastExIgnore := 0, lastExIgnoreSp := 0,
          lastExIgnoreClose := 0, lastExIgnoreSpClose := 0, lastExIgnoreParaSepSpClose := 0 } [v]
      (loopFuel (bs ++ d'))
      ⟨_, by
        have hv := value_bit hval
        simp only [AState.toState, ← hv]
        rfl, ACtx.first (sclass v) bs.length⟩
      (by simp) (by simpa using hdec) (by simp [loopFuel]; omega)
    rw [this]

theorem restart (cut : Bool) : Restart trie.IsValue (J cut) := by
  intro A B C hA hB pA pB pC hj
  obtain ⟨a, A, rfl⟩ := List.exists_cons_of_ne_nil hA
  obtain ⟨b, B, rfl⟩ := List.exists_cons_of_ne_nil hB
  unfold J at hj ⊢
  have := sjoinsIf_restart (a := sclass a) (A := A.map sclass) (b := sclass b) (B := B.map sclass)
    (C' := (B ++ C).map sclass) (C := C.map sclass) (ahead' := lowerAheadCut cut (C.map sclass)) hj
  simpa using this

/-! ## the fast path -/

theorem ascii_run {b : UInt8} (h : isASCIIAlphanumericOrSpace b = true) : b.toNat < 0x80
    ∧ (sclass (trie.ascii b) = .Upper ∨ sclass (trie.ascii b) = .Lower ∨ sclass (trie.ascii b) = .Numeric
      ∨ sclass (trie.ascii b) = .Sp) := by
  have := forall_uint8 (P := fun b => !isASCIIAlphanumericOrSpace b || (decide (b.toNat < 0x80)
    && (sclass (trie.ascii b) = .Upper || sclass (trie.ascii b) = .Lower || sclass (trie.ascii b) = .Numeric
      || sclass (trie.ascii b) = .Sp))) (by decide +kernel) b
  simpa [h, or_assoc] using this

/-- Letters, digits and spaces. -/
def Plain (c : SB) : Prop := c = .Upper ∨ c = .Lower ∨ c = .Numeric ∨ c = .Sp

theorem Plain.solid {c : SB} (h : Plain c) : c.ignorable = false ∧ c.paraSep = false ∧ c.saTerm = false := by
  rcases h with rfl | rfl | rfl | rfl <;> decide

theorem endsClose_plain {X : SB → Bool} (hX : ∀ c, Plain c → X c = false) : ∀ {L : List SB}, (∀ x ∈ L, Plain x) →
    endsClose X L = false
  | [], _ => rfl
  | x :: L, h => by
    have hx := h x List.mem_cons_self
    rw [endsClose_other _ (by rintro rfl; rcases hx with h | h | h | h <;> cases h)]
    exact hX x hx

theorem endsCloseSp_plain {X : SB → Bool} (hX : ∀ c, Plain c → X c = false) : ∀ {L : List SB}, (∀ x ∈ L, Plain x) →
    endsCloseSp X L = false
  | [], _ => rfl
  | x :: L, h => by
    by_cases hs : x = .Sp
    · subst hs
      rw [endsCloseSp_sp]
      exact endsCloseSp_plain hX fun x hx => h x (List.mem_cons_of_mem _ hx)
    · rw [endsCloseSp_not _ hs]
      exact endsClose_plain hX h

theorem sunits_plain : ∀ {L : List SB}, (∀ x ∈ L, Plain x) → sunits L = L
  | [], _ => rfl
  | x :: L, h => by
    rw [sunits_solid (h x List.mem_cons_self).solid.1, sunits_plain fun x hx => h x (List.mem_cons_of_mem _ hx)]

theorem plain_saTerm (c : SB) (h : Plain c) : c.saTerm = false := h.solid.2.2
theorem plain_aTerm (c : SB) (h : Plain c) : decide (c = .ATerm) = false := by
  rcases h with rfl | rfl | rfl | rfl <;> decide

theorem sjoinsIf_plain {ahead : Bool} {a b : SB} {A C : List SB} (h : ∀ x ∈ a :: A, Plain x) (hb : Plain b) :
    sjoinsIf ahead (a :: A) (b :: C) = true := by
  have ha := h a List.mem_cons_self
  simp only [sjoinsIf]
  rw [if_neg (by rcases ha with rfl | rfl | rfl | rfl <;> simp), ha.solid.2.1, hb.solid.1, sunits_plain h]
  unfold sunitJoins
  simp only [endsClose_plain plain_saTerm h, endsCloseSp_plain plain_saTerm h, endsCloseSp_plain plain_aTerm h]
  simp [ha.solid.2.1]

/-- What is before a run of letters, digits and spaces does not matter after it. -/
theorem sjoinsIf_forget {ahead : Bool} {x : SB} {A : List SB} (h : ∀ y ∈ x :: A, Plain y) (B C : List SB) :
    sjoinsIf ahead (B ++ x :: A) C = sjoinsIf ahead (B ++ [x]) C := by
  have hx := h x List.mem_cons_self
  have hA : ∀ y ∈ A, Plain y := fun y hy => h y (List.mem_cons_of_mem _ hy)
  cases C with
  | nil => cases B <;> simp [sjoinsIf]
  | cons c C =>
    obtain ⟨y, L', hL⟩ := List.exists_cons_of_ne_nil (l := B ++ [x]) (by simp)
    have hlast : (B ++ [x]).getLast? = some x := by simp
    have happ : sunits (B ++ x :: A) = sunits (B ++ [x]) ++ A := by
      cases A with
      | nil => simp
      | cons a A =>
        have := sunits_append (a := a) (A := A) hlast (.inl hx.solid.1)
        rw [List.append_assoc, List.singleton_append, sunits_plain hA] at this
        exact this
    have hBx : B ++ x :: A = y :: (L' ++ A) := by
      rw [← List.cons_append, ← hL, List.append_assoc]; rfl
    rw [hBx, hL]
    simp only [sjoinsIf]
    rw [← hBx, ← hL, happ]
    by_cases hyp : y.paraSep = true
    · simp [hyp]
    · have hp : (sunits (B ++ [x])).head?.any (·.paraSep) = false := by
        rw [Bool.eq_false_iff, hL]; intro h; exact hyp (sunits_head_para h)
      rw [sunitJoins_append (sunits_getLast hlast (.inl hx.solid.1)) ?_ ?_ ?_ hp]
      · rintro rfl; exact absurd (plain_saTerm _ hx) (by decide)
      · intro _; exact endsClose_plain plain_saTerm hA
      · intro _; exact endsCloseSp_plain plain_saTerm hA

/-- The fast path of `Next` moves as far as the split function alone. -/
theorem adv_eq (d : Bytes) (hd : d ≠ []) : skipAdv splitFunc d = splitAdv splitFunc d := by
  have hpl : ∀ {A : List UInt8}, (∀ x ∈ A, isASCIIAlphanumericOrSpace x = true) →
      ∀ y ∈ (A.map trie.ascii).map sclass, Plain y := by
    intro A hA y hy
    rw [List.map_map] at hy
    obtain ⟨b, hb, rfl⟩ := List.mem_map.mp hy
    exact (ascii_run (hA b hb)).2
  rw [follows.skip wf isASCIIAlphanumericOrSpace (fun b h => (ascii_run h).1) ?_ ?_ hd]
  · rfl
  · intro e a A b C ha hA hb
    refine sjoinsIf_plain ?_ (ascii_run hb).2
    have := hpl (A := a :: A) (by
      intro x hx
      rcases List.mem_cons.mp hx with rfl | hx
      · exact ha
      · exact hA x hx)
    exact this
  · intro e a A B C ha hA
    have := hpl (A := a :: A) (by
      intro x hx
      rcases List.mem_cons.mp hx with rfl | hx
      · exact ha
      · exact hA x hx)
    have := sjoinsIf_forget (ahead := lowerAheadCut e (C.map sclass)) (x := sclass (trie.ascii a))
      (A := (A.map trie.ascii).map sclass) this (B.map sclass) (C.map sclass)
    simpa [J] using this

end Uax29.Sentences
