import Verif.Proofs.Concat
import Verif.Proofs.AtomicRules
/-! # A line feed separates texts -/
namespace Uax29
open Spec

theorem dropWhile_head_append {β : Type} {p : β → Bool} {x : β} (hx : p x = false) (A B : List β) :
    ((A ++ [x] ++ B).dropWhile p).head? = ((A ++ [x]).dropWhile p).head? := by
  induction A with
  | nil => simp [hx]
  | cons a A ih =>
    simp only [List.cons_append, List.dropWhile_cons] at ih ⊢
    split
    · exact ih
    · rfl

/-- A rule does not look past `nl` and breaks after it. -/
structure LineEnd (J : Bool → List Nat → List Nat → Bool) (nl : Nat) : Prop where
  inside : ∀ e left right l2, J e left (right ++ [nl] ++ l2) = J false left (right ++ [nl])
  after : ∀ e left l2, J e (nl :: left) l2 = false

theorem Graphemes.lineEnd : LineEnd (fun _ => J) (trie.prop '\n') where
  inside _ left right l2 := by
    cases left with
    | nil => simp [J, graphemeJoins]
    | cons a l =>
      cases right <;> rfl
  after _ left l2 := by
    have h : (gset (trie.prop '\n')).control = true ∧ gset (trie.prop '\n') .CR = false := by decide +kernel
    cases l2 with
    | nil => simp [J, graphemeJoins]
    | cons b l => simp [J, graphemeJoins, h.1, h.2]

theorem joins_lineEnd {ph : Bool} {ws : Nat → WSet} {nl : Nat} (h1 : (ws nl).newline = true) (h2 : ws nl .CR = false)
    (h3 : (ws nl).ignorable = false) : LineEnd (fun _ l r => joins ph (l.map ws) (r.map ws)) nl where
  inside _ left right l2 := by
    cases left with
    | nil => simp [joins]
    | cons a l =>
      cases right with
      | nil => simp [joins, h1]
      | cons b r =>
        simp only [List.cons_append, List.map_cons, joins]
        have : (((r ++ [nl] ++ l2).map ws).dropWhile (·.ignorable)).head?
            = (((r ++ [nl]).map ws).dropWhile (·.ignorable)).head? := by
          simp only [List.map_append, List.map_cons, List.map_nil]
          exact dropWhile_head_append (p := fun x : WSet => x.ignorable) h3 _ _
        rw [this]
  after _ left l2 := by
    cases l2 with
    | nil => simp [joins]
    | cons b l => simp [joins, h1, h2]

theorem Words.lineEnd : LineEnd (fun _ => J) (trie.prop '\n') :=
  joins_lineEnd (by decide +kernel) (by decide +kernel) (by decide +kernel)

theorem Phrases.lineEnd : LineEnd (fun _ => J) (trie.prop '\n') :=
  joins_lineEnd (by decide +kernel) (by decide +kernel) (by decide +kernel)

theorem Sentences.lineEnd : LineEnd J (trie.prop '\n') where
  inside e left right l2 := by
    have h : sclass (trie.prop '\n') = .LF := by decide +kernel
    have hl : lowerAheadCut e ((right ++ [trie.prop '\n'] ++ l2).map sclass)
        = lowerAheadCut false ((right ++ [trie.prop '\n']).map sclass) := by
      have := dropWhile_head_append (p := fun x : SB => !x.stops) (x := .LF) (by decide) (right.map sclass) (l2.map sclass)
      have h2 : ((right ++ [trie.prop '\n'] ++ l2).map sclass).all (!·.stops) = false := by
        simp [h]
        intro _ h
        cases h
      simp only [lowerAheadCut, Bool.false_and, Bool.or_false, h2, Bool.and_false]
      simp only [List.map_append, List.map_cons, List.map_nil, h, lowerAhead] at this ⊢
      rw [this]
    unfold J
    rw [hl]
    cases left with
    | nil => simp [sjoinsIf]
    | cons a l => cases right <;> rfl
  after e left l2 := by
    have h : sclass (trie.prop '\n') = .LF := by decide +kernel
    unfold J
    cases l2 with
    | nil => simp [sjoinsIf]
    | cons b l => simp [sjoinsIf, h, SB.paraSep]

theorem Follows.segs_line {T : Trie} (hT : T.Wf) {J : Bool → List Nat → List Nat → Bool} {adv : Bytes → Nat}
    (h : Follows T Prod.fst Prod.fst J adv) (hg : GoodAdv adv) (hn : LineEnd J (T.prop '\n')) (a : List Char) (b : Bytes)
    (hb : ∀ v, T.lookup b ≠ .ok (v, 0)) :
    segs adv (utf8 a ++ [0x0A] ++ b) = segs adv (utf8 a ++ [0x0A]) ++ segs adv b := by
  obtain ⟨l2, t, h2⟩ := hT.decodes b
  have e : utf8 a ++ [0x0A] = utf8 (a ++ ['\n']) := by
    rw [utf8_append]; rfl
  rw [e]
  have hmap : ((a ++ ['\n']).map fun c => (T.prop c, String.utf8EncodeChar c)).map Prod.fst
      = a.map T.prop ++ [T.prop '\n'] := by simp
  refine h.segs_append hg (hT.decodes_utf8 _) (hT.decodes_utf8_append _ h2) h2 ?_ ?_ ?_
  · cases h2 with
    | nil => exact .inr rfl
    | tail _ look => exact absurd look (hb _)
    | cons => left; simp
  · intro left right hl hr hs
    rw [hmap] at hs
    obtain ⟨u, hu⟩ := hs
    obtain ⟨r, x, rfl⟩ : ∃ r x, right = r ++ [x] := ⟨right.dropLast, right.getLast hr, (List.dropLast_concat_getLast hr).symm⟩
    rw [← List.append_assoc] at hu
    have := (List.append_inj' hu rfl).2
    have hx : x = T.prop '\n' := by simpa using this
    rw [hx]
    exact hn.inside _ _ _ _
  · intro _ left hs hl
    rw [hmap] at hs
    obtain ⟨u, hu⟩ := hs
    obtain ⟨x, r, rfl⟩ := List.exists_cons_of_ne_nil hl
    rw [List.reverse_cons, ← List.append_assoc] at hu
    have := (List.append_inj' hu rfl).2
    have hx : x = T.prop '\n' := by simpa using this
    rw [hx]
    exact hn.after _ _ _

end Uax29
