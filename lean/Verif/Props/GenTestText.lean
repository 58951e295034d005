import Verif.Proofs.GenTestText
import Verif.Proofs.Encode
import Verif.Props.GenParse
import Verif.Model.Chars
/-! # Property C76: any text as a file of tests -/
namespace Uax29
open Spec Gen Spec.PropFile

/-- **C76** Whatever the text, reading it gives the tests of its lines, each with its text, its segments and its
comment, or stops at the first line that stops it and as that line says: with an error or with a panic. -/
theorem C76_read {text : List Char} {ls : List (List Char)} {r : Except Stop (List (List (List Char) × List Char))}
    (hl : TextLines text ls) (h : Each Tests ls r) : match r with
    | .ok ts => readTests text = .ok (some (ts.map fun t => ⟨utf8 t.1.flatten, t.1.map utf8, t.2⟩))
    | .error .refused => readTests text = .ok none
    | .error .crash => ∃ f, readTests text = .error f ∧ f ≠ .diverge
    | .error .endless => readTests text = .error .diverge := by
  have := h.tests
  unfold readTests
  rw [hl.eq]
  cases r with
  | ok ts => exact this
  | error s => cases s <;> exact this

/-- C76, and this describes every text. -/
theorem C76_total (text : List Char) : ∃ ls r, TextLines text ls ∧ Each Tests ls r := by
  obtain ⟨ls, h1⟩ := TextLines.exists text
  obtain ⟨r, h2⟩ := Each.exists Tests.exists ls
  exact ⟨ls, r, h1, h2⟩

/-- C76, reading ends for every text. -/
theorem C76_ends (text : List Char) : readTests text ≠ .error .diverge := by
  have hv : ∀ {vs : List (List Char)}, parseVals vs ≠ .error .diverge := by
    intro vs
    induction vs with
    | nil => intro h; cases h
    | cons v vs ih =>
      rw [parseVals]
      repeat' split
      all_goals first | exact ih | (intro h; cases h; done) | skip
      rename_i e
      intro h
      cases h
      exact ih e
  have hs : ∀ {ss : List (List Char)}, parseSegments ss ≠ .error .diverge := by
    intro ss
    induction ss with
    | nil => intro h; cases h
    | cons s ss ih =>
      rw [parseSegments]
      repeat' split
      all_goals first | exact ih | (rename_i f e; intro h; cases h; first | exact ih e | exact hv e) | (intro h; cases h)
  have ht : ∀ {l : List Char}, parseTest l ≠ .error .diverge := by
    intro l
    unfold parseTest
    repeat' split
    all_goals first | (rename_i f e; intro h; cases h; exact hs e) | (intro h; cases h)
  unfold readTests
  generalize textLines [] text = ls
  induction ls with
  | nil => intro h; cases h
  | cons l ls ih =>
    rw [parseTests]
    repeat' split
    all_goals first | (rename_i f e; intro h; cases h; first | exact ih e | exact ht e) | (intro h; cases h)

theorem utf8_inj : ∀ {a b : List Char}, utf8 a = utf8 b → a = b
  | [], [], _ => rfl
  | [], c :: b, h => by
    have := congrArg List.length h
    simp only [utf8, List.flatMap_nil, List.flatMap_cons, List.length_nil, List.length_append] at this
    have := String.length_utf8EncodeChar c
    have := c.utf8Size_pos
    omega
  | c :: a, [], h => by
    have := congrArg List.length h
    simp only [utf8, List.flatMap_nil, List.flatMap_cons, List.length_nil, List.length_append] at this
    have := String.length_utf8EncodeChar c
    have := c.utf8Size_pos
    omega
  | c :: a, d :: b, h => by
    simp only [utf8, List.flatMap_cons] at h
    have h1 := decodeRune_encode c (utf8 a)
    have h : String.utf8EncodeChar c ++ utf8 a = String.utf8EncodeChar d ++ utf8 b := h
    rw [h, decodeRune_encode d (utf8 b)] at h1
    simp only [Prod.mk.injEq] at h1
    have hc : c = d := by
      rw [← Char.ofNat_toNat c, ← Char.ofNat_toNat d]
      congr 1
      exact h1.1.symm
    subst hc
    rw [utf8_inj (List.append_cancel_left h)]

/-- C76, a text in the format of C53 means the tests that it lists. -/
theorem C76_format {text : List Char} {tests : List (List (List Char))} (h : TestFile text tests) (hs : ShortLines text) :
    ∃ ls ts, TextLines text ls ∧ Each Tests ls (.ok ts) ∧ ts.map (·.1) = tests := by
  obtain ⟨us, h1, h2⟩ := C53_read h hs
  obtain ⟨ls, r, h3, h4⟩ := C76_total text
  have h5 := C76_read h3 h4
  cases r with
  | error s =>
    exfalso
    cases s with
    | refused => rw [h1] at h5; cases h5
    | crash => obtain ⟨f, h5, _⟩ := h5; rw [h1] at h5; cases h5
    | endless => rw [h1] at h5; cases h5
  | ok ts =>
    refine ⟨ls, ts, h3, h4, ?_⟩
    simp only at h5
    rw [h1] at h5
    have h5 : us = _ := Option.some.inj (Except.ok.inj h5)
    subst h5
    rw [List.map_map] at h2
    have hm : ∀ {a b : List (List Char)}, a.map utf8 = b.map utf8 → a = b := by
      intro a
      induction a with
      | nil => intro b h; cases b with
        | nil => rfl
        | cons _ _ => cases h
      | cons x a ih => intro b h; cases b with
        | nil => cases h
        | cons y b =>
          simp only [List.map_cons, List.cons.injEq] at h
          rw [utf8_inj h.1, ih h.2]
    clear h1 h3 h4 h5 h hs
    induction ts generalizing tests with
    | nil => cases tests with
      | nil => rfl
      | cons _ _ => cases h2
    | cons t ts ih => cases tests with
      | nil => cases h2
      | cons css tests =>
        simp only [List.map_cons, List.cons.injEq, Function.comp_apply, Prod.mk.injEq] at h2
        rw [List.map_cons, ih h2.2, hm h2.1.2]

/-- The ends of reading: an empty line, no comment, not a number, not a character. -/
example : readTests (chars "# c\n÷ 0061 × 0308 ÷ 0062 ÷\t# x # y\r\n") = .ok (some [⟨[0x61, 0xCC, 0x88, 0x62], [[0x61, 0xCC, 0x88], [0x62]], ['x']⟩]) := by
  decide +kernel
example : readTests (chars "÷ 0061 ÷ #\n\n") = .error .bounds ∧ readTests (chars "÷ 0061 ÷\n") = .error .bounds
    ∧ readTests (chars "\r\n") = .error .bounds := by decide +kernel
example : readTests (chars "÷ 0061 ÷ 00G1 ÷ D800 #\n\n") = .ok none
    ∧ readTests (chars "÷ D800 ÷ 00G1 #") = .error (.panic "runtime error: makeslice: len out of range") := by decide +kernel
/-- A number of fewer than four digits is lost, and its segment is there without it. -/
example : readTests (chars "÷ 61 ÷ 0062 × 63 ÷ #") = .ok (some [⟨[0x62], [[], [0x62]], []⟩]) := by decide +kernel
/-- A line that is too long. -/
example : ∃ l : List Char, '\n' ∉ l ∧ readTests (l ++ ['\n']) = .ok none ∧ readTests (l.tail ++ ['\n']) = .ok (some []) := by
  refine ⟨List.replicate 65536 '#', fun h => absurd (List.eq_of_mem_replicate h) (by decide), ?_, ?_⟩
  all_goals
    have hn : ∀ n, '\n' ∉ List.replicate n '#' := fun n h => absurd (List.eq_of_mem_replicate h) (by decide)
    have he : ∀ n, (utf8 (List.replicate n '#')).length = n := by
      intro n
      rw [utf8, List.flatMap_replicate]
      simp [String.utf8EncodeChar]
  · exact C76_read (.line (hn _) .nil) (.stop (.long (by rw [he]; exact Nat.le_refl _)))
  · rw [List.tail_replicate]
    exact C76_read (.line (hn _) .nil) (.next (x := []) (.comment (k := List.replicate 65534 '#') (by rw [he]; decide) rfl) .nil)

end Uax29
