import Verif.Proofs.GenLine
import Verif.Model.Chars
/-! # Property C72: any text as a property file -/
namespace Uax29
open Spec Gen Spec.PropFile

/-- What the model does when reading stops: an error is returned, or an index is out of range, or a loop
does not end. -/
def stopped {α : Type} : Stop → Res (Option α)
  | .refused => .ok none
  | .crash => .error .bounds
  | .endless => .error .diverge

/-- **C72** Whatever the text, reading it gives the entries of its lines, or stops at the first line that
stops it and as that line says. A range whose end comes before its start counts as its start. -/
theorem C72_read {text : List Char} {ls : List (List Char)} {r : Except Stop (List (List Char × Nat × Nat))}
    (hl : Lines text ls) (h : ReadsAll ls r) : match r with
    | .error s => readFile text = stopped s
    | .ok es => ∃ m, readFile text = .ok (some m) ∧ (m.map (·.1)).Nodup
      ∧ (∀ p x, Listed m p x ↔ ∃ e ∈ es, String.ofList e.1 = p ∧ (x = e.2.1 ∨ (e.2.1 ≤ x ∧ x ≤ e.2.2)))
      ∧ ∀ p, p ∈ m.map (·.1) ↔ ∃ e ∈ es, String.ofList e.1 = p := by
  have := h.read hl.ne [] (by simp)
  unfold readFile
  rw [hl.eq]
  cases r with
  | error s => simp only at this ⊢; rw [this]; cases s <;> rfl
  | ok es =>
    obtain ⟨m, h1, h2, h3, h4⟩ := this
    refine ⟨m, h1, h2, fun p x => ?_, fun p => ?_⟩
    · rw [h3]; simp [Listed]
    · rw [h4]; simp

/-- C72, and this describes every text. -/
theorem C72_total (text : List Char) : ∃ ls r, Lines text ls ∧ ReadsAll ls r := by
  obtain ⟨ls, h1⟩ := Lines.exists text
  obtain ⟨r, h2⟩ := ReadsAll.exists ls
  exact ⟨ls, r, h1, h2⟩

/-- C72, a text in the format of C52 means what it lists. -/
theorem C72_format {text : List Char} {es : List (List Char × Nat × Nat)} (h : File text es) :
    ∃ ls, Lines text ls ∧ ReadsAll ls (.ok es) :=
  h.reads

/-- C72, every number that is read from any text fits Go's `rune`. -/
theorem C72_fits {text : List Char} {m : List (String × List Nat)} (h : readFile text = .ok (some m)) {p : String} {x : Nat}
    (hx : Listed m p x) : x < 2 ^ 31 := by
  obtain ⟨ls, r, hl, hr⟩ := C72_total text
  have := C72_read hl hr
  cases r with
  | error s => rw [h] at this; cases s <;> cases this
  | ok es =>
    obtain ⟨m', h1, _, h3, _⟩ := this
    rw [h] at h1
    cases h1
    obtain ⟨e, he, _, hx⟩ := (h3 p x).mp hx
    have key : ∀ {ls r}, ReadsAll ls r → ∀ es, r = .ok es → ∀ e ∈ es, e.2.1 < 2 ^ 31 ∧ e.2.2 < 2 ^ 31 := by
      intro ls r hr
      induction hr with
      | nil => intro es e; cases e; simp
      | stop => intro es e; cases e
      | later => intro es e; cases e
      | @next l ls o es h _ ih =>
        intro es' e x hx
        cases e
        rcases List.mem_append.mp hx with hx | hx
        · cases o with
          | none => cases hx
          | some y =>
            obtain ⟨n, lo, hi⟩ := y
            simp only [Option.toList_some, List.mem_singleton] at hx
            subst hx
            exact h.bound
        · exact ih _ rfl x hx
    have := key hr es rfl e he
    omega

/-- C72, what follows the last newline is not read. -/
theorem C72_unfinished {text tail : List Char} (h : text = [] ∨ text.getLast? = some '\n') (ht : '\n' ∉ tail) :
    readFile (text ++ tail) = readFile text := by
  unfold readFile
  congr 1
  obtain ⟨ls, hl⟩ := Lines.exists text
  rw [hl.eq]
  obtain ⟨t, h1, h2, h3⟩ := hl
  have h0 : t = [] := by
    cases ht : t.getLast? with
    | none => exact List.getLast?_eq_none_iff.mp ht
    | some c =>
      exfalso
      rw [h1, List.getLast?_append, ht] at h
      rcases h with h | h
      · rw [(List.append_eq_nil_iff.mp h).2] at ht; cases ht
      · simp only [Option.some_or, Option.some.injEq] at h
        subst h
        exact h2 (List.mem_of_getLast? ht)
  subst h0
  exact Lines.eq ⟨tail, by rw [h1, List.append_nil], ht, h3⟩

/-- The four ends of reading. -/
example : readFile (chars "0041;A\n\n# x\n43..0_45 ; B # c\n") = .ok (some [("A", [0x41]), ("B", [0x43, 0x44, 0x45])]) := by
  decide +kernel
example : readFile (chars "0041;A\n80000000;A\n0041\n") = .ok none
    ∧ readFile (chars "0041;A\n0041\n80000000;A\n") = .error .bounds := by decide +kernel
example : readFile (chars "0041;A\n0041..7FFFFFFF\n") = .error .diverge := by decide +kernel

/-- What the lines mean in the specification. -/
example : Reads (chars "80000000;A\n") (.error .refused) ∧ Reads (chars " 41 \n") (.error .crash)
    ∧ Reads (chars "5..3..x;A;B #\n") (.ok (some ((chars "A_B"), 5, 3))) := by
  have hc : ∀ (s : List Char), (∀ c, s.head? = some c → c ≠ '\n' ∧ c ≠ '#') ↔ s.head? ≠ some '\n' ∧ s.head? ≠ some '#' := by
    intro s
    constructor
    · intro h; exact ⟨fun e => (h _ e).1 rfl, fun e => (h _ e).2 rfl⟩
    · intro h c e; exact ⟨fun e' => h.1 (e' ▸ e), fun e' => h.2 (e' ▸ e)⟩
  have trim : ∀ (a s b : List Char), (∀ c ∈ a, isSpace c = true) → (∀ c ∈ b, isSpace c = true) →
      (∀ c ∈ s, isSpace c = false) → Trimmed (a ++ s ++ b) s := fun _ _ _ h1 h2 h3 => Trimmed.of h1 h2 h3
  have d5 : Digit '5' 5 := .inl (by decide)
  have d3 : Digit '3' 3 := .inl (by decide)
  have d4 : Digit '4' 4 := .inl (by decide)
  have d1 : Digit '1' 1 := .inl (by decide)
  refine ⟨.refused (r := some (chars "A\n")) ⟨(hc _).mpr (by decide), (chars "80000000"), (chars "80000000"),
      ⟨by decide, by decide⟩, trim [] (chars "80000000") [] (by decide) (by decide) (by decide),
      .first (p := (chars "80000000")) (x := none) ⟨rfl, by decide⟩ fun n h => ?_⟩,
    .crash (lo := 0x41) (hi := 0x41) ⟨(hc _).mpr (by decide), _, (chars "41"), ⟨rfl, by decide⟩,
      trim [' '] (chars "41") [' ', '\n'] (by decide) (by decide) (by decide),
      .one ⟨rfl, by decide⟩ ⟨.more (.one d4) d1, by decide⟩⟩ (.inl rfl),
    .propertyValue (r := (chars "A;B #\n")) (g := ['A']) (r' := (chars "B #\n")) (n := ['A']) (v := ['B']) (u := (chars "B #\n"))
      (x := none) ⟨(hc _).mpr (by decide), (chars "5..3..x"), (chars "5..3..x"), ⟨by decide, by decide⟩,
        trim [] (chars "5..3..x") [] (by decide) (by decide) (by decide),
        .two (p := ['5']) (r := (chars "3..x")) (q := ['3']) (x := some ['x']) ⟨by decide, by decide⟩ ⟨.one d5, by decide⟩
          ⟨by decide, by decide⟩ ⟨.one d3, by decide⟩⟩ (.inr (by decide)) ⟨by decide, by decide⟩
      (trim [] ['A'] [] (by decide) (by decide) (by decide)) ⟨rfl, by decide⟩
      ⟨(chars "B "), some ['\n'], ⟨by decide, by decide⟩, trim [] ['B'] [' '] (by decide) (by decide) (by decide)⟩⟩
  have := parseHex_iff.mpr h
  rw [show parseHex (chars "80000000") = none by decide +kernel] at this
  cases this

end Uax29
