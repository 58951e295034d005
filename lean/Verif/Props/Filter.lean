import Verif.Spec.Runes
import Verif.Model.Filter
import Verif.Proofs.IllFormed
/-! # Property C36: the AlphaNumeric filter -/
namespace Uax29
open Spec

/-- Where no encoded character begins, `DecodeRune` gives U+FFFD of width 1. -/
theorem decodeRune_bad {b : UInt8} {d : Bytes} (ill : ∀ c e, b :: d ≠ String.utf8EncodeChar c ++ e) :
    Utf8.decodeRune (b :: d) = (0xFFFD, 1) := by
  simp only [Utf8.decodeRune, Utf8.runeError]
  split
  · rename_i h
    obtain ⟨c, hc⟩ := bytes1 h
    exact absurd (by simp [hc]) (ill c d)
  rename_i hb
  split
  · rfl
  rename_i sz lo hi hf
  split
  · rfl
  rename_i hlen
  cases d with
  | nil => rfl
  | cons b1 d =>
    dsimp only
    split
    · rfl
    rename_i h1
    have hfirst : (sz = 2 ∧ 0xC2 ≤ b.toNat ∧ b.toNat < 0xE0 ∧ lo = 0x80 ∧ hi = 0xBF)
        ∨ (sz = 3 ∧ 0xE0 ≤ b.toNat ∧ b.toNat < 0xF0 ∧ 0x80 ≤ lo ∧ hi ≤ 0xBF ∧ (b.toNat = 0xE0 → lo = 0xA0)
          ∧ (b.toNat = 0xED → hi = 0x9F))
        ∨ (sz = 4 ∧ 0xF0 ≤ b.toNat ∧ b.toNat < 0xF5 ∧ 0x80 ≤ lo ∧ hi ≤ 0xBF ∧ (b.toNat = 0xF0 → lo = 0x90)
          ∧ (b.toNat = 0xF4 → hi = 0x8F)) := by
      unfold Utf8.first at hf
      repeat' split at hf
      all_goals (first | cases hf | (simp only [Option.some.injEq, Prod.mk.injEq] at hf; obtain ⟨rfl, rfl, rfl⟩ := hf))
      all_goals omega
    split
    · rename_i h2
      obtain ⟨c, hc⟩ := bytes2 (b0 := b) (b1 := b1) (by omega) (by omega) (by omega)
      exact absurd (by simp [hc]) (ill c d)
    cases d with
    | nil => rfl
    | cons b2 d =>
      dsimp only
      split
      · rfl
      rename_i h3
      split
      · obtain ⟨c, hc⟩ := bytes3 (b0 := b) (b1 := b1) (b2 := b2) (by omega) (by omega) (by omega) (by omega) (by omega)
          (by omega)
        exact absurd (by simp [hc]) (ill c d)
      cases d with
      | nil => rfl
      | cons b3 d =>
        dsimp only
        split
        · rfl
        rename_i h4
        obtain ⟨c, hc⟩ := bytes4 (b0 := b) (b1 := b1) (b2 := b2) (b3 := b3) (by omega) (by omega) (by omega) (by omega)
          (by omega) (by omega) (by omega)
        exact absurd (by simp [hc]) (ill c d)

/-- Every byte sequence can be taken apart. -/
theorem runes_exist (d : Bytes) : ∃ l, Runes d l := by
  induction hn : d.length using Nat.strongRecOn generalizing d with
  | _ n ih =>
    cases d with
    | nil => exact ⟨[], .nil⟩
    | cons b d =>
      by_cases h : ∃ c e, b :: d = String.utf8EncodeChar c ++ e
      · obtain ⟨c, e, he⟩ := h
        have := encode_pos c
        have hl := congrArg List.length he
        simp only [List.length_append] at hl
        obtain ⟨l, hl⟩ := ih e.length (by omega) e rfl
        exact ⟨_, he ▸ Runes.char c hl⟩
      · obtain ⟨l, hl⟩ := ih d.length (by simp at hn; omega) d rfl
        exact ⟨_, .bad b (fun c e he => h ⟨c, e, he⟩) hl⟩

theorem alphaLoop_eq {isLetter isNumber : Nat → Bool} {token d : Bytes} {l : List Nat} (h : Runes d l) :
    ∀ (fuel pos : Nat), pos ≤ token.length → token.drop pos = d → d.length < fuel →
      Filter.alphaLoop isLetter isNumber token fuel pos = .ok (l.any fun r => isLetter r || isNumber r) := by
  have step : ∀ (d : Bytes) (fuel pos r w : Nat) (b : Bool), pos ≤ token.length → token.drop pos = d → d.length < fuel →
      d ≠ [] → Utf8.decodeRune d = (r, w) →
      (∀ fuel, (d.drop w).length < fuel → Filter.alphaLoop isLetter isNumber token fuel (pos + w) = .ok b) →
      0 < w → Filter.alphaLoop isLetter isNumber token fuel pos = .ok ((isLetter r || isNumber r) || b) := by
    intro d fuel pos r w b hp hd hf hne hr ih hw
    obtain ⟨fuel, rfl⟩ : ∃ k, fuel = k + 1 := ⟨fuel - 1, by omega⟩
    have hlen : d.length = token.length - pos := by rw [← hd]; simp
    have := List.length_pos_iff.mpr hne
    rw [Filter.alphaLoop, if_pos (by omega), sliceFrom_ok hp, hd]
    dsimp only
    rw [hr]
    dsimp only
    split
    · rename_i h
      rw [h]; rfl
    · rename_i h
      rw [Bool.eq_false_iff.mpr h, Bool.false_or, ih fuel (by simp; omega)]
  induction h with
  | nil =>
    intro fuel pos hp hd hf
    obtain ⟨fuel, rfl⟩ : ∃ k, fuel = k + 1 := ⟨fuel - 1, by omega⟩
    have := List.drop_eq_nil_iff.mp hd
    rw [Filter.alphaLoop, if_neg (by omega)]
    rfl
  | @char d l c rest ih =>
    intro fuel pos hp hd hf
    have hlen := congrArg List.length hd
    simp only [List.length_append, List.length_drop] at hlen
    have hpos := encode_pos c
    refine step _ fuel pos _ _ _ hp hd hf (by intro h; simp only [List.append_eq_nil_iff] at h; simp only [h.1, List.length_nil] at hpos; omega) (decodeRune_encode c d) ?_ hpos
    intro fuel hf
    exact ih fuel _ (by omega) (by rw [← List.drop_drop, hd]; simp) (by simpa using hf)
  | @bad d l b ill rest ih =>
    intro fuel pos hp hd hf
    have hlen := congrArg List.length hd
    simp only [List.length_cons, List.length_drop] at hlen
    refine step _ fuel pos _ _ _ hp hd hf (by simp) (decodeRune_bad ill) ?_ (by omega)
    intro fuel hf
    exact ih fuel _ (by omega) (by rw [← List.drop_drop, hd]; rfl) (by simpa using hf)

/-- C36: AlphaNumeric accepts exactly the tokens with a rune that is a letter or a number, and returns
on every input. -/
theorem C36_alphaNumeric (isLetter isNumber : Nat → Bool) (token : Bytes) :
    ∃ l, Runes token l ∧ (∀ l', Runes token l' → l' = l)
      ∧ ∃ b, Filter.alphaNumeric isLetter isNumber token = .ok b
        ∧ (b = true ↔ ∃ r ∈ l, isLetter r = true ∨ isNumber r = true) := by
  have uniq : ∀ {d l l'}, Runes d l → Runes d l' → l' = l := by
    intro d l l' h
    induction h generalizing l' with
    | nil =>
      intro h
      generalize hd : ([] : Bytes) = d at h
      cases h with
      | nil => rfl
      | char c rest =>
        have := encode_pos c
        have := congrArg List.length hd
        simp only [List.length_append, List.length_nil] at this
        omega
      | bad => cases hd
    | @char d l c rest ih =>
      intro h
      generalize hd : String.utf8EncodeChar c ++ d = d' at h
      cases h with
      | nil =>
        have := encode_pos c
        have := congrArg List.length hd
        simp only [List.length_append, List.length_nil] at this
        omega
      | @char d2 l2 c2 rest2 =>
        have h1 := decodeRune_encode c d
        rw [hd, decodeRune_encode] at h1
        simp only [Prod.mk.injEq] at h1
        obtain ⟨rfl, h2⟩ := List.append_inj' hd (by
          have := congrArg List.length hd
          simp only [List.length_append] at this
          omega) |>.symm
        rw [ih rest2, h1.1]
      | bad b ill => exact absurd hd.symm (ill c d)
    | @bad d l b ill rest ih =>
      intro h
      generalize hd : b :: d = d' at h
      cases h with
      | nil => cases hd
      | char c rest => exact absurd hd (ill c _)
      | bad b2 ill2 rest2 =>
        cases hd
        rw [ih rest2]
  obtain ⟨l, hl⟩ := runes_exist token
  refine ⟨l, hl, fun l' h => uniq hl h, _, alphaLoop_eq hl _ 0 (by omega) rfl (by omega), ?_⟩
  simp

-- With the letters and digits of ASCII: "-a" is accepted, "-" with an ill-formed byte is not, and with
-- U+FFFD as a letter it is.
private def asciiLetter (r : Nat) : Bool := (0x41 ≤ r && r ≤ 0x5A) || (0x61 ≤ r && r ≤ 0x7A)
private def asciiDigit (r : Nat) : Bool := 0x30 ≤ r && r ≤ 0x39
example : Filter.alphaNumeric asciiLetter asciiDigit [0x2D, 0x61] = .ok true := by decide +kernel
example : Filter.alphaNumeric asciiLetter asciiDigit [0x2D, 0xE6, 0xBC] = .ok false := by decide +kernel
example : Filter.alphaNumeric (· == 0xFFFD) asciiDigit [0x2D, 0xE6, 0xBC] = .ok true := by decide +kernel
example : Runes [0x2D, 0xE6, 0xBC] [0x2D, 0xFFFD, 0xFFFD] := by
  have h0 : ∀ b : UInt8, 0x80 ≤ b.toNat → ∀ d : Bytes, d.length ≤ 1 → (b = 0xBC ∨ b = 0xE6) →
      ∀ c e, b :: d ≠ String.utf8EncodeChar c ++ e := by
    intro b hb d hd hb2 c e h
    have hl := congrArg List.length h
    rcases encode_cases c with ⟨h1, x0, he, h2⟩ | ⟨h1, h1', x0, x1, he, h2, h3⟩ |
      ⟨h1, h1', x0, x1, x2, he, h2, h3, h4⟩ | ⟨h1, h1', x0, x1, x2, x3, he, h2, h3, h4, h5⟩ <;> rw [he] at h hl
    · simp only [List.cons_append, List.cons.injEq] at h
      rw [h.1] at hb; omega
    · simp only [List.cons_append, List.cons.injEq] at h
      rcases hb2 with rfl | rfl
      · have : x0.toNat = 0xBC := by rw [← h.1]; rfl
        omega
      · have : x0.toNat = 0xE6 := by rw [← h.1]; rfl
        omega
    · simp at hl; omega
    · simp at hl; omega
  exact .char '-' (.bad _ (h0 _ (by decide) _ (by decide) (by decide)) (.bad _ (h0 _ (by decide) _ (by decide) (by decide)) .nil))

end Uax29
