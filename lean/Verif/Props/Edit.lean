import Verif.Props.Sync
import Verif.Props.Divide
import Verif.Model.Chars
/-! # C104: an edit changes only the tokens near it -/
namespace Uax29
open Spec

/-- **C104** Let `x` be replaced by `y` in the text `a x b`. The tokens `P` stay if enough other tokens `Q` are between them
and the place of the edit, and the tokens `S` stay if enough other tokens `R` are. -/
theorem C104_edit (p : Pkg) (a x y b : Bytes) (P Q M R S : List Bytes)
    (h : defaultTokens p (a ++ x ++ b) = .ok (P ++ Q ++ M ++ R ++ S))
    (ha : (P ++ Q).flatten <+: a) (hb : (R ++ S).flatten <:+ b)
    (hq : unsettled p ≤ Q.length) (hr : unsynced p < R.length)
    (hw : Complete (P ++ Q).flatten) (hs : StartsFresh (R ++ S).flatten) (hf : ¬ FlagFirst p (R ++ S).flatten) :
    ∃ N, defaultTokens p (a ++ y ++ b) = .ok (P ++ N ++ S) := by
  obtain ⟨a', rfl⟩ := ha
  obtain ⟨b', rfl⟩ := hb
  have hg := splitAdv_good p
  -- before the edit
  obtain ⟨h1, -⟩ := C74_divide p (P ++ Q).flatten (a' ++ x ++ (b' ++ (R ++ S).flatten)) hw (P ++ Q) (M ++ R ++ S)
    (by simpa only [List.append_assoc] using h) rfl
  obtain ⟨us, h2, h3⟩ := C71_append p (P ++ Q).flatten (a' ++ y ++ (b' ++ (R ++ S).flatten)) P Q h1 hq
  -- after it
  have h4 : defaultTokens p (R ++ S).flatten = .ok (R ++ S) := by
    have e : (P ++ Q).flatten ++ a' ++ x ++ (b' ++ (R ++ S).flatten) = (P ++ Q ++ M).flatten ++ (R ++ S).flatten := by
      have := hg.segs_flatten ((P ++ Q).flatten ++ a' ++ x ++ (b' ++ (R ++ S).flatten))
      rw [default_segs] at h
      rw [Except.ok.inj h] at this
      rw [← this, ← List.flatten_append]
      simp only [List.append_assoc]
    rw [default_segs, e] at h
    have := hg.segs_resume _ (P ++ Q ++ M) (R ++ S) ((Except.ok.inj h).trans (by simp only [List.append_assoc]))
    rw [List.drop_left' rfl] at this
    rw [default_segs, this]
  obtain ⟨ws, h5, -⟩ := C73_sync p (Q.flatten ++ (a' ++ y ++ b')) (R ++ S).flatten hs hf R S h4 hr
  have e : Q.flatten ++ (a' ++ y ++ (b' ++ (R ++ S).flatten)) = Q.flatten ++ (a' ++ y ++ b') ++ (R ++ S).flatten := by
    simp only [List.append_assoc]
  rw [e, h5] at h2
  refine ⟨ws, ?_⟩
  rw [show (P ++ Q).flatten ++ a' ++ y ++ (b' ++ (R ++ S).flatten)
    = (P ++ Q).flatten ++ (a' ++ y ++ (b' ++ (R ++ S).flatten)) by simp only [List.append_assoc], h3, ← Except.ok.inj h2,
    List.append_assoc]

theorem startsFresh_utf8 (s : List Char) : StartsFresh (utf8 s) := by
  cases s with
  | nil => intro x hx; cases hx
  | cons c s =>
    rw [utf8_cons]
    rcases encode_cases c with ⟨h1, b0, he, h2⟩ | ⟨h1, h1', b0, b1, he, h2, h3⟩ |
      ⟨h1, h1', b0, b1, b2, he, h2, h3, h4⟩ | ⟨h1, h1', b0, b1, b2, b3, he, h2, h3, h4, h5⟩
    all_goals
      rw [he]
      apply startsFresh_cons
      simp only [continuation, Bool.and_eq_false_iff, decide_eq_false_iff_not, UInt8.le_iff_toNat_le,
        show (0x80 : UInt8).toNat = 0x80 from rfl, show (0xBF : UInt8).toNat = 0xBF from rfl]
      omega

/-- C104 for UTF-8: the new text `y` may be any bytes, and the edit may begin and end anywhere. -/
theorem C104_utf8 (p : Pkg) (s : List Char) (a x y b : Bytes) (P Q M R S : List Bytes) (hs : utf8 s = a ++ x ++ b)
    (h : defaultTokens p (utf8 s) = .ok (P ++ Q ++ M ++ R ++ S))
    (ha : (P ++ Q).flatten <+: a) (hb : (R ++ S).flatten <:+ b)
    (hq : unsettled p ≤ Q.length) (hr : unsynced p < R.length) (hf : ¬ FlagFirst p (R ++ S).flatten) :
    ∃ N, defaultTokens p (a ++ y ++ b) = .ok (P ++ N ++ S) := by
  obtain ⟨us, h1, h2⟩ := C07_iterator p (Iterator.defaultConfig p) (utf8 s) ⟨s, rfl⟩
  rw [← defaultTokens_eq, h] at h1
  have h1 := Except.ok.inj h1
  have all : ∀ ts : List Bytes, (∀ t ∈ ts, ValidUtf8 t) → ∃ r, ts.flatten = utf8 r := by
    intro ts
    induction ts with
    | nil => exact fun _ => ⟨[], rfl⟩
    | cons t ts ih =>
      intro h
      obtain ⟨r, hr⟩ := ih fun x hx => h x (List.mem_cons_of_mem _ hx)
      obtain ⟨q, hq⟩ := h t List.mem_cons_self
      exact ⟨q ++ r, by rw [List.flatten_cons, hr, hq, utf8_append]⟩
  refine C104_edit p a x y b P Q M R S (hs ▸ h) ha hb hq hr ?_ ?_ hf
  · obtain ⟨r, e⟩ := all (P ++ Q) fun t ht => h2 t (by
      rw [← h1]; simp only [List.mem_append] at ht ⊢; exact .inl (.inl (.inl ht)))
    rw [e]
    exact complete_utf8 r
  · obtain ⟨r, e⟩ := all (R ++ S) fun t ht => h2 t (by
      rw [← h1]; simp only [List.mem_append] at ht ⊢; exact ht.elim (fun h => .inl (.inr h)) .inr)
    rw [e]
    exact startsFresh_utf8 r

-- "see a.b, or d. e f" with ", or" replaced by "-'d": the first token stays, and the last four
example : defaultTokens .words (utf8 (chars "see a.b, or d. e f"))
    = .ok ([utf8 (chars "see")] ++ [utf8 (chars " "), utf8 (chars "a.b")] ++ [utf8 (chars ","), utf8 (chars " "), utf8 (chars "or")]
      ++ [utf8 (chars " "), utf8 (chars "d"), utf8 (chars ".")] ++ [utf8 (chars " "), utf8 (chars "e"), utf8 (chars " "), utf8 (chars "f")])
  ∧ defaultTokens .words (utf8 (chars "see a.b-'d d. e f"))
    = .ok ([utf8 (chars "see")] ++ [utf8 (chars " "), utf8 (chars "a.b"), utf8 (chars "-"), utf8 (chars "'"), utf8 (chars "d"),
      utf8 (chars " "), utf8 (chars "d"), utf8 (chars ".")] ++ [utf8 (chars " "), utf8 (chars "e"), utf8 (chars " "), utf8 (chars "f")]) := by
  decide +kernel
-- one token between is not enough for words: "a" and "." of "a. x" are two tokens, after the edit they are one
example : defaultTokens .words (utf8 (chars "a. x")) = .ok ([utf8 (chars "a")] ++ [utf8 (chars ".")] ++ [utf8 (chars " "), utf8 (chars "x")])
  ∧ defaultTokens .words (utf8 (chars "a.bx")) = .ok [utf8 (chars "a.bx")] := by decide +kernel

end Uax29
