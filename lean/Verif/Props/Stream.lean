import Verif.Props.Append
import Verif.Spec.Stream
import Verif.Model.Chars
/-! # C105: text may be tokenized as it arrives -/
namespace Uax29
open Spec

theorem passedOn_flatten {ε : Type} {F : Bytes → Except ε (List Bytes)} {T : Bytes → List Bytes} {k : Nat}
    (hT : ∀ d, F d = .ok (T d)) (hflat : ∀ d, (T d).flatten = d)
    (happ : ∀ a b ts tl, F a = .ok (ts ++ tl) → k ≤ tl.length → ∃ us, F (tl.flatten ++ b) = .ok us ∧ F (a ++ b) = .ok (ts ++ us)) :
    ∀ (parts : List Bytes) (kept : Bytes), (passedOn T k kept parts).flatten = T (kept ++ parts.flatten)
  | [], kept => by simp [passedOn]
  | part :: parts, kept => by
    rw [passedOn, List.flatten_cons, passedOn_flatten hT hflat happ parts, List.flatten_cons, ← List.append_assoc]
    by_cases hk : k ≤ (T (kept ++ part)).length
    · obtain ⟨us, h1, h2⟩ := happ (kept ++ part) parts.flatten ((T (kept ++ part)).take ((T (kept ++ part)).length - k))
        ((T (kept ++ part)).drop ((T (kept ++ part)).length - k)) (by rw [List.take_append_drop, hT])
        (by rw [List.length_drop]; omega)
      rw [hT] at h1 h2
      rw [Except.ok.inj h1, Except.ok.inj h2]
    · rw [show (T (kept ++ part)).length - k = 0 by omega, List.take_zero, List.drop_zero, List.nil_append, hflat]

/-- **C105** A program that gets a text in parts, passes on all tokens but the last two (graphemes: the last one) and keeps these
until more text comes, passes on the tokens of the text, however it is divided into parts. -/
theorem C105_stream (p : Pkg) (T : Bytes → List Bytes) (hT : ∀ d, defaultTokens p d = .ok (T d)) (parts : List Bytes) :
    defaultTokens p parts.flatten = .ok (passedOn T (unsettled p) [] parts).flatten := by
  have hflat : ∀ d, (T d).flatten = d := by
    intro d
    have := hT d
    rw [default_segs] at this
    rw [← Except.ok.inj this, (splitAdv_good p).segs_flatten]
  rw [passedOn_flatten hT hflat (fun a b ts tl h hk => C71_append p a b ts tl h hk), List.nil_append, hT]

/-- C105 for words with joiners, whatever they are. -/
theorem C105_joiners (j : Option Words.Joiners) (T : Bytes → List Bytes) (hT : ∀ d, tokens .words j d = .ok (T d))
    (parts : List Bytes) : tokens .words j parts.flatten = .ok (passedOn T 2 [] parts).flatten := by
  have hflat : ∀ d, (T d).flatten = d := by
    intro d
    obtain ⟨us, k1, k2, -⟩ := C01_lossless .words j d
    rw [hT] at k1
    rw [Except.ok.inj k1, k2]
  rw [passedOn_flatten hT hflat (fun a b ts tl h hk => C71_joiners j a b ts tl h hk), List.nil_append, hT]

/-- There is such a function: tokenizing never fails. -/
theorem C105_total (p : Pkg) : ∃ T : Bytes → List Bytes, ∀ d, defaultTokens p d = .ok (T d) :=
  ⟨_, fun d => default_segs p d⟩

-- "can't 3.5 é" in five parts, cut within the word, the number and the last character
example : passedOn (fun d => match defaultTokens .words d with | .ok ts => ts | .error _ => []) 2 []
      [utf8 (chars "can"), utf8 (chars "'t 3"), [], (utf8 (chars ".5 é")).dropLast, (utf8 (chars "é")).drop 1]
    = [[], [utf8 (chars "can't")], [], [utf8 (chars " ")], [utf8 (chars "3.5")], [utf8 (chars " "), utf8 (chars "é")]] := by
  decide +kernel
-- with one token kept in place of two the number would be cut
example : passedOn (fun d => match defaultTokens .words d with | .ok ts => ts | .error _ => []) 1 []
      [utf8 (chars "3."), utf8 (chars "5")] = [[utf8 (chars "3")], [utf8 (chars ".")], [utf8 (chars "5")]] := by
  decide +kernel

end Uax29
