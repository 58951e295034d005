import Verif.Spec.Split
import Verif.Proofs.Segs
/-! # Greedy splitting and `Splits` -/
namespace Uax29
open Spec

theorem goodAdv_of_good {split : SplitFn} (hg : ∀ d eof, GoodSplit d eof (split d eof)) :
    GoodAdv (splitAdv split) :=
  ⟨fun _ hd => ((GoodFn.of_good fun d => hg d true).adv hd).1,
   fun _ hd => ((GoodFn.of_good fun d => hg d true).adv hd).2⟩

theorem split_true {split : SplitFn} (hg : ∀ d eof, GoodSplit d eof (split d eof)) {d : Bytes}
    (hd : d ≠ []) : split d true = .ok ⟨splitAdv split d, some (d.take (splitAdv split d)), none⟩ := by
  rcases hg d true with ⟨_, h | h⟩ | ⟨k, h1, h2, h3⟩
  · exact absurd h hd
  · cases h
  · have : splitAdv split d = k := by
      simp only [splitAdv, h3, Int.toNat_natCast]
    rw [this, h3]

/-- Greedy splitting by the advance of a split function is repeated application of it. -/
theorem splits_segs {split : SplitFn} (hg : ∀ d eof, GoodSplit d eof (split d eof)) (d : Bytes) :
    Splits split d (segs (splitAdv split) d) := by
  have h := goodAdv_of_good hg
  induction d using h.induction with
  | hnil => rw [segs_nil]; exact .nil
  | hcons d hd ih =>
    have h1 := h.pos d hd
    have h2 := h.le d hd
    have h3 := split_true hg hd
    rw [h.segs_cons hd]
    have h4 : d.take (splitAdv split d) ++ d.drop (splitAdv split d) = d := List.take_append_drop ..
    have := Splits.cons (f := split) (tok := d.take (splitAdv split d))
      (rest := d.drop (splitAdv split d)) ?_ ?_ ih
    · rw [h4] at this
      exact this
    · intro h0
      have := congrArg List.length h0
      simp at this
      rcases this with h | h
      · omega
      · exact hd h
    · rw [h4, h3, List.length_take, Nat.min_eq_left h2]

theorem _root_.Uax29.Spec.Splits.unique {f : SplitFn} {d : Bytes} {ts ts' : List Bytes} (h : Splits f d ts)
    (h' : Splits f d ts') : ts = ts' := by
  induction h generalizing ts' with
  | nil =>
    generalize he : ([] : Bytes) = e at h'
    cases h' with
    | nil => rfl
    | cons ne _ _ => simp at he; exact absurd he.1 ne
  | @cons tok rest more ne first others ih =>
    generalize he : tok ++ rest = e at h' first
    cases h' with
    | nil => simp at he; exact absurd he.1 ne
    | @cons tok' rest' more' ne' first' others' =>
      rw [first] at first'
      have h1 : tok = tok' := by
        have := congrArg (fun r : Res SplitRes => match r with | .ok r => r.token | _ => none) first'
        simpa using this
      subst h1
      have h2 : rest = rest' := by simpa using he
      subst h2
      rw [ih others']

theorem splits_iff {split : SplitFn} (hg : ∀ d eof, GoodSplit d eof (split d eof)) {d : Bytes}
    {ts : List Bytes} : Splits split d ts ↔ ts = segs (splitAdv split) d :=
  ⟨fun h => h.unique (splits_segs hg d), fun h => h ▸ splits_segs hg d⟩

end Uax29
