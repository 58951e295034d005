import Verif.Proofs.Conform
import Verif.Proofs.Iter
/-! # Runs of ASCII characters, over which the fast paths go -/
namespace Uax29
open Spec

theorem countWhile_split (p : UInt8 → Bool) : ∀ d : Bytes, ∃ run rest, d = run ++ rest
    ∧ countWhile p d = run.length ∧ (∀ b ∈ run, p b = true) ∧ (∀ b, rest.head? = some b → p b = false)
  | [] => ⟨[], [], rfl, rfl, by simp, by simp⟩
  | b :: d => by
    cases h : p b
    · exact ⟨[], b :: d, rfl, by simp [countWhile, h], by simp, by simp [h]⟩
    · obtain ⟨run, rest, h1, h2, h3, h4⟩ := countWhile_split p d
      refine ⟨b :: run, rest, by simp [h1], by simp [countWhile, h, h2], ?_, h4⟩
      intro x hx
      rcases List.mem_cons.mp hx with rfl | hx
      · exact h
      · exact h3 x hx

/-- The entry of an ASCII character. -/
def Trie.ascii (T : Trie) (b : UInt8) : Nat :=
  match tableAt T.values b.toNat with
  | .ok v => v
  | .error _ => 0

theorem Trie.Wf.lookup_ascii {T : Trie} (hT : T.Wf) {b : UInt8} (hb : b.toNat < 0x80) (rest : Bytes) :
    T.lookup (b :: rest) = .ok (T.ascii b, 1) ∧ T.IsValue (T.ascii b) := by
  obtain ⟨v, w, h1, _, _, h4⟩ := hT.lookup_ok (s := b :: rest) (by simp)
  have h2 := h1
  simp only [Trie.lookup, hb, if_true] at h1
  unfold Trie.ascii
  cases h : tableAt T.values b.toNat with
  | error f => rw [h] at h1; cases h1
  | ok v' =>
    rw [h] at h1
    cases h1
    exact ⟨h2, h4⟩

theorem Trie.Wf.decodes_ascii {T : Trie} (hT : T.Wf) {rest t : Bytes} {l : List (Nat × Bytes)}
    (h : Decodes T rest l t) : ∀ run : Bytes, (∀ b ∈ run, b.toNat < 0x80) →
    Decodes T (run ++ rest) (run.map (fun b => (T.ascii b, [b])) ++ l) t
  | [], _ => h
  | b :: run, hr => by
    have ih := hT.decodes_ascii h run fun x hx => hr x (List.mem_cons_of_mem _ hx)
    obtain ⟨h1, h2⟩ := hT.lookup_ascii (hr b List.mem_cons_self) (run ++ rest)
    exact Decodes.cons (bs := [b]) (by simp) h1 h2 ih

theorem bytes_ascii (f : UInt8 → Nat) (run : Bytes) : (run.map (fun b => (f b, [b]))).flatMap (·.2) = run := by
  induction run with
  | nil => rfl
  | cons b run ih => simp [ih]

theorem Decodes.of_nil {T : Trie} {d t : Bytes} {l : List (Nat × Bytes)} (h : Decodes T d l t) (hd : d = []) :
    l = [] ∧ t = [] := by
  cases h with
  | nil => exact ⟨rfl, rfl⟩
  | cons ne => exact absurd (List.append_eq_nil_iff.mp hd).1 ne
  | tail ne => exact absurd hd ne

/-- If a rule joins all characters of a run of ASCII characters, and goes on after it as after its last
character alone, then the run can be skipped except for that character. -/
theorem Follows.skip {T : Trie} (hT : T.Wf) {J : Bool → List Nat → List Nat → Bool} {split : SplitFn}
    (h : Follows T Prod.fst Prod.fst J (splitAdv split))
    (S : UInt8 → Bool) (hS : ∀ b, S b = true → b.toNat < 0x80)
    (hjoin : ∀ e a (A : List UInt8) b C, S a = true → (∀ x ∈ A, S x = true) → S b = true →
      J e (T.ascii a :: A.map T.ascii) (T.ascii b :: C) = true)
    (hforget : ∀ e a (A : List UInt8) (B : List Nat) C, S a = true → (∀ x ∈ A, S x = true) →
      J e (B ++ T.ascii a :: A.map T.ascii) C = J e (B ++ [T.ascii a]) C)
    {d : Bytes} (hd : d ≠ []) :
    splitAdv split d = if countWhile S d ≥ d.length then countWhile S d
      else (countWhile S d - 1) + splitAdv split (d.drop (countWhile S d - 1)) := by
  obtain ⟨run, rest, rfl, h2, h3, _⟩ := countWhile_split S d
  rw [h2]
  have hasc : ∀ b ∈ run, b.toNat < 0x80 := fun b hb => hS b (h3 b hb)
  obtain ⟨l, t, hdec⟩ := hT.decodes rest
  have hdec' := hT.decodes_ascii hdec run hasc
  by_cases hrest : rest = []
  · subst hrest
    obtain ⟨rfl, rfl⟩ := hdec.of_nil rfl
    rw [if_pos (by simp)]
    rw [h _ _ _ hd hdec']
    obtain ⟨b, run, rfl⟩ := List.exists_cons_of_ne_nil (l := run) (by simpa using hd)
    have hg : grow (J false) [T.ascii b] (run.map T.ascii) = run.length := by
      have := grow_append (J := J false) (a := run.map T.ascii) (b := []) (left := [T.ascii b]) (by
        intro i hi
        rw [List.length_map] at hi
        obtain ⟨y, r, hy⟩ := List.exists_cons_of_ne_nil (l := run.drop i) (by simp; omega)
        have hym : y ∈ run := List.mem_of_mem_drop (by rw [hy]; exact List.mem_cons_self)
        rw [← List.map_drop, ← List.map_take, hy, List.append_nil, ← List.map_reverse]
        obtain ⟨a, A, hA⟩ := List.exists_cons_of_ne_nil (l := (run.take i).reverse ++ [b]) (by simp)
        have hAm : ∀ x ∈ a :: A, S x = true := by
          intro x hx
          rw [← hA] at hx
          rcases List.mem_append.mp hx with hx | hx
          · exact h3 x (List.mem_cons_of_mem _ (List.mem_of_mem_take (List.mem_reverse.mp hx)))
          · rw [List.mem_singleton.mp hx]; exact h3 b List.mem_cons_self
        rw [show [T.ascii b] = [b].map T.ascii from rfl, ← List.map_append, hA]
        exact hjoin false a A y _ (hAm a List.mem_cons_self) (fun x hx => hAm x (List.mem_cons_of_mem _ hx))
          (h3 y (List.mem_cons_of_mem _ hym)))
      simpa [grow] using this
    have hf : firstChunks Prod.fst Prod.fst (J false) ((b :: run).map (fun b => (T.ascii b, [b])) ++ [])
        = run.length + 1 := by
      simp only [List.map_cons, List.append_nil, firstChunks, List.map_map]
      rw [show (Prod.fst ∘ fun b => (T.ascii b, [b])) = T.ascii from rfl, hg, Nat.add_comm]
    simp only [List.isEmpty_nil, Bool.not_true, hf]
    rw [List.take_of_length_le (by simp), List.append_nil, bytes_ascii]
    simp
  · have hrl : 0 < rest.length := List.length_pos_iff.mpr hrest
    rw [if_neg (by simp; omega)]
    by_cases hrun : run = []
    · subst hrun; simp
    · -- the last character of the run
      obtain ⟨r0, a, rfl⟩ : ∃ r0 a, run = r0 ++ [a] := ⟨run.dropLast, run.getLast hrun, (List.dropLast_concat_getLast hrun).symm⟩
      have hlen : (r0 ++ [a]).length - 1 = r0.length := by simp
      rw [hlen, List.append_assoc, List.drop_left]
      have hda := hT.decodes_ascii hdec [a] (by intro b hb; exact hasc b (by simp at hb ⊢; exact .inr hb))
      rw [h _ _ _ (by simp) hda]
      rw [List.append_assoc] at hdec'
      rw [h _ _ _ (by simp) hdec']
      generalize (!t.isEmpty) = e
      have ha : S a = true := h3 a (by simp)
      have hr0 : ∀ x ∈ r0, S x = true := fun x hx => h3 x (by simp [hx])
      -- the number of chunks
      have key : firstChunks Prod.fst Prod.fst (J e) ((r0 ++ [a]).map (fun b => (T.ascii b, [b])) ++ l)
          = r0.length + firstChunks Prod.fst Prod.fst (J e) ([a].map (fun b => (T.ascii b, [b])) ++ l) := by
        cases r0 with
        | nil => simp
        | cons b r =>
          simp only [List.cons_append, List.map_cons, firstChunks, List.map_append, List.map_map, List.map_nil,
            List.nil_append]
          rw [show (Prod.fst ∘ fun b : UInt8 => (T.ascii b, [b])) = T.ascii from rfl]
          have h5 := grow_append (J := J e) (a := r.map T.ascii ++ [T.ascii a]) (b := l.map Prod.fst)
            (left := [T.ascii b]) (by
            intro i hi
            have hra : r.map T.ascii ++ [T.ascii a] = (r ++ [a]).map T.ascii := by simp
            rw [hra] at hi ⊢
            rw [List.length_map] at hi
            obtain ⟨y, r', hy⟩ := List.exists_cons_of_ne_nil (l := (r ++ [a]).drop i) (by simp at hi ⊢; omega)
            have hym : y ∈ r ++ [a] := List.mem_of_mem_drop (by rw [hy]; exact List.mem_cons_self)
            have hmem : ∀ x ∈ r ++ [a], S x = true := by
              intro x hx
              rcases List.mem_append.mp hx with hx | hx
              · exact hr0 x (List.mem_cons_of_mem _ hx)
              · rw [List.mem_singleton.mp hx]; exact ha
            rw [← List.map_drop, ← List.map_take, hy, ← List.map_reverse]
            obtain ⟨a', A, hA⟩ := List.exists_cons_of_ne_nil (l := ((r ++ [a]).take i).reverse ++ [b]) (by simp)
            have hAm : ∀ x ∈ a' :: A, S x = true := by
              intro x hx
              rw [← hA] at hx
              rcases List.mem_append.mp hx with hx | hx
              · exact hmem x (List.mem_of_mem_take (List.mem_reverse.mp hx))
              · rw [List.mem_singleton.mp hx]; exact hr0 b List.mem_cons_self
            rw [show [T.ascii b] = [b].map T.ascii from rfl, ← List.map_append, hA]
            exact hjoin e a' A y _ (hAm a' List.mem_cons_self) (fun x hx => hAm x (List.mem_cons_of_mem _ hx))
              (hmem y hym))
          rw [h5]
          have h6 : grow (J e) ((r.map T.ascii ++ [T.ascii a]).reverse ++ [T.ascii b]) (l.map Prod.fst)
              = grow (J e) [T.ascii a] (l.map Prod.fst) := by
            apply grow_congr
            intro i _
            have := hforget e a ((b :: r).reverse) (((l.map Prod.fst).take i).reverse) ((l.map Prod.fst).drop i) ha (by
              intro x hx; exact hr0 x (List.mem_reverse.mp hx))
            simpa using this
          rw [h6]
          simp
          omega
      rw [key]
      simp only [List.map_append, List.append_assoc]
      rw [show r0.length = (r0.map (fun b => (T.ascii b, [b]))).length by simp, List.take_length_add_append]
      simp only [List.flatMap_append, List.length_append, bytes_ascii, Nat.add_assoc, List.length_map,
        Nat.add_left_cancel_iff]

end Uax29
