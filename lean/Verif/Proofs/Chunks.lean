import Verif.Proofs.Loop
import Verif.Proofs.Encode
import Verif.Proofs.Greedy
import Verif.Proofs.Splits
/-! # Data as a sequence of chunks, the pieces that lookup takes one after the other -/
namespace Uax29
open Spec

/-- `Decodes T d l t`: lookup takes `d` apart into the chunks `l`, each with its property and its
bytes, and an incomplete encoding `t` at the end. -/
inductive Decodes (T : Trie) : Bytes → List (Nat × Bytes) → Bytes → Prop
  | nil : Decodes T [] [] []
  | tail {d : Bytes} {v : Nat} (ne : d ≠ []) (look : T.lookup d = .ok (v, 0)) : Decodes T d [] d
  | cons {bs d t : Bytes} {v : Nat} {l : List (Nat × Bytes)} (ne : bs ≠ [])
      (look : T.lookup (bs ++ d) = .ok (v, bs.length)) (val : T.IsValue v)
      (rest : Decodes T d l t) : Decodes T (bs ++ d) ((v, bs) :: l) t

theorem Trie.Wf.decodes {T : Trie} (hT : T.Wf) (d : Bytes) : ∃ l t, Decodes T d l t := by
  induction hn : d.length using Nat.strongRecOn generalizing d with
  | _ n ih =>
    by_cases hd : d = []
    · subst hd; exact ⟨[], [], .nil⟩
    · obtain ⟨v, w, h1, h2, _, h4⟩ := hT.lookup_ok hd
      by_cases hw : w = 0
      · exact ⟨[], d, .tail hd (hw ▸ h1)⟩
      · obtain ⟨l, t, h5⟩ := ih (d.drop w).length (by simp; omega) _ rfl
        refine ⟨(v, d.take w) :: l, t, ?_⟩
        have h6 : d.take w ++ d.drop w = d := List.take_append_drop ..
        have := Decodes.cons (T := T) (bs := d.take w) (d := d.drop w) (v := v) (l := l) (t := t)
          (by rw [ne_eq, List.take_eq_nil_iff]; rintro (h | h); exact hw h; exact hd h)
          (by rw [h6, h1, List.length_take, Nat.min_eq_left h2]) h4 h5
        rwa [h6] at this

theorem Decodes.flatten {T : Trie} {d t : Bytes} {l : List (Nat × Bytes)} (h : Decodes T d l t) :
    (l.flatMap (·.2)) ++ t = d := by
  induction h with
  | nil => rfl
  | tail => rfl
  | cons _ _ _ _ ih => simp [List.append_assoc, ih]

theorem Decodes.values {T : Trie} {d t : Bytes} {l : List (Nat × Bytes)} (h : Decodes T d l t) :
    ∀ x ∈ l, T.IsValue x.1 ∧ x.2 ≠ [] := by
  induction h with
  | nil => simp
  | tail => simp
  | cons ne _ val _ ih =>
    intro x hx
    rcases List.mem_cons.mp hx with rfl | hx
    · exact ⟨val, ne⟩
    · exact ih x hx

theorem Decodes.length_le {T : Trie} {d t : Bytes} {l : List (Nat × Bytes)} (h : Decodes T d l t) :
    l.length ≤ d.length := by
  induction h with
  | nil => simp
  | tail => simp
  | cons ne _ _ _ ih =>
    have := List.length_pos_iff.mpr ne
    simp
    omega

theorem Decodes.unique {T : Trie} {d t t' : Bytes} {l l' : List (Nat × Bytes)} (h : Decodes T d l t)
    (h' : Decodes T d l' t') : l = l' ∧ t = t' := by
  induction h generalizing l' with
  | nil =>
    generalize he : ([] : Bytes) = e at h'
    cases h' with
    | nil => exact ⟨rfl, rfl⟩
    | tail ne _ => exact absurd he.symm ne
    | cons ne _ _ _ => simp at he; exact absurd he.1 ne
  | @tail d v ne look =>
    cases h' with
    | nil => exact absurd rfl ne
    | tail _ _ => exact ⟨rfl, rfl⟩
    | cons ne' look' _ _ =>
      rw [look'] at look
      have h1 : _ = 0 := congrArg Prod.snd (Except.ok.inj look)
      exact absurd (List.length_eq_zero_iff.mp h1) ne'
  | @cons bs d t v l ne look val rest ih =>
    generalize he : bs ++ d = e at h' look
    cases h' with
    | nil => simp at he; exact absurd he.1 ne
    | tail ne' look' =>
      rw [look'] at look
      have : 0 = bs.length := congrArg Prod.snd (Except.ok.inj look)
      exact absurd (List.length_eq_zero_iff.mp this.symm) ne
    | @cons bs' d' _ v' l' ne' look' val' rest' =>
      rw [look'] at look
      have h1 : v' = v ∧ bs'.length = bs.length := by
        injection look with h1; injection h1 with h1 h2; exact ⟨h1, h2⟩
      obtain ⟨rfl, h2⟩ := h1
      have h3 : bs = bs' := List.append_inj_left he h2.symm
      subst h3
      have h4 : d = d' := by simpa using he
      subst h4
      obtain ⟨h5, h6⟩ := ih rest'
      exact ⟨by rw [h5], h6⟩

/-- The rest after some chunks. -/
theorem Decodes.drop {T : Trie} {d t : Bytes} {l : List (Nat × Bytes)} (h : Decodes T d l t) :
    ∀ n, n ≤ l.length → Decodes T (d.drop ((l.take n).flatMap (·.2)).length) (l.drop n) t := by
  induction h with
  | nil => intro n _; simpa using Decodes.nil
  | tail ne look => intro n hn; simpa using Decodes.tail ne look
  | @cons bs d t v l ne look val rest ih =>
    intro n hn
    cases n with
    | zero => simpa using Decodes.cons ne look val rest
    | succ n =>
      have := ih n (by simpa using hn)
      simp only [List.take_succ_cons, List.flatMap_cons, List.length_append, List.drop_succ_cons]
      rw [← List.drop_drop, List.drop_left]
      exact this

/-- The chunks of a text in UTF-8 are its characters. -/
theorem Trie.Wf.decodes_utf8 {T : Trie} (hT : T.Wf) (s : List Char) :
    Decodes T (utf8 s) (s.map fun c => (T.prop c, String.utf8EncodeChar c)) [] := by
  induction s with
  | nil => exact .nil
  | cons c s ih =>
    rw [utf8_cons]
    refine .cons ?_ (hT.lookup_encode c _) (hT.prop_value c) ih
    intro h0; have := encode_pos c; rw [h0] at this; simp at this

/-- The chunks of text in UTF-8 followed by anything. -/
theorem Trie.Wf.decodes_utf8_append {T : Trie} (hT : T.Wf) (s : List Char) {d t : Bytes}
    {l : List (Nat × Bytes)} (h : Decodes T d l t) :
    Decodes T (utf8 s ++ d) ((s.map fun c => (T.prop c, String.utf8EncodeChar c)) ++ l) t := by
  induction s with
  | nil => exact h
  | cons c s ih =>
    rw [utf8_cons, List.append_assoc]
    refine .cons ?_ (hT.lookup_encode c _) (hT.prop_value c) ih
    intro h0; have := encode_pos c; rw [h0] at this; simp at this

/-- The bytes of tokens given as lists of chunks; an incomplete encoding at the end belongs to the
last token. -/
def glue (t : Bytes) : List (List (Nat × Bytes)) → List Bytes
  | [] => if t = [] then [] else [t]
  | [g] => [g.flatMap (·.2) ++ t]
  | g :: gs => g.flatMap (·.2) :: glue t gs

theorem glue_nil (gs : List (List (Nat × Bytes))) : glue [] gs = gs.map (·.flatMap (·.2)) := by
  match gs with
  | [] => rfl
  | [g] => simp [glue]
  | g :: g' :: gs => rw [glue, glue_nil]; rfl; simp

/-- A rule on properties as a rule on chunks, where `cell` gives the property of a chunk. -/
def onChunks (cell : Nat × Bytes → Nat) (J : List Nat → List Nat → Bool) (l r : List (Nat × Bytes)) : Bool :=
  J (l.map cell) (r.map cell)

theorem grow_map {α β : Type} (f : β → α) (J : List α → List α → Bool) : ∀ (right left : List β),
    grow (fun l r => J (l.map f) (r.map f)) left right = grow J (left.map f) (right.map f)
  | [], _ => by simp [grow]
  | b :: right, left => by
    simp only [grow, List.map_cons]
    rw [grow_map f J right (b :: left), List.map_cons]

theorem firstLen_map {α β : Type} (f : β → α) (J : List α → List α → Bool) (l : List β) :
    firstLen (fun l r => J (l.map f) (r.map f)) l = firstLen J (l.map f) := by
  cases l with
  | nil => rfl
  | cons a r => simp only [firstLen, List.map_cons]; rw [grow_map]; rfl

theorem greedy_map {α β : Type} (f : β → α) (J : List α → List α → Bool) (l : List β) :
    (greedy (fun l r => J (l.map f) (r.map f)) l).map (·.map f) = greedy J (l.map f) := by
  induction l using greedy_induction (fun l r => J (l.map f) (r.map f)) with
  | hnil => simp [greedy_nil]
  | hcons l hl ih =>
    have hl' : l.map f ≠ [] := by simpa using hl
    rw [greedy_cons _ hl, greedy_cons _ hl', List.map_cons, ih, firstLen_map, List.map_take, List.map_drop]

theorem flatMap_length_drop {n : Nat} {l : List (Nat × Bytes)} (h : n < l.length)
    (hv : ∀ x ∈ l, x.2 ≠ []) :
    ((l.take n).flatMap (·.2)).length < (l.flatMap (·.2)).length := by
  have h1 : l.flatMap (·.2) = (l.take n).flatMap (·.2) ++ (l.drop n).flatMap (·.2) := by
    rw [← List.flatMap_append, List.take_append_drop]
  have h2 : l.drop n ≠ [] := by simp; omega
  rw [h1, List.length_append]
  match hd : l.drop n, h2 with
  | x :: r, _ =>
    have := hv x (List.mem_of_mem_drop (hd ▸ List.mem_cons_self))
    have := List.length_pos_iff.mpr this
    simp
    omega

/-- The number of chunks in the first segment, where `first` gives the property of the first chunk and
`cell` that of the others. -/
def firstChunks (first cell : Nat × Bytes → Nat) (J : List Nat → List Nat → Bool) :
    List (Nat × Bytes) → Nat
  | [] => 0
  | x :: r => 1 + grow J [first x] (r.map cell)

/-- `adv` takes the first segment of the rule `J`, and what is left of an incomplete encoding if it
reaches it. The rule may depend on there being one. -/
def Follows (T : Trie) (first cell : Nat × Bytes → Nat) (J : Bool → List Nat → List Nat → Bool)
    (adv : Bytes → Nat) : Prop :=
  ∀ d l t, d ≠ [] → Decodes T d l t →
    adv d = ((l.take (firstChunks first cell (J (!t.isEmpty)) l)).flatMap (·.2)).length
      + if firstChunks first cell (J (!t.isEmpty)) l = l.length then t.length else 0

theorem firstChunks_self (cell : Nat × Bytes → Nat) (J : List Nat → List Nat → Bool)
    (l : List (Nat × Bytes)) : firstChunks cell cell J l = firstLen (onChunks cell J) l := by
  cases l with
  | nil => rfl
  | cons x r =>
    rw [show onChunks cell J = fun l r => J (l.map cell) (r.map cell) from rfl, firstLen_map]
    rfl

theorem Follows.congr_first {T : Trie} {first first' cell : Nat × Bytes → Nat}
    {J : Bool → List Nat → List Nat → Bool} {adv : Bytes → Nat} (h : Follows T first cell J adv)
    (he : ∀ b x (l : List (Nat × Bytes)), T.IsValue x.1 → (∀ y ∈ l, T.IsValue y.1) →
      grow (J b) [first x] (l.map cell) = grow (J b) [first' x] (l.map cell)) :
    Follows T first' cell J adv := by
  intro d l t hne hdec
  have := h d l t hne hdec
  have h2 : firstChunks first' cell (J (!t.isEmpty)) l = firstChunks first cell (J (!t.isEmpty)) l := by
    cases l with
    | nil => rfl
    | cons x r =>
      simp only [firstChunks]
      rw [he _ x r (hdec.values x List.mem_cons_self).1
        (fun y hy => (hdec.values y (List.mem_cons_of_mem _ hy)).1)]
  rw [h2]
  exact this

theorem Follows.segs_eq {T : Trie} {cell : Nat × Bytes → Nat} {J : Bool → List Nat → List Nat → Bool}
    {adv : Bytes → Nat} (h : Follows T cell cell J adv) (hg : GoodAdv adv) {d t : Bytes}
    {l : List (Nat × Bytes)} (hd : Decodes T d l t) :
    segs adv d = glue t (greedy (onChunks cell (J (!t.isEmpty))) l) := by
  induction d using hg.induction generalizing l with
  | hnil =>
    have hf := hd.flatten
    have ht : t = [] := by simp at hf; exact hf.2
    have hl : l = [] := by
      cases l with
      | nil => rfl
      | cons x l =>
        have := (hd.values x (by simp)).2
        simp at hf
        exact absurd hf.1 this
    subst ht hl
    simp [segs_nil, greedy_nil, glue]
  | hcons d hne ih =>
    have hadv := h d l t hne hd
    have hf := hd.flatten
    have hv := fun x hx => (hd.values x hx).2
    rw [hg.segs_cons hne]
    have hle := firstLen_le (onChunks cell (J (!t.isEmpty))) l
    rw [firstChunks_self] at hadv
    by_cases hl : l = []
    · subst hl
      have ht : t = d := by simpa using hf
      subst ht
      have : adv t = t.length := by simpa [firstLen] using hadv
      simp [this, segs_nil, greedy_nil, glue, hne]
    · rw [greedy_cons _ hl]
      by_cases hall : firstLen (onChunks cell (J (!t.isEmpty))) l = l.length
      · have : adv d = d.length := by
          rw [hadv, if_pos hall, hall, List.take_length, ← hf, List.length_append]
        rw [this, hall]
        simp [segs_nil, greedy_nil, glue, hf]
      · rw [if_neg hall, Nat.add_zero] at hadv
        have hlt : firstLen (onChunks cell (J (!t.isEmpty))) l < l.length := by omega
        have hdd := hd.drop (firstLen (onChunks cell (J (!t.isEmpty))) l) hle
        rw [← hadv] at hdd
        rw [ih hdd]
        have hne' : l.drop (firstLen (onChunks cell (J (!t.isEmpty))) l) ≠ [] := by simp; omega
        have : d.take (adv d) = (l.take (firstLen (onChunks cell (J (!t.isEmpty))) l)).flatMap (·.2) := by
          rw [hadv]
          conv => lhs; rw [← hf, ← List.take_append_drop (firstLen (onChunks cell (J (!t.isEmpty))) l) l]
          rw [List.flatMap_append, List.append_assoc]
          simp only [List.take_append_drop]
          exact List.take_left ..
        rw [this, greedy_cons _ hne']
        rfl

end Uax29
