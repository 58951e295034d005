import Verif.Proofs.WordsConf
import Verif.Proofs.Ascii
import Verif.Proofs.Segs
/-! # words: the fast path for ASCII letters and digits -/
namespace Uax29
open Spec

/-- WB5, WB8, WB9, WB10. -/
theorem joins_alnum (ph : Bool) {a b : WSet} (left right : List WSet) (ha : a.alnum ph = true)
    (hi : a.ignorable = false) (hn : a.newline = false) (hb : b.alnum ph = true) (hbn : b.newline = false) :
    joins ph (a :: left) (b :: right) = true := by
  apply joins_units ph left right hn hbn
  rw [units_cons_solid hi]
  simp [unitJoins, ha, hb]

/-- A space after something else is not joined in words. -/
theorem joins_space {a b : WSet} (left right : List WSet) (ha : a .WSegSpace = false)
    (hb : ∀ g, g ≠ .WSegSpace → b g = false) : joins false (a :: left) (b :: right) = false := by
  have h : ∀ g, g ≠ .WSegSpace → b g = false := hb
  have h1 := h .LF (by decide)
  have h2 := h .ExtendedPictographic (by decide)
  simp [joins, unitJoins, WSet.ignorable, WSet.alnum, WSet.ahLetter, WSet.midLetter, WSet.midNum, WSet.midNumLetQ,
    WSet.newline, ha, h1, h2, h .CR, h .Newline, h .Extend, h .Format, h .ZWJ, h .ALetter, h .HebrewLetter,
    h .Numeric, h .MidLetter, h .MidNumLet, h .SingleQuote, h .DoubleQuote, h .MidNum, h .Katakana,
    h .ExtendNumLet, h .RegionalIndicator]

theorem forall_uint8 {P : UInt8 → Bool} (h : ∀ n, n < 256 → P (UInt8.ofNat n) = true) (b : UInt8) : P b = true := by
  have := h b.toNat b.toNat_lt
  rwa [UInt8.ofNat_toNat] at this

namespace Words

/-- What the fast path needs of an entry of a letter or digit. -/
def fastCell (w : Nat) : Bool :=
  goodCell w && (wset w).alnum false && !(wset w).ignorable && !(wset w).newline && !(wset w .WSegSpace)

theorem ascii_alnum {b : UInt8} (h : isASCIIAlphanumeric b = true) : b.toNat < 0x80
    ∧ fastCell (trie.ascii b) = true ∧ fastCell (trie.ascii b ||| _AHLetter) = true
    ∧ fastCell (trie.ascii b ||| _MidNumLet) = true := by
  have := forall_uint8 (P := fun b => !isASCIIAlphanumeric b || (decide (b.toNat < 0x80)
    && fastCell (trie.ascii b) && fastCell (trie.ascii b ||| _AHLetter)
    && fastCell (trie.ascii b ||| _MidNumLet))) (by decide +kernel) b
  simp only [h, Bool.not_true, Bool.false_or, Bool.and_eq_true, decide_eq_true_eq] at this
  obtain ⟨⟨⟨h1, h2⟩, h3⟩, h4⟩ := this
  exact ⟨h1, h2, h3, h4⟩

theorem fast_cell {b : UInt8} (h : isASCIIAlphanumeric b = true) {bits : Nat} (hb : bits = _AHLetter ∨ bits = _MidNumLet)
    (runes : Option (List Int)) : fastCell (joinCell runes bits (trie.ascii b, [b])) = true := by
  obtain ⟨_, h2, h3, h4⟩ := ascii_alnum h
  rcases joinCell_cases runes bits (trie.ascii b, [b]) with e | e <;> rw [e]
  · exact h2
  · rcases hb with rfl | rfl
    · exact h3
    · exact h4

theorem ascii_space : ∀ g, g ≠ .WSegSpace → wset (trie.ascii 0x20) g = false := by
  intro g
  cases g <;> decide +kernel

theorem fastCell.ok {w : Nat} (h : fastCell w = true) : OkSet (wset w) ∧ (wset w).alnum false = true
    ∧ (wset w).ignorable = false ∧ (wset w).newline = false ∧ wset w .WSegSpace = false := by
  simp only [fastCell, Bool.and_eq_true, Bool.not_eq_true'] at h
  obtain ⟨⟨⟨⟨h1, h2⟩, h3⟩, h4⟩, h5⟩ := h
  exact ⟨OkSet.of_goodCell h1, h2, h3, h4, h5⟩

theorem J_fast {u v : Nat} (A C : List Nat) (hu : fastCell u = true) (hv : fastCell v = true) :
    J (u :: A) (v :: C) = true := by
  obtain ⟨_, h1, h2, h3, _⟩ := fastCell.ok hu
  obtain ⟨_, k1, k2, k3, _⟩ := fastCell.ok hv
  exact joins_alnum false _ _ h1 h2 h3 k1 k3

theorem runesContain_iff (rs : List Int) (r : Int) : runesContain rs r = true ↔ r ∈ rs := by
  induction rs with
  | nil => simp [runesContain]
  | cons x rs ih =>
    simp only [runesContain, List.mem_cons]
    split
    · rename_i h; simp [h]
    · rename_i h; rw [ih]; simp [Ne.symm h]

/-- A space is not in the list of joiners. -/
def NoSpace (runes : Option (List Int)) : Prop := ∀ rs, runes = some rs → (0x20 : Int) ∉ rs

theorem splitAdv_run (j : Option Joiners) (hj : NoSpace (j.bind (·.middle))) {b : UInt8} {run rest : Bytes}
    (hb : isASCIIAlphanumeric b = true) (hrun : ∀ x ∈ run, isASCIIAlphanumeric x = true)
    (hrest : rest = [] ∨ rest.head? = some 0x20) :
    splitAdv (joinersSplitFunc j) (b :: run ++ rest) = 1 + run.length := by
  obtain ⟨l, t, hdec⟩ := wf.decodes rest
  have hasc : ∀ x ∈ b :: run, x.toNat < 0x80 := by
    intro x hx
    rcases List.mem_cons.mp hx with rfl | hx
    · exact (ascii_alnum hb).1
    · exact (ascii_alnum (hrun x hx)).1
  have hdec' := wf.decodes_ascii hdec (b :: run) hasc
  have hfirst := fast_cell hb (.inl rfl) (j.bind (·.leading))
  obtain ⟨f1, f2, f3, f4, f5⟩ := fastCell.ok hfirst
  rw [follows_joiners_at j _ _ _ (by simp) hdec' (by
    intro x hx
    simp at hx
    subst hx
    exact ⟨f1, fun h => by rw [f3] at h; cases h⟩)]
  generalize hmid : j.bind (·.middle) = mid at *
  generalize hlead : j.bind (·.leading) = lead at *
  have hcells : (run.map (fun b => (trie.ascii b, [b]))).map (joinCell mid _MidNumLet)
      = run.map (fun b => joinCell mid _MidNumLet (trie.ascii b, [b])) := by
    rw [List.map_map]; rfl
  -- everything in the run joins
  have hgrow : grow J [joinCell lead _AHLetter (trie.ascii b, [b])]
      (run.map (fun b => joinCell mid _MidNumLet (trie.ascii b, [b])) ++ l.map (joinCell mid _MidNumLet))
      = run.length := by
    rw [grow_append]
    · rw [List.length_map]
      have : grow J ((run.map (fun b => joinCell mid _MidNumLet (trie.ascii b, [b]))).reverse
          ++ [joinCell lead _AHLetter (trie.ascii b, [b])]) (l.map (joinCell mid _MidNumLet)) = 0 := by
        rcases hrest with rfl | hsp
        · obtain ⟨rfl, rfl⟩ := hdec.of_nil rfl
          rfl
        · obtain ⟨rest, rfl⟩ : ∃ r, rest = 0x20 :: r := by
            cases rest with
            | nil => simp at hsp
            | cons x r => simp at hsp; exact ⟨r, by rw [hsp]⟩
          obtain ⟨l2, t2, h2⟩ := wf.decodes rest
          have h3 := wf.decodes_ascii h2 [0x20] (by simp)
          obtain ⟨rfl, rfl⟩ := hdec.unique h3
          simp only [List.map_cons, List.map_nil, List.cons_append, List.nil_append]
          have hcell : joinCell mid _MidNumLet (trie.ascii 0x20, [0x20]) = trie.ascii 0x20 := by
            unfold joinCell
            cases mid with
            | none => rfl
            | some rs =>
              have hn : runesContain rs 0x20 = false := by
                rw [Bool.eq_false_iff, ne_eq, runesContain_iff]
                exact hj rs rfl
              have hd : (Utf8.decodeRune [0x20]).1 = 0x20 := by decide +kernel
              dsimp only
              rw [hd]
              exact if_neg (by rw [show ((32 : Nat) : Int) = 32 from rfl, hn]; simp)
          rw [grow, hcell]
          have hj0 : J ((run.map (fun b => joinCell mid _MidNumLet (trie.ascii b, [b]))).reverse
              ++ [joinCell lead _AHLetter (trie.ascii b, [b])])
              (trie.ascii 0x20 :: l2.map (joinCell mid _MidNumLet)) = false := by
            unfold J
            rw [List.map_cons]
            obtain ⟨a, A, hA⟩ := List.exists_cons_of_ne_nil
              (l := (run.map (fun b => joinCell mid _MidNumLet (trie.ascii b, [b]))).reverse
                ++ [joinCell lead _AHLetter (trie.ascii b, [b])]) (by simp)
            rw [hA, List.map_cons]
            apply joins_space _ _ _ ascii_space
            have ham : a ∈ (run.map (fun b => joinCell mid _MidNumLet (trie.ascii b, [b]))).reverse
                ++ [joinCell lead _AHLetter (trie.ascii b, [b])] := by rw [hA]; exact List.mem_cons_self
            rcases List.mem_append.mp ham with ham | ham
            · obtain ⟨x, hx, rfl⟩ := List.mem_map.mp (List.mem_reverse.mp ham)
              exact (fastCell.ok (fast_cell (hrun x hx) (.inr rfl) mid)).2.2.2.2
            · rw [List.mem_singleton.mp ham]; exact f5
          rw [hj0]
          simp
      rw [this, Nat.add_zero]
    · intro i hi
      rw [List.length_map] at hi
      obtain ⟨y, r', hy⟩ := List.exists_cons_of_ne_nil (l := run.drop i) (by simp; omega)
      have hym : y ∈ run := List.mem_of_mem_drop (by rw [hy]; exact List.mem_cons_self)
      rw [← List.map_drop, ← List.map_take, hy, ← List.map_reverse, List.map_cons, List.cons_append]
      obtain ⟨a, A, hA⟩ := List.exists_cons_of_ne_nil
        (l := (run.take i).reverse.map (fun b => joinCell mid _MidNumLet (trie.ascii b, [b]))
          ++ [joinCell lead _AHLetter (trie.ascii b, [b])]) (by simp)
      rw [hA]
      refine J_fast A _ ?_ (fast_cell (hrun y hym) (.inr rfl) mid)
      have ham : a ∈ (run.take i).reverse.map (fun b => joinCell mid _MidNumLet (trie.ascii b, [b]))
            ++ [joinCell lead _AHLetter (trie.ascii b, [b])] := by rw [hA]; exact List.mem_cons_self
      rcases List.mem_append.mp ham with ham | ham
      · obtain ⟨x, hx, rfl⟩ := List.mem_map.mp ham
        exact fast_cell (hrun x (List.mem_of_mem_take (List.mem_reverse.mp hx))) (.inr rfl) mid
      · rw [List.mem_singleton.mp ham]; exact hfirst
  have hf : firstChunks (joinCell lead _AHLetter) (joinCell mid _MidNumLet) J
      ((b :: run).map (fun b => (trie.ascii b, [b])) ++ l) = 1 + run.length := by
    simp only [List.map_cons, List.cons_append, firstChunks, List.map_append]
    rw [hcells, hgrow]
  rw [hf]
  have ht : (if 1 + run.length = ((b :: run).map (fun b => (trie.ascii b, [b])) ++ l).length then t.length else 0) = 0 := by
    rcases hrest with rfl | hsp
    · obtain ⟨rfl, rfl⟩ := hdec.of_nil rfl
      simp
    · have : l ≠ [] := by
        rintro rfl
        cases rest with
        | nil => simp at hsp
        | cons x r =>
          simp at hsp
          subst hsp
          obtain ⟨l2, t2, h2⟩ := wf.decodes r
          have h3 := wf.decodes_ascii h2 [0x20] (by simp)
          have := (hdec.unique h3).1
          simp at this
      have := List.length_pos_iff.mpr this
      rw [if_neg]
      simp
      omega
  rw [ht, show 1 + run.length = ((b :: run).map (fun b => (trie.ascii b, [b]))).length by simp; omega,
    List.take_left, bytes_ascii]
  simp

/-- The fast path gives what the split function gives. -/
theorem adv_eq (j : Option Joiners) (hj : NoSpace (j.bind (·.middle))) (d : Bytes) :
    d ≠ [] → adv (joinersSplitFunc j) d = splitAdv (joinersSplitFunc j) d := by
  intro hd
  cases d with
  | nil => exact absurd rfl hd
  | cons b d =>
    unfold adv
    dsimp only
    by_cases hb : isASCIIAlphanumeric b = true
    · rw [if_pos hb]
      obtain ⟨run, rest, rfl, h2, h3, _⟩ := countWhile_split isASCIIAlphanumeric d
      rw [h2]
      split
      · rename_i hc
        rw [← List.cons_append, splitAdv_run j hj hb h3]
        simp only [Bool.or_eq_true, decide_eq_true_eq, beq_iff_eq] at hc
        rcases hc with hc | hc
        · left
          simp at hc
          exact List.eq_nil_of_length_eq_zero (by omega)
        · right
          rw [Nat.add_comm, List.getElem?_cons_succ, List.getElem?_append_right (Nat.le_refl _), Nat.sub_self] at hc
          rw [List.head?_eq_getElem?]; exact hc
      · rfl
    · rw [if_neg hb]

end Words
end Uax29
