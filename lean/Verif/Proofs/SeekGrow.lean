import Verif.Proofs.LoopGrow
/-! # `subsequent` on chunks -/
namespace Uax29

/-- The first chunk that is not ignored has the property. -/
def foundIn (I props : Nat) (l : List (Nat × Bytes)) : Bool :=
  (l.dropWhile fun x => is x.1 I).head?.any fun x => is x.1 props

theorem subsequentLoop_decodes {T : Trie} {I props : Nat} {data t : Bytes} :
    ∀ (l : List (Nat × Bytes)) (fuel i : Nat), i ≤ data.length → Decodes T (data.drop i) l t →
      l.length < fuel →
      subsequentLoop T I props data true fuel i =
        .ok (if foundIn I props l then ((i + (bytesOf (l.takeWhile fun x => is x.1 I)).length : Nat) : Int)
          else notfound, false) := by
  intro l
  induction l with
  | nil =>
    intro fuel i hi hdec hf
    obtain ⟨fuel, rfl⟩ : ∃ k, fuel = k + 1 := ⟨fuel - 1, by simp at hf; omega⟩
    simp only [subsequentLoop]
    generalize hdd : data.drop i = dd at hdec
    cases hdec with
    | nil =>
      have : ¬ i < data.length := by simp at hdd; omega
      rw [if_neg this]
      simp [foundIn]
    | tail ne look =>
      have : i < data.length := by
        rcases Nat.lt_or_ge i data.length with h | h
        · exact h
        · rw [List.drop_of_length_le h] at hdd; exact absurd hdd.symm ne
      rw [← hdd, ← lookupAt_eq hi] at look
      rw [if_pos this]
      simp [look, foundIn]
  | cons x l ih =>
    intro fuel i hi hdec hf
    obtain ⟨fuel, rfl⟩ : ∃ k, fuel = k + 1 := ⟨fuel - 1, by simp at hf; omega⟩
    simp only [subsequentLoop]
    generalize hdd : data.drop i = dd at hdec
    cases hdec with
    | @cons bs d' _ v _ ne look val rest =>
      have hlt : i < data.length := by
        rcases Nat.lt_or_ge i data.length with h | h
        · exact h
        · rw [List.drop_of_length_le h] at hdd; simp at hdd; exact absurd hdd.1 ne
      rw [← hdd, ← lookupAt_eq hi] at look
      have hbs : bs.length ≠ 0 := by simpa using ne
      have hlen : data.length - i = bs.length + d'.length := by
        have := congrArg List.length hdd
        simpa using this
      rw [if_pos hlt]
      simp only [look, if_neg hbs]
      by_cases hig : is v I = true
      · rw [if_pos hig]
        have hdec' : Decodes T (data.drop (i + bs.length)) l t := by
          rw [← List.drop_drop, hdd, List.drop_left]; exact rest
        rw [ih fuel (i + bs.length) (by omega) hdec' (by simp at hf; omega)]
        have h1 : foundIn I props ((v, bs) :: l) = foundIn I props l := by simp [foundIn, hig]
        have h2 : ((v, bs) :: l).takeWhile (fun x => is x.1 I) = (v, bs) :: l.takeWhile fun x => is x.1 I := by
          simp [hig]
        rw [h1, h2, bytesOf_cons, List.length_append, Nat.add_assoc]
      · rw [if_neg hig]
        have h1 : foundIn I props ((v, bs) :: l) = is v props := by simp [foundIn, hig]
        have h2 : ((v, bs) :: l).takeWhile (fun x => is x.1 I) = [] := by simp [hig]
        rw [h1, h2]
        by_cases hp : is v props = true
        · simp [hp, bytesOf]
        · simp [hp]

theorem subsequentFrom_decodes {T : Trie} (I props : Nat) {data t : Bytes} {l : List (Nat × Bytes)} {i : Nat}
    (hi : i ≤ data.length) (h : Decodes T (data.drop i) l t) :
    subsequentFrom T I props data i true =
      .ok (if foundIn I props l then (((bytesOf (l.takeWhile fun x => is x.1 I)).length : Nat) : Int)
        else notfound, false) := by
  simp only [subsequentFrom, sliceFrom_ok hi, subsequent]
  have hl := h.length_le
  rw [subsequentLoop_decodes l _ 0 (by simp) (by simpa using h) (by omega)]
  simp

end Uax29
