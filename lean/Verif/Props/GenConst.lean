import Verif.Proofs.GenPrint
import Verif.Proofs.GenNames
import Verif.Props.TrieGen
/-! # Property C56: the type and the constants that the generator prints -/
namespace Uax29
open Gen Spec.GoText

/-! ## the type -/

theorem typeBits_append : ∀ {a : List (List Char)} {n : Nat} (_ : typeBits a = some n) (b : List (List Char)),
    typeBits (a ++ b) = some n
  | [], _, h, _ => nomatch h
  | l :: a, n, h, b => by
    rw [typeBits] at h
    rw [List.cons_append, typeBits]
    split at h
    · exact h
    · exact typeBits_append h b

theorem names_line {m : List (String × List Nat)} (hm : ∀ e ∈ m, '\n' ∉ e.1.toList) :
    ∀ q ∈ (properties m).map String.toList, '\n' ∉ q := by
  intro q hq
  obtain ⟨s, hs, rfl⟩ := List.mem_map.mp hq
  obtain ⟨e, he, rfl⟩ := List.mem_map.mp ((properties_perm m).mem_iff.mp hs)
  exact hm e he

theorem properties_length (m : List (String × List Nat)) : (properties m).length = m.length := by
  rw [(properties_perm m).length_eq, List.length_map]

/-- C56, the type: read as Go, the printed text declares the properties to have the smallest size that is more than the
number of properties, and 64 bits if there is none. -/
theorem C56_type (crc : List Nat → Nat) (p : Name) (root : Node) (m : List (String × List Nat))
    (hm : ∀ e ∈ m, '\n' ∉ e.1.toList) :
    ∃ b, typeBits (squeeze (linesOf (writeTrie crc p root m))) = some b ∧ b ∈ [8, 16, 32, 64]
      ∧ (m.length < b ∨ b = 64) ∧ ∀ b' ∈ [8, 16, 32, 64], m.length < b' → b ≤ b' := by
  obtain ⟨size, hs, _⟩ := squeezed_writeTrie crc p root m (names_line hm)
  have hb : typeBits (final p (headText p (properties m).length))
      = some (if m.length < 8 then 8 else if m.length < 16 then 16 else if m.length < 32 then 32 else 64) := by
    rw [properties_length]
    unfold headText intType
    repeat' split
    all_goals cases p <;> decide +kernel
  refine ⟨if m.length < 8 then 8 else if m.length < 16 then 16 else if m.length < 32 then 32 else 64, ?_, ?_, ?_, ?_⟩
  · rw [show squeeze (linesOf (writeTrie crc p root m)) = squeezed (writeTrie crc p root m) from rfl, hs]
    simp only [List.append_assoc]
    exact typeBits_append hb _
  · repeat' split
    all_goals simp
  · repeat' split
    all_goals omega
  · intro b' hb' h
    simp only [List.mem_cons, List.not_mem_nil, or_false] at hb'
    repeat' split
    all_goals omega

/-! ## the constants -/

/-- A text with one blank in front of what does not go on as `old` does. -/
theorem replaceAll_blank {u v new w : List Char} (hu : ' ' ∉ u) (hv : v.isPrefixOf w = false)
    (hw : replaceAll (u ++ ' ' :: v) new (' ' :: w) = ' ' :: w) : ∀ s, ' ' ∉ s →
    replaceAll (u ++ ' ' :: v) new (s ++ ' ' :: w) = s ++ ' ' :: w
  | [], _ => hw
  | x :: s, h => by
    have ih := replaceAll_blank hu hv hw s fun h' => h (List.mem_cons_of_mem _ h')
    rw [replaceAll] at ih ⊢
    rw [List.cons_append, replaceLoop, if_neg, ih]
    intro hp
    obtain ⟨t, ht⟩ := List.isPrefixOf_iff_prefix.mp hp
    rw [List.append_assoc, ← List.cons_append] at ht
    have key : ∀ a b c d : List Char, ' ' ∉ a → ' ' ∉ b → a ++ ' ' :: c = b ++ ' ' :: d → c = d := by
      intro a
      induction a with
      | nil =>
        intro b c d _ hb e
        cases b with
        | nil => exact (List.cons.inj e).2
        | cons y b => exact absurd (List.cons.inj e).1 fun e' => hb (by rw [← e']; exact List.mem_cons_self)
      | cons z a ih =>
        intro b c d ha hb e
        cases b with
        | nil => exact absurd (List.cons.inj e).1 fun e' => ha (by rw [e']; exact List.mem_cons_self)
        | cons y b =>
          exact ih b c d (fun h => ha (List.mem_cons_of_mem _ h)) (fun h => hb (List.mem_cons_of_mem _ h)) (List.cons.inj e).2
    have := key u (x :: s) _ _ hu h ht
    exact absurd (List.isPrefixOf_iff_prefix.mpr ⟨t, this⟩) (by rw [hv]; decide)

/-- The first line of the constants stays as it is. -/
theorem makeGeneric_const (p : Name) {s : List Char} (h1 : ' ' ∉ s) (h2 : '(' ∉ s) :
    makeGeneric p.packageName (s ++ chars " property = 1 << iota") = s ++ chars " property = 1 << iota" := by
  have h3 : '(' ∉ s ++ chars " property = 1 << iota" := by
    intro h
    rcases List.mem_append.mp h with h | h
    · exact h2 h
    · revert h; decide
  simp only [makeGeneric]
  have h4 : ∀ new, replaceAll (chars "type " ++ (p.packageName ++ chars "Trie") ++ chars " struct") new
      (s ++ chars " property = 1 << iota") = s ++ chars " property = 1 << iota" := by
    intro new
    have := replaceAll_blank (u := chars "type") (v := p.packageName ++ chars "Trie struct") (new := new)
      (w := chars "property = 1 << iota") (by decide) (by cases p <;> decide) ?_ s h1
    · have e : chars "type " ++ (p.packageName ++ chars "Trie") ++ chars " struct"
          = chars "type" ++ ' ' :: (p.packageName ++ chars "Trie struct") := by cases p <;> rfl
      rw [e]
      exact this
    · exact replaceAll_self (c := 'T') (by cases p <;> decide) _ (by decide)
  rw [h4, replaceAll_self (c := '(') _ _ h3, replaceAll_self (c := '(') _ _ h3, replaceAll_self (c := '(') _ _ h3]
  all_goals (cases p <;> decide)

/-- Characters of names. -/
def Plain (s : List Char) : Prop := ∀ c ∈ s, c ≠ '\n' ∧ c ≠ ' ' ∧ c ≠ '\t' ∧ c ≠ '('

theorem Plain.squeeze {s : List Char} (h : Plain s) : (s.filter fun c => !blank c) = s := by
  rw [List.filter_eq_self]
  intro c hc
  obtain ⟨_, h1, h2, _⟩ := h c hc
  simp [blank, h1, h2]

/-- The name of a constant. -/
def constName (q : List Char) : List Char := '_' :: q.filter (· ≠ '_')

theorem Plain.constName {q : List Char} (h : Plain q) : Plain (constName q) := by
  intro c hc
  rcases List.mem_cons.mp hc with rfl | hc
  · decide
  · exact h c (List.mem_filter.mp hc).1

theorem final_nil (p : Name) : final p [] = [] := by cases p <;> rfl

theorem final_first (p : Name) {q : List Char} (h : Plain q) (s : List Char) :
    final p (constName q ++ chars " property = 1 << iota\n" ++ s)
      = (constName q ++ chars "property=1<<iota") :: final p s := by
  have hn := h.constName
  rw [show constName q ++ chars " property = 1 << iota\n" ++ s
    = (constName q ++ chars " property = 1 << iota") ++ '\n' :: s by simp, final_join]
  congr 1
  rw [final, makeGeneric_const p (fun h' => (hn _ h').2.1 rfl) (fun h' => (hn _ h').2.2.2 rfl), squeezed, linesOf_line]
  · rw [Spec.GoText.squeeze, List.map_cons, List.filter_append, hn.squeeze]
    rfl
  · intro h'
    rcases List.mem_append.mp h' with h' | h'
    · exact (hn _ h').1 rfl
    · revert h'; decide

theorem final_rest (p : Name) {q : List Char} (h : Plain q) (s : List Char) :
    final p (constName q ++ chars "\n" ++ s) = constName q :: final p s := by
  have hn := h.constName
  rw [show constName q ++ chars "\n" ++ s = constName q ++ '\n' :: s by simp, final_join]
  congr 1
  have hg : makeGeneric p.packageName (constName q) = constName q := by
    have h3 : '(' ∉ constName q := fun h' => (hn _ h').2.2.2 rfl
    have h4 : ' ' ∉ constName q := fun h' => (hn _ h').2.1 rfl
    simp only [makeGeneric]
    rw [replaceAll_self (c := ' ') _ _ h4, replaceAll_self (c := '(') _ _ h3, replaceAll_self (c := '(') _ _ h3,
      replaceAll_self (c := '(') _ _ h3]
    all_goals (cases p <;> decide)
  rw [final, hg, squeezed, linesOf_line (fun h' => (hn _ h').1 rfl), Spec.GoText.squeeze, List.map_cons, hn.squeeze]
  rfl

theorem final_names (p : Name) : ∀ (ps : List (List Char)) (i : Nat) (_ : ∀ q ∈ ps, Plain q) (_ : 0 < i),
    final p (((ps.zipIdx i).map fun e => '_' :: e.1.filter (· ≠ '_') ++
      if e.2 = 0 then chars " property = 1 << iota\n" else chars "\n").flatten ++ chars ")\n")
      = ps.map constName ++ [[')']]
  | [], i, _, _ => by rw [List.zipIdx_nil]; cases p <;> decide
  | q :: ps, i, h, hi => by
    have ih := final_names p ps (i + 1) (fun q hq => h q (List.mem_cons_of_mem _ hq)) (by omega)
    simp only [List.zipIdx_cons, List.map_cons, List.flatten_cons]
    rw [if_neg (by omega), List.append_assoc]
    exact (final_rest p (h q List.mem_cons_self) _).trans (by rw [ih]; rfl)

/-- The squeezed lines of the constants. -/
theorem final_constText (p : Name) (q : List Char) (ps : List (List Char)) (h : ∀ x ∈ q :: ps, Plain x) :
    final p (constText (q :: ps))
      = chars "const(" :: (constName q ++ chars "property=1<<iota") :: (ps.map constName ++ [[')']]) := by
  unfold constText
  rw [List.append_assoc, final_ends p (by rfl), show final p (chars "const (\n") = [chars "const("] by cases p <;> decide]
  rw [List.singleton_append]
  congr 1
  simp only [List.zipIdx_cons, List.map_cons, List.flatten_cons, if_true]
  rw [List.append_assoc]
  refine (final_first p (h q List.mem_cons_self) _).trans ?_
  rw [final_names p ps 1 (fun x hx => h x (List.mem_cons_of_mem _ hx)) (by omega)]

theorem constantNames_names : ∀ (ps : List (List Char)) (ls : List (List Char)),
    constantNames (ps.map constName ++ [')'] :: ls) = some (ps.map constName)
  | [], _ => rfl
  | q :: ps, ls => by
    rw [List.map_cons, List.cons_append, constantNames, constantNames_names ps ls]
    · rfl
    · intro e
      exact absurd (congrArg List.head? e) (by unfold constName; simp)

theorem constants_head (p : Name) (n : Nat) (ls : List (List Char)) :
    constants (final p (headText p n) ++ ls) = constants ls := by
  unfold headText intType
  have skip : ∀ a : List (List Char), (∀ l ∈ a, l ≠ chars "const(") → constants (a ++ ls) = constants ls := by
    intro a
    induction a with
    | nil => intro _; rfl
    | cons l a ih =>
      intro h
      rw [List.cons_append, constants.eq_def]
      dsimp only
      rw [if_neg (h l List.mem_cons_self)]
      exact ih fun l hl => h l (List.mem_cons_of_mem _ hl)
  repeat' split
  all_goals
    refine skip _ ?_
    cases p <;> decide +kernel

/-- C56, the constants: read as Go, the printed text declares one for every property, in the order in which the generator
numbers them. -/
theorem C56_constants (crc : List Nat → Nat) (p : Name) (root : Node) (m : List (String × List Nat)) (h0 : m ≠ [])
    (hm : ∀ e ∈ m, Plain e.1.toList) :
    constants (squeeze (linesOf (writeTrie crc p root m)))
      = some ((properties m).map fun q => '_' :: q.toList.filter (· ≠ '_')) := by
  have hp : ∀ q ∈ (properties m).map String.toList, Plain q := by
    intro q hq
    obtain ⟨s, hs, rfl⟩ := List.mem_map.mp hq
    obtain ⟨e, he, rfl⟩ := List.mem_map.mp ((properties_perm m).mem_iff.mp hs)
    exact hm e he
  obtain ⟨size, hs, _⟩ := squeezed_writeTrie crc p root m fun q hq h => (hp q hq _ h).1 rfl
  rw [show squeeze (linesOf (writeTrie crc p root m)) = squeezed (writeTrie crc p root m) from rfl, hs]
  simp only [List.append_assoc]
  rw [constants_head]
  have hl := properties_length m
  rw [show ((properties m).map fun q => '_' :: q.toList.filter (· ≠ '_')) = ((properties m).map String.toList).map constName by
    rw [List.map_map]; rfl]
  have hl' : ((properties m).map String.toList).length = m.length := by rw [List.length_map, hl]
  generalize (properties m).map String.toList = ps at hp hl'
  cases ps with
  | nil => exact absurd (List.length_eq_zero_iff.mp hl'.symm) h0
  | cons q ps =>
    rw [final_constText p q ps hp, List.cons_append, constants.eq_def]
    dsimp only
    rw [if_pos rfl, List.cons_append, List.append_assoc]
    dsimp only
    have := between_self [] (chars "property=1<<iota") (constName q)
    rw [List.nil_append] at this
    rw [this, List.singleton_append, constantNames_names]
    rfl

theorem nodup_map_inj {α β : Type} {f : α → β} : ∀ {l : List α}, (l.map f).Nodup → ∀ {a b}, a ∈ l → b ∈ l → f a = f b → a = b
  | [], _, _, _, h, _, _ => nomatch h
  | x :: l, hn, a, b, ha, hb, e => by
    rw [List.map_cons, List.nodup_cons] at hn
    rcases List.mem_cons.mp ha with ha | ha <;> rcases List.mem_cons.mp hb with hb | hb
    · rw [ha, hb]
    · exact absurd (by rw [← ha, e]; exact List.mem_map_of_mem hb) hn.1
    · exact absurd (by rw [← hb, ← e]; exact List.mem_map_of_mem ha) hn.1
    · exact nodup_map_inj hn.2 ha hb e

theorem idxOf_map {α β : Type} [BEq α] [LawfulBEq α] [BEq β] [LawfulBEq β] {f : α → β} {x : α} : ∀ {l : List α}, (∀ y ∈ l, f y = f x → y = x) →
    (l.map f).idxOf? (f x) = l.idxOf? x
  | [], _ => rfl
  | y :: l, h => by
    have ih := idxOf_map (l := l) fun y hy => h y (List.mem_cons_of_mem _ hy)
    rw [List.map_cons, List.idxOf?_cons, List.idxOf?_cons, ih]
    by_cases e : y = x
    · subst e; simp
    · have e' : ¬ f y = f x := fun h' => e (h y List.mem_cons_self h')
      rw [if_neg (by simpa using e'), if_neg (by simpa using e)]

/-- C56, the value of a constant is the bit that the table has for its property. -/
theorem C56_constant (crc : List Nat → Nat) (p : Name) (root : Node) (m : List (String × List Nat))
    (hm : ∀ e ∈ m, Plain e.1.toList) (hl : m.length ≤ 64)
    (hn : (m.map fun e => e.1.toList.filter (· ≠ '_')).Nodup) (e : String × List Nat) (he : e ∈ m) :
    constant (squeeze (linesOf (writeTrie crc p root m))) ('_' :: e.1.toList.filter (· ≠ '_')) = some (iotaOf m e.1) := by
  have h0 : m ≠ [] := fun h => by rw [h] at he; cases he
  have hu : ∀ y ∈ properties m, ('_' :: y.toList.filter (· ≠ '_')) = '_' :: e.1.toList.filter (· ≠ '_') → y = e.1 := by
    intro y hy h
    obtain ⟨e', he', rfl⟩ := List.mem_map.mp ((properties_perm m).mem_iff.mp hy)
    rw [nodup_map_inj hn he' he (List.cons.inj h).2]
  rw [constant, C56_constants crc p root m h0 hm, Option.bind_some,
    idxOf_map (f := fun q : String => '_' :: q.toList.filter (· ≠ '_')) (x := e.1) hu, iotaOf]
  have hmem : e.1 ∈ properties m := (properties_perm m).mem_iff.mpr (List.mem_map_of_mem he)
  obtain ⟨i, hi⟩ : ∃ i, (properties m).idxOf? e.1 = some i := by
    cases h : (properties m).idxOf? e.1 with
    | some i => exact ⟨i, rfl⟩
    | none => exact absurd hmem (List.idxOf?_eq_none_iff.mp h)
  have hlt : i < 64 := by
    obtain ⟨h1, _⟩ := List.idxOf?_eq_some_iff.mp hi
    rw [properties_length] at h1
    omega
  rw [hi]
  dsimp only [Option.map_some]
  rw [Nat.mod_eq_of_lt]
  rw [Nat.one_shiftLeft]
  exact Nat.pow_lt_pow_right (by decide) hlt

example : ∃ t : List Char, t = writeTrie crc64 .word eRoot [("MidNum_Let", []), ("ALetter", [0xE9])]
    ∧ constants (squeeze (linesOf t)) = some [chars "_ALetter", chars "_MidNumLet"]
    ∧ constant (squeeze (linesOf t)) (chars "_MidNumLet") = some 2 := by
  have h1 := C56_constants crc64 .word eRoot [("MidNum_Let", []), ("ALetter", [0xE9])] (by decide) (by unfold Plain; decide +kernel)
  have h2 := C56_constant crc64 .word eRoot [("MidNum_Let", []), ("ALetter", [0xE9])] (by unfold Plain; decide +kernel) (by decide)
    (by decide +kernel) ("MidNum_Let", []) (by simp)
  have hp : properties [("MidNum_Let", []), ("ALetter", [0xE9])] = ["ALetter", "MidNum_Let"] :=
    properties_eq (.swap _ _ _) (by decide +kernel)
  rw [hp] at h1
  rw [iotaOf, hp] at h2
  exact ⟨_, rfl, h1.trans (by decide +kernel), h2.trans (by decide +kernel)⟩
example : intType 7 = chars "uint8" ∧ intType 8 = chars "uint16" ∧ intType 15 = chars "uint16" ∧ intType 19 = chars "uint32"
    ∧ intType 32 = chars "uint64" := by decide

end Uax29
