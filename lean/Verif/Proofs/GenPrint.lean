import Verif.Proofs.GoText
/-! # The text of the generator declares the tables -/
namespace Uax29.Gen
open Spec.GoText

/-! ## Replacements -/

/-- A text without one of the characters of `old` is left as it is. -/
theorem replaceAll_self {old new : List Char} {c : Char} (hc : c ∈ old) : ∀ s, c ∉ s → replaceAll old new s = s
  | [], _ => rfl
  | x :: s, h => by
    have ih := replaceAll_self (new := new) hc s fun h' => h (List.mem_cons_of_mem _ h')
    rw [replaceAll] at ih ⊢
    rw [replaceLoop, if_neg, ih]
    intro hp
    exact h ((List.isPrefixOf_iff_prefix.mp hp).subset hc)

theorem prefix_line {old a b : List Char} (h : '\n' ∉ old) : old <+: a ++ '\n' :: b ↔ old <+: a := by
  constructor
  · intro ⟨t, ht⟩
    rw [List.append_eq_append_iff] at ht
    rcases ht with ⟨u, h1, h2⟩ | ⟨u, h1, h2⟩
    · exact ⟨u, h1.symm⟩
    · cases u with
      | nil => exact ⟨[], by simp [h1]⟩
      | cons x u =>
        injection h2 with h2 _
        subst h2
        exact absurd (by rw [h1]; simp) h
  · intro h
    exact h.trans (List.prefix_append _ _)

theorem replaceLoop_join {old new : List Char} (h0 : old ≠ []) (h : '\n' ∉ old) (b : List Char) : ∀ a skip, skip ≤ a.length →
    replaceLoop old new skip (a ++ '\n' :: b) = replaceLoop old new skip a ++ '\n' :: replaceAll old new b
  | [], skip, hs => by
    obtain rfl : skip = 0 := by simpa using hs
    simp only [List.nil_append, replaceLoop]
    rw [if_neg]
    · rfl
    · intro hp
      have := (prefix_line (a := []) h).mp (List.isPrefixOf_iff_prefix.mp hp)
      exact h0 (List.prefix_nil.mp this)
  | x :: a, 0, _ => by
    simp only [List.cons_append, replaceLoop]
    have hp : old.isPrefixOf (x :: (a ++ '\n' :: b)) = old.isPrefixOf (x :: a) := by
      rw [Bool.eq_iff_iff, List.isPrefixOf_iff_prefix, List.isPrefixOf_iff_prefix]
      exact prefix_line (a := x :: a) h
    rw [hp]
    by_cases hq : old.isPrefixOf (x :: a) = true
    · have := (List.isPrefixOf_iff_prefix.mp hq).length_le
      rw [if_pos hq, if_pos hq, replaceLoop_join h0 h b a _ (by simp at this; omega), List.append_assoc]
    · rw [if_neg hq, if_neg hq, replaceLoop_join h0 h b a 0 (Nat.zero_le _), List.cons_append]
  | x :: a, skip + 1, hs => by
    simp only [List.cons_append, replaceLoop]
    exact replaceLoop_join h0 h b a skip (by simpa using hs)

theorem replaceAll_join {old new : List Char} (h0 : old ≠ []) (h : '\n' ∉ old) (a b : List Char) :
    replaceAll old new (a ++ '\n' :: b) = replaceAll old new a ++ '\n' :: replaceAll old new b :=
  replaceLoop_join h0 h b a 0 (Nat.zero_le _)

theorem replaceLoop_not_mem {old new : List Char} {c : Char} (hc : c ∉ new) : ∀ s skip, c ∉ s →
    c ∉ replaceLoop old new skip s
  | [], skip, _ => by cases skip <;> simp [replaceLoop]
  | x :: s, 0, h => by
    simp only [List.mem_cons, not_or] at h
    simp only [replaceLoop]
    split
    · simp only [List.mem_append, not_or]
      exact ⟨hc, replaceLoop_not_mem hc s _ h.2⟩
    · simp only [List.mem_cons, not_or]
      exact ⟨h.1, replaceLoop_not_mem hc s 0 h.2⟩
  | x :: s, skip + 1, h => by
    simp only [List.mem_cons, not_or] at h
    exact replaceLoop_not_mem hc s skip h.2

theorem replaceAll_cons {x : Char} {old : List Char} (h : ∀ o os, old = o :: os → o ≠ x) (h0 : old ≠ []) (new s : List Char) :
    replaceAll old new (x :: s) = x :: replaceAll old new s := by
  rw [replaceAll, replaceLoop, if_neg]
  · rfl
  · intro hp
    cases old with
    | nil => exact h0 rfl
    | cons o os =>
      simp only [List.isPrefixOf_cons_cons, Bool.and_eq_true, beq_iff_eq] at hp
      exact h o os rfl hp.1

/-- `makeGeneric` takes the lines one by one. -/
theorem makeGeneric_join (p : Name) (a b : List Char) :
    makeGeneric p.packageName (a ++ '\n' :: b)
      = makeGeneric p.packageName a ++ '\n' :: makeGeneric p.packageName b := by
  simp only [makeGeneric]
  rw [replaceAll_join, replaceAll_join, replaceAll_join, replaceAll_join]
  all_goals (cases p <;> decide)

/-- Text without the letter T and the opening parenthesis stays as it is. -/
theorem makeGeneric_self (p : Name) {s : List Char} (hT : 'T' ∉ s) (hp : '(' ∉ s) : makeGeneric p.packageName s = s := by
  simp only [makeGeneric]
  rw [replaceAll_self (c := 'T') _ s hT, replaceAll_self (c := '(') _ s hp, replaceAll_self (c := '(') _ s hp,
    replaceAll_self (c := '(') _ s hp]
  all_goals (cases p <;> decide)

theorem makeGeneric_cons (p : Name) {x : Char} (h1 : x ≠ 't') (h2 : x ≠ '(') (s : List Char) :
    makeGeneric p.packageName (x :: s) = x :: makeGeneric p.packageName s := by
  simp only [makeGeneric]
  rw [replaceAll_cons, replaceAll_cons, replaceAll_cons, replaceAll_cons]
  all_goals first
    | (intro o os e; injection e with e; subst e; first | exact Ne.symm h1 | exact Ne.symm h2)
    | simp

theorem makeGeneric_line (p : Name) {s : List Char} (h : '\n' ∉ s) : '\n' ∉ makeGeneric p.packageName s := by
  simp only [makeGeneric]
  iterate 4 refine replaceLoop_not_mem ?_ _ _ ?_; cases p <;> decide
  exact h

/-! ## The lines before the tables -/

/-- No line starts with the letter v. -/
def Quiet (ls : List (List Char)) : Prop := ∀ l ∈ ls, l.head? ≠ some 'v'

instance (ls : List (List Char)) : Decidable (Quiet ls) := inferInstanceAs (Decidable (∀ l ∈ ls, _))

theorem Quiet.append {a b : List (List Char)} (ha : Quiet a) (hb : Quiet b) : Quiet (a ++ b) := by
  intro l hl
  rcases List.mem_append.mp hl with h | h
  · exact ha l h
  · exact hb l h

theorem array_quiet (name : List Char) : ∀ {a : List (List Char)} (_ : Quiet a) (b : List (List Char)),
    array name (a ++ b) = array name b
  | [], _, _ => rfl
  | l :: a, h, b => by
    have h1 : between (chars "var" ++ name ++ chars "=[") (chars "]property{") l = none := by
      have := h l List.mem_cons_self
      cases l with
      | nil => rfl
      | cons c l =>
        rw [between, if_neg]
        intro hp
        simp only [List.cons_append, List.isPrefixOf_cons_cons, Bool.and_eq_true, beq_iff_eq] at hp
        exact this (by rw [← hp.1.1.1]; rfl)
    rw [List.cons_append, array, h1]
    exact array_quiet name (fun l hl => h l (List.mem_cons_of_mem _ hl)) b

/-- A line that starts with a character that is not blank. -/
theorem quiet_line {c : Char} {s : List Char} (hc : blank c = false) (hv : c ≠ 'v') (h0 : c ≠ '\n') (h : '\n' ∉ s) :
    Quiet (squeezed (c :: s)) := by
  rw [squeezed, linesOf_line (by simp [h, Ne.symm h0])]
  simp only [squeeze, List.map_cons, List.filter_cons, hc, Bool.not_false, if_true]
  intro l hl
  simp only [List.map_nil, List.isEmpty_cons, Bool.not_false, if_true, List.filter_nil, List.mem_singleton] at hl
  subst hl
  simpa using hv

theorem quiet_generic (p : Name) {c : Char} {s : List Char} (hc : blank c = false) (hv : c ≠ 'v') (ht : c ≠ 't')
    (hp : c ≠ '(') (h0 : c ≠ '\n') (h : '\n' ∉ s) : Quiet (squeezed (makeGeneric p.packageName (c :: s))) := by
  rw [makeGeneric_cons p ht hp]
  exact quiet_line hc hv h0 (makeGeneric_line p h)

/-- The squeezed lines after the replacements. -/
def final (p : Name) (s : List Char) : List (List Char) := squeezed (makeGeneric p.packageName s)

theorem final_join (p : Name) (a b : List Char) : final p (a ++ '\n' :: b) = final p a ++ final p b := by
  rw [final, makeGeneric_join, squeezed_join]; rfl

theorem final_cons (p : Name) (s : List Char) : final p ('\n' :: s) = final p s := final_join p [] s

theorem last_append (a : List Char) {b : List Char} (h : b.getLast? = some '\n') : (a ++ b).getLast? = some '\n' := by
  rw [List.getLast?_append, h]; rfl

/-- A text that ends with a line break. -/
theorem final_ends (p : Name) {a : List Char} (h : a.getLast? = some '\n') (b : List Char) :
    final p (a ++ b) = final p a ++ final p b := by
  obtain ⟨a', rfl⟩ : ∃ a', a = a' ++ ['\n'] := List.getLast?_eq_some_iff.mp h
  rw [List.append_assoc, List.singleton_append, final_join, final_join]
  simp [final, makeGeneric, replaceAll, replaceLoop, squeezed_nil]

theorem quiet_headText (p : Name) (n : Nat) : (headText p n).getLast? = some '\n' ∧ Quiet (final p (headText p n)) := by
  unfold headText intType
  repeat' split
  all_goals cases p <;> decide +kernel

theorem quiet_constants (p : Name) : ∀ (ps : List (List Char)) (i : Nat), (∀ q ∈ ps, '\n' ∉ q) →
    Quiet (final p (((ps.zipIdx i).map fun e => '_' :: e.1.filter (· ≠ '_') ++
      if e.2 = 0 then chars " property = 1 << iota\n" else chars "\n").flatten ++ chars ")\n"))
  | [], i, _ => by rw [List.zipIdx_nil]; cases p <;> decide
  | q :: ps, i, h => by
    have ih := quiet_constants p ps (i + 1) fun q hq => h q (List.mem_cons_of_mem _ hq)
    have hq : '\n' ∉ q.filter (· ≠ '_') := fun h' => h q List.mem_cons_self (List.mem_filter.mp h').1
    simp only [List.zipIdx_cons, List.map_cons, List.flatten_cons]
    rw [List.append_assoc, final_ends]
    · refine Quiet.append ?_ ih
      split
      · rw [show chars " property = 1 << iota\n" = chars " property = 1 << iota" ++ '\n' :: [] from rfl,
          ← List.append_assoc, final_join]
        refine Quiet.append (quiet_generic p rfl (by decide) (by decide) (by decide) (by decide) ?_) (by cases p <;> decide)
        exact fun h' => (List.mem_append.mp h').elim hq (by decide)
      · rw [final_join]
        exact Quiet.append (quiet_generic p rfl (by decide) (by decide) (by decide) (by decide) hq) (by cases p <;> decide)
    · refine last_append _ ?_
      split <;> rfl

theorem quiet_constText (p : Name) (ps : List (List Char)) (h : ∀ q ∈ ps, '\n' ∉ q) :
    (constText ps).getLast? = some '\n' ∧ Quiet (final p (constText ps)) := by
  constructor
  · exact last_append _ rfl
  · have := quiet_constants p ps 0 h
    unfold constText
    rw [List.append_assoc, final_ends p (by rfl)]
    exact Quiet.append (by cases p <;> decide) this

theorem quiet_lookupText (p : Name) : Quiet (final p (lookupText p.packageName)) := by
  cases p <;> decide +kernel

theorem quiet_trieText (p : Name) : Quiet (final p (trieText p.packageName)) := by
  cases p <;> decide +kernel

theorem fmtDigits_not_mem {c : Char} (h : c ∉ chars "0123456789abcdef") {base : Nat} (hb : 0 < base) (hb' : base ≤ 16)
    (w n : Nat) : c ∉ fmtDigits base w n := fun hc => h (fmtDigits_mem hb hb' w n c hc)

theorem packageName_letters (p : Name) : ∀ c ∈ p.packageName, c ∈ chars "acdeghmnoprstw" := by cases p <;> decide

theorem packageName_not_mem {c : Char} (h : c ∉ chars "acdeghmnoprstw") (p : Name) : c ∉ p.packageName :=
  fun hc => h (packageName_letters p c hc)

theorem trieComment_line (p : Name) (size sum : Nat) : '\n' ∉ trieComment p.packageName size sum := by
  have h1 := packageName_not_mem (c := '\n') (by decide) p
  have h2 : ∀ w n, '\n' ∉ fmtDigits 10 w n := fmtDigits_not_mem (by decide) (by decide) (by decide)
  have h3 : ∀ w n, '\n' ∉ fmtDigits 16 w n := fmtDigits_not_mem (by decide) (by decide) (by decide)
  simp [trieComment, psize, decimal, h1, h2, h3]

theorem quiet_trieComment (p : Name) (size sum : Nat) : Quiet (final p (trieComment p.packageName size sum)) := by
  have h := trieComment_line p size sum
  have : ∃ s, trieComment p.packageName size sum = '/' :: s := ⟨_, rfl⟩
  obtain ⟨s, hs⟩ := this
  rw [hs] at h ⊢
  exact quiet_generic p rfl (by decide) (by decide) (by decide) (by decide) (by simp at h; exact h)

/-! ## The tables -/

theorem tableLoop_not_mem {c : Char} (h : c ∉ chars "0123456789abcdefx\n\t:, ") (k w boff : Nat) : ∀ vs i nl,
    c ∉ tableLoop k w boff i nl vs
  | [], _, _ => by simp [tableLoop]
  | v :: vs, i, nl => by
    have hs : ∀ w n, c ∉ sharpHex w n := sharpHex_not_mem fun h' => h (List.mem_append_left (chars "\n\t:, ") h')
    have ih := tableLoop_not_mem h k w boff vs
    simp only [tableLoop]
    simp at h
    split <;> split <;> simp [ih, hs, h]

theorem blocksText_not_mem {c : Char} (h0 : c ≠ '\n') {print : Nat → List Nat → List Char}
    (h : ∀ n b, c ∉ print n b) : ∀ bs n, c ∉ blocksText print n bs
  | [], _ => by simp [blocksText]
  | b :: bs, n => by
    have ih := blocksText_not_mem h0 h bs
    simp [blocksText, ih, h, h0]

theorem printValues_not_mem {c : Char} (h : c ∉ chars "0123456789abcdefx\n\t:, /Blockst") (n : Nat) (b : List Nat) :
    c ∉ printValues n b := by
  have h1 : c ∉ chars "0123456789abcdefx\n\t:, " := fun h' => h (List.mem_append_left (chars "/Blockst") h')
  have hs : ∀ w n, c ∉ sharpHex w n := sharpHex_not_mem fun h' => h1 (List.mem_append_left (chars "\n\t:, ") h')
  have ht := tableLoop_not_mem h1 6 4 (n * blockSize) b 0 false
  simp at h
  simp [printValues, blockComment, valuesLoop_eq, ht, hs, h]

theorem printIndex_not_mem {c : Char} (h : c ∉ chars "0123456789abcdefx\n\t:, /Blockst") (n : Nat) (b : List Nat) :
    c ∉ printIndex n b := by
  have h1 : c ∉ chars "0123456789abcdefx\n\t:, " := fun h' => h (List.mem_append_left (chars "/Blockst") h')
  have hs : ∀ w n, c ∉ sharpHex w n := sharpHex_not_mem fun h' => h1 (List.mem_append_left (chars "\n\t:, ") h')
  have ht := tableLoop_not_mem h1 8 2 (n * blockSize) b 0 false
  simp at h
  simp [printIndex, blockComment, indexLoop_eq, ht, hs, h]

/-- The letter T or the opening parenthesis. -/
def special (c : Char) : Prop := c = 'T' ∨ c = '('

theorem countLine_special (p : Name) {kind : List Char} (hk : ∀ c, special c → c ∉ kind) (n size : Nat) :
    ∀ c, special c → c ∉ countLine p.packageName kind n size := by
  intro c hc
  have h0 := hk c hc
  have h1 : c ∉ p.packageName := packageName_not_mem (by rcases hc with rfl | rfl <;> decide) p
  have h2 : ∀ n, c ∉ decimal n :=
    fmtDigits_not_mem (by rcases hc with rfl | rfl <;> decide) (by decide) (by decide) 1
  rcases hc with rfl | rfl <;> simp [countLine, h0, h1, h2]

theorem varLine_special (p : Name) {kind : List Char} (hk : ∀ c, special c → c ∉ kind) (n : Nat) :
    ∀ c, special c → c ∉ varLine p.packageName kind n := by
  intro c hc
  have h0 := hk c hc
  have h1 : c ∉ p.packageName := packageName_not_mem (by rcases hc with rfl | rfl <;> decide) p
  have h2 : ∀ n, c ∉ decimal n :=
    fmtDigits_not_mem (by rcases hc with rfl | rfl <;> decide) (by decide) (by decide) 1
  rcases hc with rfl | rfl <;> simp [varLine, h0, h1, h2]

theorem blocksText_special {print : Nat → List Nat → List Char} (hp : ∀ c, special c → ∀ n b, c ∉ print n b)
    (bs : List (List Nat)) (n : Nat) : ∀ c, special c → c ∉ blocksText print n bs ++ chars "}" := by
  intro c hc
  have h := blocksText_not_mem (by rcases hc with rfl | rfl <;> decide) (hp c hc) bs n
  rcases hc with rfl | rfl <;> simp [h]

theorem final_special (p : Name) {s : List Char} (h : ∀ c, special c → c ∉ s) : final p s = squeezed s := by
  rw [final, makeGeneric_self p (h _ (.inl rfl)) (h _ (.inr rfl))]

theorem final_tableText (p : Name) {kind note : List Char} (hk : ∀ c, special c → c ∉ kind)
    (hn : final p note = squeezed note) (size : Nat)
    {print : Nat → List Nat → List Char} (hp : ∀ c, special c → ∀ n b, c ∉ print n b) (bs : List (List Nat)) :
    final p (tableText p.packageName kind note size print bs)
      = squeezed (tableText p.packageName kind note size print bs) := by
  rw [tableText, final_join, final_join, final_join, squeezed_join, squeezed_join, squeezed_join, hn,
    final_special p (countLine_special p hk _ _), final_special p (varLine_special p hk _),
    final_special p (blocksText_special hp _ _)]

theorem squeezed_tables (p : Name) (T : Trie) (vs is : Nat) :
    squeezed (tablesText p.packageName T vs is)
      = squeezed (tableText p.packageName (chars "Values") (chars "// The third block is the zero block.") vs printValues T.values)
        ++ squeezed (tableText p.packageName (chars "Index") (chars "// Block 0 is the zero block.") is printIndex T.index) := by
  rw [tablesText, squeezed_join]
  congr 1
  rw [show ∀ s : List Char, '\n' :: s = [] ++ '\n' :: s from fun _ => rfl, squeezed_join, squeezed_nil, List.nil_append,
    squeezed_join, squeezed_nil, List.append_nil]

theorem final_tablesText (p : Name) (T : Trie) (vs is : Nat) :
    final p (tablesText p.packageName T vs is) = squeezed (tablesText p.packageName T vs is) := by
  have special_ne : ∀ {l : List Char}, 'T' ∉ l → '(' ∉ l → ∀ c, special c → c ∉ l := by
    intro l h1 h2 c hc
    rcases hc with rfl | rfl
    · exact h1
    · exact h2
  rw [squeezed_tables, tablesText, final_join, final_cons, final_join,
    final_tableText p (special_ne (by decide) (by decide)) (by cases p <;> decide +kernel) vs
      (fun c hc => printValues_not_mem (by rcases hc with rfl | rfl <;> decide)),
    final_tableText p (special_ne (by decide) (by decide)) (by cases p <;> decide +kernel) is
      (fun c hc => printIndex_not_mem (by rcases hc with rfl | rfl <;> decide)),
    show final p [] = [] by cases p <;> rfl, List.append_nil]

/-- The squeezed lines of the file. -/
theorem squeezed_writeTrie (crc : List Nat → Nat) (p : Name) (root : Node) (m : List (String × List Nat))
    (h : ∀ q ∈ (properties m).map String.toList, '\n' ∉ q) :
    ∃ size, squeezed (writeTrie crc p root m)
      = final p (headText p (properties m).length) ++ final p (constText ((properties m).map String.toList))
        ++ final p (lookupText p.packageName) ++ final p (trieComment p.packageName size (gen crc root).2)
        ++ final p (trieText p.packageName)
        ++ squeezed (tablesText p.packageName (gen crc root).1 (intSize (maxValue root 0)) (intSize (imax (gen crc root).1)))
      ∧ size = (gen crc root).1.index.length * blockSize * intSize (imax (gen crc root).1)
        + (gen crc root).1.values.length * blockSize * intSize (maxValue root 0) := by
  refine ⟨_, ?_, rfl⟩
  have : squeezed (writeTrie crc p root m) = final p (headText p ((properties m).map String.toList).length
      ++ (constText ((properties m).map String.toList) ++ genText crc p.packageName root)) := rfl
  rw [this, final_ends p (quiet_headText p _).1, final_ends p (quiet_constText p _ h).1, genText]
  simp only [final_join, final_tablesText, List.length_map, List.append_assoc]

/-- The lines before the tables declare no array. -/
theorem array_writeTrie (crc : List Nat → Nat) (p : Name) (root : Node) (m : List (String × List Nat))
    (h : ∀ q ∈ (properties m).map String.toList, '\n' ∉ q) (name : List Char) :
    array name (squeezed (writeTrie crc p root m))
      = array name (squeezed (tablesText p.packageName (gen crc root).1 (intSize (maxValue root 0))
          (intSize (imax (gen crc root).1)))) := by
  obtain ⟨size, hs, _⟩ := squeezed_writeTrie crc p root m h
  rw [hs]
  exact array_quiet name (((((quiet_headText p _).2.append (quiet_constText p _ h).2).append (quiet_lookupText p)).append
    (quiet_trieComment p _ _)).append (quiet_trieText p)) _

theorem decimal_line (n : Nat) : '\n' ∉ decimal n := fmtDigits_not_mem (by decide) (by decide) (by decide) 1 n

theorem decimal_filter (n : Nat) : ((decimal n).filter fun c => !blank c) = decimal n := by
  rw [List.filter_eq_self]
  intro c hc
  have : ∀ c ∈ chars "0123456789abcdef", (!blank c) = true := by decide
  exact this c (fmtDigits_mem (by decide) (by decide) 1 n c hc)

theorem packageName_filter (p : Name) : (p.packageName.filter fun c => !blank c) = p.packageName := by
  cases p <;> decide

/-- The squeezed line of a declaration. -/
theorem squeezed_varLine (p : Name) {kind : List Char} (h : ∀ c ∈ kind, blank c = false ∧ c ≠ '\n') (n : Nat) :
    squeezed (varLine p.packageName kind n)
      = [chars "var" ++ (p.packageName ++ kind) ++ chars "=[" ++ decimal (n * blockSize) ++ chars "]property{"] := by
  have h1 := packageName_not_mem (c := '\n') (by decide) p
  have h2 := decimal_line (n * blockSize)
  have h3 : '\n' ∉ kind := fun h' => (h _ h').2 rfl
  have h4 : (kind.filter fun c => !blank c) = kind := by
    rw [List.filter_eq_self]; intro c hc; rw [(h c hc).1]; rfl
  rw [squeezed, linesOf_line (by simp [varLine, h1, h2, h3])]
  simp only [squeeze, varLine, List.map_cons, List.filter_append, packageName_filter, decimal_filter, h4, List.map_nil]
  simp [blank]

theorem squeezed_countLine (p : Name) {kind : List Char} (h : '\n' ∉ kind) (n size : Nat) :
    Quiet (squeezed (countLine p.packageName kind n size)) := by
  have h1 := packageName_not_mem (c := '\n') (by decide) p
  have h2 := decimal_line
  have : ∃ s, countLine p.packageName kind n size = '/' :: s ∧ '\n' ∉ s := ⟨_, rfl, by simp [h1, h2, h]⟩
  obtain ⟨s, hs, h⟩ := this
  rw [hs]
  exact quiet_line rfl (by decide) (by decide) h

theorem squeezed_table (p : Name) {kind note : List Char} (hk : ∀ c ∈ kind, blank c = false ∧ c ≠ '\n') (size : Nat)
    (k w : Nat) {print : Nat → List Nat → List Char} (hp : ∀ n b, squeezed (print n b) = blockLines k w n b)
    (bs : List (List Nat)) :
    squeezed (tableText p.packageName kind note size print bs)
      = squeezed (countLine p.packageName kind bs.length size) ++ (squeezed note ++
        ((chars "var" ++ (p.packageName ++ kind) ++ chars "=[" ++ decimal (bs.length * blockSize) ++ chars "]property{")
          :: (tableLines k w 0 bs ++ [['}']]))) := by
  rw [tableText, squeezed_join, squeezed_join, squeezed_join, squeezed_varLine p hk, squeezed_blocksText k w hp]
  rfl

theorem between_self (pre post l : List Char) : between pre post (pre ++ l ++ post) = some l := by
  rw [between, if_pos]
  · congr 1
    simp
  · have h1 : pre.isPrefixOf (pre ++ l ++ post) = true := by
      rw [List.isPrefixOf_iff_prefix, List.append_assoc]; exact List.prefix_append _ _
    have h2 : post.isSuffixOf (pre ++ l ++ post) = true := by
      rw [List.isSuffixOf_iff_suffix]; exact List.suffix_append _ _
    rw [h1, h2]
    simp

theorem array_var (name : List Char) (n : Nat) (k w : Nat) (bs : List (List Nat)) (ls : List (List Char)) :
    array name ((chars "var" ++ name ++ chars "=[" ++ decimal n ++ chars "]property{")
      :: (tableLines k w 0 bs ++ ['}'] :: ls)) = some (n, tablePairs 0 bs) := by
  rw [array, between_self]
  simp only [decimalNumber_decimal, literal_table]

theorem rowText_quiet (w : Nat) (rs : List (List (Nat × Nat))) : Quiet (rs.map (rowText w)) := by
  intro l hl
  obtain ⟨r, _, rfl⟩ := List.mem_map.mp hl
  cases r with
  | nil => exact fun h => nomatch h
  | cons e r =>
    rw [show (rowText w (e :: r)).head? = some '0' from rfl]
    decide

theorem tableLines_quiet (k w : Nat) : ∀ bs n, Quiet (tableLines k w n bs)
  | [], _ => fun _ h => nomatch h
  | b :: bs, n => by
    refine Quiet.append ?_ (tableLines_quiet k w bs (n + 1))
    intro l hl
    rcases List.mem_cons.mp hl with rfl | hl
    · rw [show (comment n).head? = some '/' from rfl]; decide
    · exact rowText_quiet w _ l hl

theorem declares_pairs {bs : List (List Nat)} (hb : ∀ b ∈ bs, b.length = blockSize) {name : List Char}
    {ls : List (List Char)} (h : array name ls = some (bs.length * blockSize, tablePairs 0 bs)) :
    Declares ls name bs.flatten := by
  have hl : bs.flatten.length = bs.length * blockSize := by
    clear h
    induction bs with
    | nil => rfl
    | cons b bs ih =>
      rw [List.flatten_cons, List.length_append, hb b List.mem_cons_self,
        ih fun b h => hb b (List.mem_cons_of_mem _ h), List.length_cons, Nat.add_mul]
      omega
  rw [tablePairs_eq bs 0 hb, Nat.zero_mul, ← hl] at h
  refine ⟨_, h, ⟨fun e he => ?_, pairs_nodup _ _⟩, fun k hk => ?_⟩
  · have := pairs_keys _ _ e he; omega
  · have := pairs_lookup bs.flatten 0 k hk
    rwa [Nat.zero_add] at this

/-- The text declares the two tables. -/
theorem declares_writeTrie (crc : List Nat → Nat) (p : Name) (root : Node) (m : List (String × List Nat))
    (h : ∀ q ∈ (properties m).map String.toList, '\n' ∉ q)
    (hv : ∀ b ∈ (gen crc root).1.values, b.length = blockSize) (hi : ∀ b ∈ (gen crc root).1.index, b.length = blockSize) :
    Declares (squeezed (writeTrie crc p root m)) (p.packageName ++ chars "Values") (gen crc root).1.values.flatten
    ∧ Declares (squeezed (writeTrie crc p root m)) (p.packageName ++ chars "Index") (gen crc root).1.index.flatten := by
  have ht := squeezed_tables p (gen crc root).1 (intSize (maxValue root 0)) (intSize (imax (gen crc root).1))
  rw [squeezed_table p (by decide) _ 6 4 squeezed_printValues, squeezed_table p (by decide) _ 8 2 squeezed_printIndex] at ht
  constructor
  · refine declares_pairs hv ?_
    rw [array_writeTrie crc p root m h, ht]
    simp only [List.append_assoc, List.cons_append, List.nil_append]
    rw [array_quiet _ (squeezed_countLine p (by decide) _ _), array_quiet _ (by decide)]
    have := array_var (p.packageName ++ chars "Values") ((gen crc root).1.values.length * blockSize) 6 4 (gen crc root).1.values
    simp only [List.append_assoc, List.cons_append, List.nil_append] at this
    exact this _
  · refine declares_pairs hi ?_
    rw [array_writeTrie crc p root m h, ht]
    have hn : ∀ l ls, array (p.packageName ++ chars "Index")
        ((chars "var" ++ (p.packageName ++ chars "Values") ++ l) :: ls) = array (p.packageName ++ chars "Index") ls := by
      intro l ls
      rw [array, show between _ _ _ = none from ?_]
      rw [between, show (chars "var" ++ (p.packageName ++ chars "Index") ++ chars "=[").isPrefixOf
        (chars "var" ++ (p.packageName ++ chars "Values") ++ l) = false by cases p <;> rfl]
      rfl
    simp only [List.append_assoc] at hn ⊢
    rw [array_quiet _ (squeezed_countLine p (by decide) _ _), array_quiet _ (by decide), List.cons_append, hn,
      List.append_assoc, array_quiet _ (tableLines_quiet 6 4 _ _), array_quiet _ (by decide),
      array_quiet _ (squeezed_countLine p (by decide) _ _), array_quiet _ (by decide)]
    have := array_var (p.packageName ++ chars "Index") ((gen crc root).1.index.length * blockSize) 8 2 (gen crc root).1.index []
    simp only [List.append_assoc] at this
    exact this

end Uax29.Gen
