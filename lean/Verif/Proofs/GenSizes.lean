import Verif.Proofs.GenShipped
import Verif.Spec.GoSizes
/-! # The sizes in the comments that the generator prints -/
namespace Uax29.Gen
open Spec Spec.GoText

/-- No line starts with `pre`. -/
def Without (pre : List Char) (ls : List (List Char)) : Prop := ∀ l ∈ ls, pre.isPrefixOf l = false

instance (pre : List Char) (ls : List (List Char)) : Decidable (Without pre ls) := inferInstanceAs (Decidable (∀ l ∈ ls, _))

theorem Without.append {pre : List Char} {a b : List (List Char)} (ha : Without pre a) (hb : Without pre b) :
    Without pre (a ++ b) := fun l hl => (List.mem_append.mp hl).elim (ha l) (hb l)

theorem Without.longer {pre : List Char} {ls : List (List Char)} (h : Without pre ls) (x : List Char) : Without (pre ++ x) ls := by
  intro l hl
  have := h l hl
  rw [← Bool.not_eq_true, List.isPrefixOf_iff_prefix] at this ⊢
  exact fun h' => this (List.IsPrefix.trans (List.prefix_append _ _) h')

theorem without_head {c : Char} {ls : List (List Char)} (h : ∀ l ∈ ls, l.head? ≠ some c) (x : List Char) : Without (c :: x) ls := by
  intro l hl
  cases l with
  | nil => rfl
  | cons d l =>
    have : c ≠ d := fun e => h _ hl (by rw [e]; rfl)
    simp [List.isPrefixOf_cons_cons, this]

theorem tableSizes_without {name : List Char} : ∀ {a : List (List Char)}, Without (chars "//" ++ name ++ chars ":") a →
    ∀ b, tableSizes name (a ++ b) = tableSizes name b
  | [], _, _ => rfl
  | l :: a, h, b => by
    rw [List.cons_append, tableSizes, numberAfter, h l List.mem_cons_self]
    exact tableSizes_without (fun l hl => h l (List.mem_cons_of_mem _ hl)) b

theorem totalSize_without {name : List Char} : ∀ {a : List (List Char)}, Without (chars "//" ++ name ++ chars "Trie.Totalsize:") a →
    ∀ b, totalSize name (a ++ b) = totalSize name b
  | [], _, _ => rfl
  | l :: a, h, b => by
    rw [List.cons_append, totalSize, numberAfter, h l List.mem_cons_self]
    exact totalSize_without (fun l hl => h l (List.mem_cons_of_mem _ hl)) b

theorem decimalNumber_digits : ∀ {s : List Char} {m n : Nat}, decimalNumber m s = some n → ∀ c ∈ s, '0' ≤ c ∧ c ≤ '9'
  | [], _, _, _ => fun _ h => nomatch h
  | d :: s, m, n, h => by
    rw [decimalNumber] at h
    split at h
    · rename_i hd
      intro c hc
      rcases List.mem_cons.mp hc with rfl | hc
      · exact hd
      · exact decimalNumber_digits h c hc
    · cases h

theorem takeWhile_stop {p : Char → Bool} {a : List Char} (h : ∀ c ∈ a, p c = true) {c : Char} (hc : p c = false) (s : List Char) :
    (a ++ c :: s).takeWhile p = a ∧ (a ++ c :: s).dropWhile p = c :: s := by
  induction a with
  | nil => simp [hc]
  | cons d a ih =>
    have h1 := ih fun c hc => h c (List.mem_cons_of_mem _ hc)
    have h2 := h d List.mem_cons_self
    simp [h2, h1]

theorem numberAfter_decimal (pre : List Char) (n : Nat) {c : Char} (hc : ¬ ('0' ≤ c ∧ c ≤ '9')) (s : List Char) :
    numberAfter pre (pre ++ decimal n ++ c :: s) = some (n, c :: s) := by
  have h1 : pre.isPrefixOf (pre ++ decimal n ++ c :: s) = true := by
    rw [List.isPrefixOf_iff_prefix, List.append_assoc]; exact List.prefix_append _ _
  obtain ⟨h2, h3⟩ := takeWhile_stop (p := fun c => decide ('0' ≤ c ∧ c ≤ '9')) (a := decimal n)
    (fun c hc => decide_eq_true (decimalNumber_digits (decimalNumber_decimal n) c hc)) (decide_eq_false hc) s
  rw [numberAfter, if_pos h1]
  simp only [List.append_assoc, List.drop_left]
  rw [h2, h3, decimalNumber_decimal]
  rfl

/-- The squeezed line of the comment on a table. -/
theorem squeezed_count (p : Name) {kind : List Char} (h : ∀ c ∈ kind, blank c = false ∧ c ≠ '\n') (n size : Nat) :
    squeezed (countLine p.packageName kind n size) = [(chars "//" ++ (p.packageName ++ kind) ++ chars ":") ++ decimal n
      ++ (chars "blocks," ++ decimal (n * blockSize) ++ (chars "entries," ++ decimal (n * blockSize * size) ++ chars "bytes"))] := by
  have h1 := packageName_not_mem (c := '\n') (by decide) p
  have h2 := decimal_line
  have h3 : '\n' ∉ kind := fun h' => (h _ h').2 rfl
  have h4 : (kind.filter fun c => !blank c) = kind := by
    rw [List.filter_eq_self]; intro c hc; rw [(h c hc).1]; rfl
  rw [squeezed, linesOf_line (by simp [countLine, h1, h2, h3])]
  simp only [squeeze, countLine, List.map_cons, List.filter_append, packageName_filter, decimal_filter, h4, List.map_nil]
  simp [blank]

theorem tableSizes_count (p : Name) {kind : List Char} (h : ∀ c ∈ kind, blank c = false ∧ c ≠ '\n') (n size : Nat) (ls : List (List Char)) :
    tableSizes (p.packageName ++ kind) (squeezed (countLine p.packageName kind n size) ++ ls)
      = some (n, n * blockSize, n * blockSize * size) := by
  have h1 := numberAfter_decimal (chars "//" ++ (p.packageName ++ kind) ++ chars ":") n (c := 'b') (by decide)
    (chars "locks," ++ decimal (n * blockSize) ++ (chars "entries," ++ decimal (n * blockSize * size) ++ chars "bytes"))
  have h2 := numberAfter_decimal (chars "blocks,") (n * blockSize) (c := 'e') (by decide)
    (chars "ntries," ++ decimal (n * blockSize * size) ++ chars "bytes")
  have h3 := numberAfter_decimal (chars "entries,") (n * blockSize * size) (c := 'b') (by decide) (chars "ytes")
  rw [squeezed_count p h, List.singleton_append, tableSizes]
  simp only [List.cons_append, List.nil_append, List.append_assoc] at h1 h2 h3 ⊢
  rw [h1]
  simp only
  rw [h2]
  simp only
  rw [h3]
  rfl

/-- Nothing is replaced in `a`, and no replacement begins there. -/
def Safe (old : List Char) : List Char → Bool
  | [] => true
  | c :: a => !old.isPrefixOf (c :: a) && !(c :: a).isPrefixOf old && Safe old a

theorem replaceAll_safe {old new : List Char} : ∀ {a : List Char}, Safe old a = true → ∀ s,
    replaceAll old new (a ++ s) = a ++ replaceAll old new s
  | [], _, _ => rfl
  | c :: a, h, s => by
    simp only [Safe, Bool.and_eq_true, Bool.not_eq_true', ← Bool.not_eq_true, List.isPrefixOf_iff_prefix] at h
    have hn : old.isPrefixOf (c :: (a ++ s)) = false := by
      rw [← Bool.not_eq_true, List.isPrefixOf_iff_prefix]
      intro hp
      rcases Nat.le_total old.length (c :: a).length with hl | hl
      · exact h.1.1 (List.prefix_of_prefix_length_le hp (List.prefix_append (c :: a) s) hl)
      · exact h.1.2 (List.prefix_of_prefix_length_le (List.prefix_append (c :: a) s) hp hl)
    have := replaceAll_safe (new := new) h.2 s
    rw [replaceAll] at this ⊢
    rw [List.cons_append, replaceLoop, if_neg (by rw [hn]; decide), this]
    rfl

theorem makeGeneric_decimal (p : Name) (n : Nat) (s : List Char) :
    makeGeneric p.packageName (decimal n ++ s) = decimal n ++ makeGeneric p.packageName s := by
  have : ∀ a : List Char, (∀ c ∈ a, '0' ≤ c ∧ c ≤ '9') → makeGeneric p.packageName (a ++ s) = a ++ makeGeneric p.packageName s := by
    intro a
    induction a with
    | nil => intro _; rfl
    | cons c a ih =>
      intro h
      have hc := h c List.mem_cons_self
      rw [List.cons_append, makeGeneric_cons p (by rintro rfl; exact absurd hc (by decide)) (by rintro rfl; exact absurd hc (by decide)),
        ih fun c hc => h c (List.mem_cons_of_mem _ hc)]
      rfl
  exact this _ (decimalNumber_digits (decimalNumber_decimal n))

/-- The squeezed line of the comment on the trie. -/
theorem final_trieComment (p : Name) (size sum : Nat) : ∃ s, final p (trieComment p.packageName size sum)
    = [(chars "//" ++ p.packageName ++ chars "Trie.Totalsize:") ++ decimal size ++ (chars "bytes" ++ s)] := by
  have h0 := makeGeneric_line p (trieComment_line p size sum)
  obtain ⟨r, hr⟩ : ∃ r, trieComment p.packageName size sum
      = (chars "// " ++ p.packageName ++ chars "Trie. Total size: ") ++ (decimal size ++ (chars " bytes" ++ r)) := by
    simp only [trieComment, psize, List.append_assoc, List.cons_append, List.nil_append]
    exact ⟨_, rfl⟩
  have h1 : makeGeneric p.packageName (trieComment p.packageName size sum)
      = (chars "// " ++ p.packageName ++ chars "Trie. Total size: ") ++ (decimal size ++ (chars " bytes" ++ makeGeneric p.packageName r)) := by
    have a1 : ∀ s, makeGeneric p.packageName ((chars "// " ++ p.packageName ++ chars "Trie. Total size: ") ++ s)
        = (chars "// " ++ p.packageName ++ chars "Trie. Total size: ") ++ makeGeneric p.packageName s := by
      intro s
      simp only [makeGeneric]
      rw [replaceAll_safe, replaceAll_safe, replaceAll_safe, replaceAll_safe]
      all_goals (cases p <;> decide +kernel)
    have a2 : ∀ s, makeGeneric p.packageName (chars " bytes" ++ s) = chars " bytes" ++ makeGeneric p.packageName s := by
      intro s
      simp only [makeGeneric]
      rw [replaceAll_safe, replaceAll_safe, replaceAll_safe, replaceAll_safe]
      all_goals (cases p <;> decide +kernel)
    rw [hr, a1, makeGeneric_decimal, a2]
  refine ⟨(makeGeneric p.packageName r).filter fun c => !blank c, ?_⟩
  rw [final, squeezed, linesOf_line h0, h1]
  simp only [squeeze, List.map_cons, List.map_nil, List.filter_append, packageName_filter, decimal_filter]
  simp [blank]

theorem totalSize_comment (p : Name) (size sum : Nat) (ls : List (List Char)) :
    totalSize p.packageName (final p (trieComment p.packageName size sum) ++ ls) = some size := by
  obtain ⟨s, hs⟩ := final_trieComment p size sum
  have h1 := numberAfter_decimal (chars "//" ++ p.packageName ++ chars "Trie.Totalsize:") size (c := 'b') (by decide) (chars "ytes" ++ s)
  rw [hs, List.singleton_append, totalSize]
  simp only [List.cons_append, List.nil_append, List.append_assoc] at h1 ⊢
  rw [h1]
  simp [List.isPrefixOf]

/-- Lines that do not start with a slash. -/
theorem slash_constants (p : Name) : ∀ (ps : List (List Char)) (i : Nat), (∀ q ∈ ps, '\n' ∉ q) →
    ∀ l ∈ (final p (((ps.zipIdx i).map fun e => '_' :: e.1.filter (· ≠ '_') ++
      if e.2 = 0 then chars " property = 1 << iota\n" else chars "\n").flatten ++ chars ")\n")), l.head? ≠ some '/'
  | [], i, _ => by rw [List.zipIdx_nil]; cases p <;> decide
  | q :: ps, i, h => by
    have ih := slash_constants p ps (i + 1) fun q hq => h q (List.mem_cons_of_mem _ hq)
    have hq : '\n' ∉ q.filter (· ≠ '_') := fun h' => h q List.mem_cons_self (List.mem_filter.mp h').1
    have hg : ∀ s : List Char, '\n' ∉ s → ∀ l ∈ final p ('_' :: s), l.head? ≠ some '/' := by
      intro s hs l hl
      rw [final, makeGeneric_cons p (by decide) (by decide), squeezed, linesOf_line (by simp [makeGeneric_line p hs])] at hl
      simp only [squeeze, List.map_cons, List.filter_cons, show blank '_' = false from rfl, Bool.not_false, if_true, List.map_nil,
        List.isEmpty_cons, List.filter_nil, List.mem_singleton] at hl
      rw [hl]
      simp
    simp only [List.zipIdx_cons, List.map_cons, List.flatten_cons]
    rw [List.append_assoc, final_ends]
    · intro l hl
      rcases List.mem_append.mp hl with hl | hl
      · split at hl
        · rw [show chars " property = 1 << iota\n" = chars " property = 1 << iota" ++ '\n' :: [] from rfl,
            ← List.append_assoc, final_join] at hl
          rcases List.mem_append.mp hl with hl | hl
          · exact hg _ (fun h' => (List.mem_append.mp h').elim hq (by decide)) l hl
          · rw [show final p [] = [] by cases p <;> rfl] at hl
            cases hl
        · rw [final_join] at hl
          rcases List.mem_append.mp hl with hl | hl
          · exact hg _ hq l hl
          · rw [show final p [] = [] by cases p <;> rfl] at hl
            cases hl
      · exact ih l hl
    · refine last_append _ ?_
      split <;> rfl

theorem without_constText (p : Name) (ps : List (List Char)) (h : ∀ q ∈ ps, '\n' ∉ q) :
    Without (chars "//" ++ p.packageName) (final p (constText ps)) := by
  have := slash_constants p ps 0 h
  refine without_head (c := '/') ?_ _
  unfold constText
  rw [List.append_assoc, final_ends p (by rfl)]
  intro l hl
  rcases List.mem_append.mp hl with hl | hl
  · have hd : ∀ l ∈ final p (chars "const (\n"), l.head? ≠ some '/' := by cases p <;> decide
    exact hd l hl
  · exact this l hl

theorem without_headText (p : Name) (n : Nat) : Without (chars "//" ++ p.packageName) (final p (headText p n)) := by
  unfold headText intType
  repeat' split
  all_goals cases p <;> decide +kernel

theorem without_lookupText (p : Name) : Without (chars "//" ++ p.packageName) (final p (lookupText p.packageName)) := by
  cases p <;> decide +kernel

theorem without_trieText (p : Name) : Without (chars "//" ++ p.packageName) (final p (trieText p.packageName)) := by
  cases p <;> decide +kernel

theorem without_tableLines (p : Name) (k w : Nat) : ∀ bs n, Without (chars "//" ++ p.packageName) (tableLines k w n bs)
  | [], _ => fun _ h => nomatch h
  | b :: bs, n => by
    refine Without.append ?_ (without_tableLines p k w bs (n + 1))
    intro l hl
    rcases List.mem_cons.mp hl with rfl | hl
    · have : ∃ s, comment n = '/' :: '/' :: 'B' :: s := ⟨_, rfl⟩
      obtain ⟨s, hs⟩ := this
      rw [hs]
      cases p <;> rfl
    · obtain ⟨r, _, rfl⟩ := List.mem_map.mp hl
      cases r with
      | nil => rfl
      | cons e r =>
        have : ∃ s, rowText w (e :: r) = '0' :: s := ⟨_, rfl⟩
        obtain ⟨s, hs⟩ := this
        rw [hs]
        rfl

/-- The comments of the file. -/
theorem sizes_writeTrie (crc : List Nat → Nat) (p : Name) (root : Node) (m : List (String × List Nat))
    (h : ∀ q ∈ (properties m).map String.toList, '\n' ∉ q) (T : Trie) (hT : (gen crc root).1 = T)
    (vs is : Nat) (hv : intSize (maxValue root 0) = vs) (hi : intSize (imax T) = is) :
    tableSizes (p.packageName ++ chars "Values") (squeezed (writeTrie crc p root m))
      = some (T.values.length, T.values.length * blockSize, T.values.length * blockSize * vs)
    ∧ tableSizes (p.packageName ++ chars "Index") (squeezed (writeTrie crc p root m))
      = some (T.index.length, T.index.length * blockSize, T.index.length * blockSize * is)
    ∧ totalSize p.packageName (squeezed (writeTrie crc p root m))
      = some (T.index.length * blockSize * is + T.values.length * blockSize * vs) := by
  obtain ⟨size, hs, hsz⟩ := squeezed_writeTrie crc p root m h
  have ht := squeezed_tables p T vs is
  rw [squeezed_table p (by decide) _ 6 4 squeezed_printValues, squeezed_table p (by decide) _ 8 2 squeezed_printIndex] at ht
  rw [hT, hv, hi] at hs hsz
  rw [ht] at hs
  rw [hs]
  subst hsz
  have hA := ((without_headText p (properties m).length).append (without_constText p _ h)).append (without_lookupText p)
  have hB := without_trieText p
  obtain ⟨c, hc⟩ := final_trieComment p (T.index.length * blockSize * is + T.values.length * blockSize * vs) (gen crc root).2
  have hC : ∀ kind : List Char, kind.head? ≠ some 'T' → kind ≠ [] → Without (chars "//" ++ (p.packageName ++ kind) ++ chars ":")
      (final p (trieComment p.packageName (T.index.length * blockSize * is + T.values.length * blockSize * vs) (gen crc root).2)) := by
    intro kind hk h0
    rw [hc]
    intro l hl
    rw [List.mem_singleton.mp hl]
    cases kind with
    | nil => exact absurd rfl h0
    | cons d kind =>
      have hd : d ≠ 'T' := fun e => hk (by rw [e]; rfl)
      cases p <;> simp [Name.packageName, List.isPrefixOf, hd]
  have ext : ∀ {ls : List (List Char)}, Without (chars "//" ++ p.packageName) ls → ∀ kind : List Char,
      Without (chars "//" ++ (p.packageName ++ kind) ++ chars ":") ls := by
    intro ls hw kind
    have := hw.longer (kind ++ chars ":")
    simpa only [List.append_assoc] using this
  refine ⟨?_, ?_, ?_⟩
  · simp only [List.append_assoc]
    simp only [← List.append_assoc (final p (headText p (properties m).length)), ← List.append_assoc (final p (headText p (properties m).length) ++ _)]
    rw [tableSizes_without (ext hA _), tableSizes_without (hC _ (by decide) (by decide)), tableSizes_without (ext hB _),
      tableSizes_count p (by decide)]
  · simp only [List.append_assoc]
    simp only [← List.append_assoc (final p (headText p (properties m).length)), ← List.append_assoc (final p (headText p (properties m).length) ++ _)]
    rw [tableSizes_without (ext hA _), tableSizes_without (hC _ (by decide) (by decide)), tableSizes_without (ext hB _)]
    have h1 : Without (chars "//" ++ (p.packageName ++ chars "Index") ++ chars ":")
        (squeezed (countLine p.packageName (chars "Values") T.values.length vs)) := by
      rw [squeezed_count p (by decide)]
      intro l hl
      rw [List.mem_singleton.mp hl]
      cases p <;> rfl
    have h2 : ∀ x ls, tableSizes (p.packageName ++ chars "Index") ((chars "var" ++ x) :: ls)
        = tableSizes (p.packageName ++ chars "Index") ls := fun _ _ => rfl
    rw [tableSizes_without h1, tableSizes_without (ext (by cases p <;> decide +kernel) _), List.cons_append, h2, List.append_assoc,
      tableSizes_without (ext (without_tableLines p 6 4 _ _) _), tableSizes_without (ext (by cases p <;> decide) _),
      tableSizes_count p (by decide)]
  · simp only [List.append_assoc]
    simp only [← List.append_assoc (final p (headText p (properties m).length)), ← List.append_assoc (final p (headText p (properties m).length) ++ _)]
    rw [totalSize_without (hA.longer _), totalSize_comment]

theorem intSize_smallest (n : Nat) :
    intSize n ∈ [1, 2, 4, 8] ∧ (intSize n = 8 ∨ n < 256 ^ intSize n) ∧ (intSize n = 1 ∨ 256 ^ (intSize n / 2) ≤ n) := by
  unfold intSize
  repeat' split
  all_goals (refine ⟨by decide, ?_, ?_⟩ <;> simp <;> omega)

theorem Smallest.unique {P : Nat → Prop} {y z : Nat} (hy : Smallest P y) (hz : Smallest P z) : y = z := by
  obtain ⟨y1, y2, y3⟩ := hy
  obtain ⟨z1, z2, z3⟩ := hz
  have key : ∀ {y z : Nat}, y ∈ [1, 2, 4, 8] → z ∈ [1, 2, 4, 8] → y < z → (y = 8 ∨ ∀ v, P v → v < 256 ^ y) →
      (z = 1 ∨ ∃ v, P v ∧ 256 ^ (z / 2) ≤ v) → False := by
    intro y z y1 z1 hlt y2 z3
    have h1 : y ≠ 8 ∧ z ≠ 1 ∧ y ≤ z / 2 := by
      simp only [List.mem_cons, List.not_mem_nil, or_false] at y1 z1
      omega
    obtain ⟨v, hv, hle⟩ := z3.resolve_left h1.2.1
    have := y2.resolve_left h1.1 v hv
    have := Nat.pow_le_pow_right (show 0 < 256 by decide) h1.2.2
    omega
  rcases Nat.lt_trichotomy y z with h | h | h
  · exact (key y1 z1 h y2 z3).elim
  · exact h
  · exact (key z1 y1 h z2 y3).elim

theorem smallest_value (f : Nat → Nat) (h0 : ∀ r, 0x110000 ≤ r → f r = 0) :
    Smallest (fun v => ∃ r, f r = v) (intSize (maxValue (rootOf f) 0)) := by
  obtain ⟨h1, h2, h3⟩ := intSize_smallest (maxValue (rootOf f) 0)
  refine ⟨h1, h2.imp_right fun h v ⟨r, hr⟩ => ?_, h3.imp_right fun h => ?_⟩
  · subst hr
    refine Nat.lt_of_le_of_lt ?_ h
    by_cases hr : r < 0x110000
    · exact le_maxValue_rootOf f hr 0
    · rw [h0 r (by omega)]; exact Nat.zero_le _
  · apply Classical.byContradiction
    intro hn
    have hp : 0 < 256 ^ (intSize (maxValue (rootOf f) 0) / 2) := Nat.pow_pos (by decide)
    have := maxValue_rootOf_le (f := f) (B := 256 ^ (intSize (maxValue (rootOf f) 0) / 2) - 1) fun r => by
      have : ¬ 256 ^ (intSize (maxValue (rootOf f) 0) / 2) ≤ f r := fun h => hn ⟨f r, ⟨r, rfl⟩, h⟩
      omega
    omega

theorem smallest_index (a b : Nat) : Smallest (fun v => v = a ∨ v = b) (intSize (max a b)) := by
  obtain ⟨h1, h2, h3⟩ := intSize_smallest (max a b)
  refine ⟨h1, h2.imp_right fun h v hv => ?_, h3.imp_right fun h => ⟨max a b, by omega, h⟩⟩
  omega

end Uax29.Gen
