import Verif.Model.GenPrint
import Verif.Spec.GoText
/-! # Lines, numbers and replacements in the text of the generator -/
namespace Uax29.Gen
open Spec.GoText

/-! ## Lines -/

theorem linesOf_ne_nil (s : List Char) : linesOf s ≠ [] := by
  cases s with
  | nil => simp [linesOf]
  | cons c s =>
    simp only [linesOf]
    split
    · simp
    · split <;> simp

theorem linesOf_cons {c : Char} (h : c ≠ '\n') {s l : List Char} {ls : List (List Char)} (hs : linesOf s = l :: ls) :
    linesOf (c :: s) = (c :: l) :: ls := by
  simp only [linesOf, if_neg h, hs]

theorem linesOf_newline (s : List Char) : linesOf ('\n' :: s) = [] :: linesOf s := by
  simp only [linesOf, if_true]

theorem linesOf_append {a : List Char} (h : '\n' ∉ a) {s l : List Char} {ls : List (List Char)}
    (hs : linesOf s = l :: ls) : linesOf (a ++ s) = (a ++ l) :: ls := by
  induction a with
  | nil => exact hs
  | cons c a ih =>
    simp only [List.mem_cons, not_or] at h
    exact linesOf_cons (Ne.symm h.1) (ih h.2)

theorem linesOf_line {a : List Char} (h : '\n' ∉ a) : linesOf a = [a] := by
  have := linesOf_append h (s := []) (l := []) (ls := []) rfl
  simpa using this

theorem linesOf_join (a b : List Char) : linesOf (a ++ '\n' :: b) = linesOf a ++ linesOf b := by
  induction a with
  | nil => exact linesOf_newline b
  | cons c a ih =>
    by_cases hc : c = '\n'
    · subst hc
      rw [List.cons_append, linesOf_newline, linesOf_newline, ih, List.cons_append]
    · cases hl : linesOf a with
      | nil => exact absurd hl (linesOf_ne_nil a)
      | cons l ls =>
        rw [linesOf_cons hc hl, List.cons_append, linesOf_cons hc (l := l) (ls := ls ++ linesOf b)]
        · rfl
        · rw [ih, hl]; rfl

theorem squeeze_append (a b : List (List Char)) : squeeze (a ++ b) = squeeze a ++ squeeze b := by
  simp [squeeze]

theorem squeeze_cons (a : List Char) (b : List (List Char)) : squeeze (a :: b) = squeeze [a] ++ squeeze b :=
  squeeze_append [a] b

/-- The squeezed lines of a text. -/
def squeezed (s : List Char) : List (List Char) := squeeze (linesOf s)

theorem squeezed_join (a b : List Char) : squeezed (a ++ '\n' :: b) = squeezed a ++ squeezed b := by
  simp only [squeezed, linesOf_join, squeeze_append]

theorem squeezed_nil : squeezed [] = [] := rfl

/-! ## Numbers -/

theorem hexValue_digitChar {d : Nat} (h : d < 16) : hexValue (digitChar d) = some d := by
  revert d
  decide

theorem digitChar_decimal {d : Nat} (h : d < 10) :
    '0' ≤ digitChar d ∧ digitChar d ≤ '9' ∧ (digitChar d).toNat - '0'.toNat = d := by
  revert d
  decide

theorem digitsLoop_append (base : Nat) : ∀ fuel w n acc,
    digitsLoop base fuel w n acc = digitsLoop base fuel w n [] ++ acc := by
  intro fuel
  induction fuel with
  | zero => intro w n acc; rfl
  | succ fuel ih =>
    intro w n acc
    simp only [digitsLoop]
    split
    · rfl
    · rw [ih, ih _ _ [_], List.append_assoc]; rfl

theorem digitsLoop_zero (base fuel : Nat) (acc : List Char) : digitsLoop base fuel 0 0 acc = acc := by
  cases fuel <;> rfl

theorem digitsLoop_succ (base fuel : Nat) {w n : Nat} (acc : List Char) (h : 0 < n + w) :
    digitsLoop base (fuel + 1) w n acc = digitsLoop base fuel (w - 1) (n / base) (digitChar (n % base) :: acc) := by
  simp only [digitsLoop]
  split
  · omega
  · rfl

theorem digit_mem_hex {d : Nat} (h : d < 16) : digitChar d ∈ chars "0123456789abcdef" := by
  revert d
  decide

/-- All characters printed for a number are digits. -/
theorem digitsLoop_mem {base : Nat} (hb : 0 < base) (hb' : base ≤ 16) : ∀ fuel w n acc,
    (∀ c ∈ acc, c ∈ chars "0123456789abcdef") → ∀ c ∈ digitsLoop base fuel w n acc, c ∈ chars "0123456789abcdef" := by
  intro fuel
  induction fuel with
  | zero => intro w n acc h; exact h
  | succ fuel ih =>
    intro w n acc h
    by_cases h0 : 0 < n + w
    · rw [digitsLoop_succ _ _ _ h0]
      refine ih _ _ _ fun c hc => ?_
      rcases List.mem_cons.mp hc with rfl | hc
      · exact digit_mem_hex (by have := Nat.mod_lt n hb; omega)
      · exact h c hc
    · obtain ⟨rfl, rfl⟩ : n = 0 ∧ w = 0 := by omega
      rw [digitsLoop_zero]; exact h

theorem fmtDigits_mem {base : Nat} (hb : 0 < base) (hb' : base ≤ 16) (w n : Nat) :
    ∀ c ∈ fmtDigits base w n, c ∈ chars "0123456789abcdef" :=
  digitsLoop_mem hb hb' _ _ _ _ (by simp)

theorem digitsLoop_hex : ∀ fuel w n, n + w ≤ fuel → ∀ acc m s,
    hexNumber m (digitsLoop 16 fuel w n acc ++ s)
      = hexNumber (m * 16 ^ (digitsLoop 16 fuel w n []).length + n) (acc ++ s) := by
  intro fuel
  induction fuel with
  | zero =>
    intro w n h acc m s
    obtain ⟨rfl, rfl⟩ : n = 0 ∧ w = 0 := by omega
    simp [digitsLoop]
  | succ fuel ih =>
    intro w n h acc m s
    by_cases h0 : 0 < n + w
    · have hn : n / 16 + (w - 1) ≤ fuel := by omega
      rw [digitsLoop_succ _ _ _ h0, digitsLoop_succ _ _ _ h0, ih _ _ hn, digitsLoop_append _ _ _ _ [_]]
      simp only [List.cons_append, hexNumber, hexValue_digitChar (Nat.mod_lt n (by decide : 0 < 16)),
        List.length_append, List.length_cons, List.length_nil]
      congr 1
      rw [Nat.pow_add, Nat.mul_add]
      have := Nat.div_add_mod n 16
      generalize 16 ^ (digitsLoop 16 fuel (w - 1) (n / 16) []).length = k
      rw [Nat.add_assoc, this, show (0 : Nat) + 1 = 1 from rfl, Nat.pow_one]
      congr 1
      rw [← Nat.mul_assoc m k 16, Nat.mul_comm 16]
    · obtain ⟨rfl, rfl⟩ : n = 0 ∧ w = 0 := by omega
      simp [digitsLoop_zero]

/-- A number that `fmt` prints is read back. -/
theorem hexNumber_fmtDigits (w n : Nat) {c : Char} (hc : hexValue c = none) (s : List Char) :
    hexNumber 0 (fmtDigits 16 w n ++ c :: s) = (n, c :: s) := by
  rw [fmtDigits, digitsLoop_hex _ _ _ (Nat.le_refl _)]
  simp only [Nat.zero_mul, Nat.zero_add, List.nil_append, hexNumber, hc]

theorem digitsLoop_decimal : ∀ fuel w n, n + w ≤ fuel → ∀ acc m,
    decimalNumber m (digitsLoop 10 fuel w n acc)
      = decimalNumber (m * 10 ^ (digitsLoop 10 fuel w n []).length + n) acc := by
  intro fuel
  induction fuel with
  | zero =>
    intro w n h acc m
    obtain ⟨rfl, rfl⟩ : n = 0 ∧ w = 0 := by omega
    simp [digitsLoop]
  | succ fuel ih =>
    intro w n h acc m
    by_cases h0 : 0 < n + w
    · have hn : n / 10 + (w - 1) ≤ fuel := by omega
      rw [digitsLoop_succ _ _ _ h0, digitsLoop_succ _ _ _ h0, ih _ _ hn, digitsLoop_append _ _ _ _ [_]]
      obtain ⟨d1, d2, d3⟩ := digitChar_decimal (Nat.mod_lt n (by decide : 0 < 10))
      simp only [decimalNumber, d1, d2, and_self, if_true, d3,
        List.length_append, List.length_cons, List.length_nil]
      congr 1
      rw [Nat.pow_add, Nat.mul_add]
      have := Nat.div_add_mod n 10
      generalize 10 ^ (digitsLoop 10 fuel (w - 1) (n / 10) []).length = k
      rw [Nat.add_assoc, this, show (0 : Nat) + 1 = 1 from rfl, Nat.pow_one]
      congr 1
      rw [← Nat.mul_assoc m k 10, Nat.mul_comm 10]
    · obtain ⟨rfl, rfl⟩ : n = 0 ∧ w = 0 := by omega
      simp [digitsLoop_zero]

theorem decimalNumber_decimal (n : Nat) : decimalNumber 0 (decimal n) = some n := by
  rw [decimal, fmtDigits, digitsLoop_decimal _ _ _ (Nat.le_refl _)]
  simp [decimalNumber]

/-! ## The rows of a table -/

/-- The loops of `printValues` and `printIndex`: `k` elements to a line, values with `w` digits. -/
def tableLoop (k w boff : Nat) : Nat → Bool → List Nat → List Char
  | _, _, [] => []
  | i, newline, v :: values =>
    let newline := if i % k = 0 then true else newline
    if v ≠ 0 then
      (if newline then ['\n'] else []) ++ ('\t' :: sharpHex 2 (boff + i) ++ ':' :: sharpHex w v ++ [',', ' '])
        ++ tableLoop k w boff (i + 1) false values
    else tableLoop k w boff (i + 1) newline values

theorem valuesLoop_eq (boff : Nat) : ∀ vs i nl, valuesLoop boff i nl vs = tableLoop 6 4 boff i nl vs
  | [], _, _ => rfl
  | v :: vs, i, nl => by simp only [valuesLoop, tableLoop, valuesLoop_eq boff vs]

theorem indexLoop_eq (boff : Nat) : ∀ vs i nl, indexLoop boff i nl vs = tableLoop 8 2 boff i nl vs
  | [], _, _ => rfl
  | v :: vs, i, nl => by simp only [indexLoop, tableLoop, indexLoop_eq boff vs]

/-- The elements that are printed, by lines: those that continue the line, and those of the lines after it. -/
def rows (k boff : Nat) : Nat → Bool → List Nat → List (Nat × Nat) × List (List (Nat × Nat))
  | _, _, [] => ([], [])
  | i, newline, v :: values =>
    let newline := if i % k = 0 then true else newline
    if v ≠ 0 then
      match rows k boff (i + 1) false values with
      | (r, rs) => if newline then ([], ((boff + i, v) :: r) :: rs) else ((boff + i, v) :: r, rs)
    else rows k boff (i + 1) newline values

/-- The elements that are printed. -/
def pairs (boff : Nat) : Nat → List Nat → List (Nat × Nat)
  | _, [] => []
  | i, v :: values => if v ≠ 0 then (boff + i, v) :: pairs boff (i + 1) values else pairs boff (i + 1) values

theorem rows_flatten (k boff : Nat) : ∀ vs i nl,
    (rows k boff i nl vs).1 ++ (rows k boff i nl vs).2.flatten = pairs boff i vs
  | [], _, _ => rfl
  | v :: vs, i, nl => by
    simp only [rows, pairs]
    generalize (if i % k = 0 then true else nl) = nl'
    by_cases hv : v ≠ 0
    · rw [if_pos hv, if_pos hv, ← rows_flatten k boff vs (i + 1) false]
      cases nl' <;> rfl
    · rw [if_neg hv, if_neg hv]
      exact rows_flatten k boff vs (i + 1) nl'

/-- The first element of a block starts a line. -/
theorem rows_first (k boff : Nat) : ∀ vs i, (rows k boff i true vs).1 = []
  | [], _ => rfl
  | v :: vs, i => by
    simp only [rows]
    rw [show (if i % k = 0 then true else true) = true by split <;> rfl]
    by_cases hv : v ≠ 0
    · rw [if_pos hv]; rfl
    · rw [if_neg hv]; exact rows_first k boff vs (i + 1)

theorem rows_zero (k boff : Nat) (vs : List Nat) (nl : Bool) : rows k boff 0 nl vs = rows k boff 0 true vs := by
  cases vs with
  | nil => rfl
  | cons v vs => simp [rows]

theorem rows_ne_nil (k boff : Nat) : ∀ vs i nl, ∀ r ∈ (rows k boff i nl vs).2, r ≠ []
  | [], _, _ => by intro r hr; cases hr
  | v :: vs, i, nl => by
    intro r
    simp only [rows]
    generalize (if i % k = 0 then true else nl) = nl'
    by_cases hv : v ≠ 0
    · rw [if_pos hv]
      have ih := rows_ne_nil k boff vs (i + 1) false r
      cases nl'
      · exact ih
      · intro h
        rcases List.mem_cons.mp h with rfl | h
        · simp
        · exact ih h
    · rw [if_neg hv]
      exact rows_ne_nil k boff vs (i + 1) nl' r

/-- An element as it is printed. -/
def rawItem (w : Nat) (e : Nat × Nat) : List Char :=
  '\t' :: sharpHex 2 e.1 ++ ':' :: sharpHex w e.2 ++ [',', ' ']

/-- An element without white space. -/
def item (w : Nat) (e : Nat × Nat) : List Char := sharpHex 2 e.1 ++ ':' :: sharpHex w e.2 ++ [',']

theorem sharpHex_mem (w n : Nat) : ∀ c ∈ sharpHex w n, c ∈ chars "0123456789abcdefx" := by
  intro c hc
  simp only [sharpHex, List.mem_cons] at hc
  rcases hc with rfl | rfl | hc
  · decide
  · decide
  · have := fmtDigits_mem (base := 16) (by decide) (by decide) w n c hc
    exact List.mem_append_left ['x'] this

theorem sharpHex_not_mem {c : Char} (h : c ∉ chars "0123456789abcdefx") (w n : Nat) : c ∉ sharpHex w n :=
  fun hc => h (sharpHex_mem w n c hc)

theorem filter_sharpHex (w n : Nat) : ((sharpHex w n).filter fun c => !blank c) = sharpHex w n := by
  rw [List.filter_eq_self]
  intro c hc
  have : ∀ c ∈ chars "0123456789abcdefx", (!blank c) = true := by decide
  exact this c (sharpHex_mem w n c hc)

theorem filter_rawItem (w : Nat) (e : Nat × Nat) : ((rawItem w e).filter fun c => !blank c) = item w e := by
  simp only [rawItem, item, List.cons_append, List.append_assoc, List.filter_cons, List.filter_append, filter_sharpHex]
  simp [blank]

theorem rawItem_line (w : Nat) (e : Nat × Nat) : '\n' ∉ rawItem w e := by
  have := sharpHex_not_mem (c := '\n') (by decide) 2 e.1
  have := sharpHex_not_mem (c := '\n') (by decide) w e.2
  simp_all [rawItem]

/-- The line of a row. -/
def rowText (w : Nat) (r : List (Nat × Nat)) : List Char := (r.map (item w)).flatten

/-- The line of a row as it is printed. -/
def rawRow (w : Nat) (r : List (Nat × Nat)) : List Char := (r.map (rawItem w)).flatten

theorem filter_rawRow (w : Nat) (r : List (Nat × Nat)) : ((rawRow w r).filter fun c => !blank c) = rowText w r := by
  induction r with
  | nil => rfl
  | cons e r ih =>
    simp only [rawRow, rowText, List.map_cons, List.flatten_cons, List.filter_append, filter_rawItem] at ih ⊢
    rw [ih]

theorem rowText_ne_nil (w : Nat) {r : List (Nat × Nat)} (h : r ≠ []) : rowText w r ≠ [] := by
  cases r with
  | nil => exact absurd rfl h
  | cons e r => simp [rowText, item, sharpHex]

theorem linesOf_tableLoop (k w boff : Nat) : ∀ vs i nl,
    linesOf (tableLoop k w boff i nl vs)
      = rawRow w (rows k boff i nl vs).1 :: (rows k boff i nl vs).2.map (rawRow w)
  | [], _, _ => rfl
  | v :: vs, i, nl => by
    simp only [tableLoop, rows]
    generalize (if i % k = 0 then true else nl) = nl'
    by_cases hv : v ≠ 0
    · rw [if_pos hv, if_pos hv]
      have h := linesOf_append (rawItem_line w (boff + i, v)) (linesOf_tableLoop k w boff vs (i + 1) false)
      cases nl'
      · simpa [rawItem, rawRow] using h
      · simp only [rawItem, List.cons_append, List.append_assoc, List.nil_append] at h
        simp only [if_true, List.cons_append, List.nil_append, List.append_assoc, linesOf_newline, h]
        simp [rawRow, rawItem]
    · rw [if_neg hv, if_neg hv]
      exact linesOf_tableLoop k w boff vs (i + 1) nl'

/-- The squeezed comment in front of a block. -/
def comment (n : Nat) : List Char :=
  chars "//Block" ++ sharpHex 1 n ++ chars ",offset" ++ sharpHex 1 (n * blockSize)

theorem filter_blockComment (n : Nat) :
    ((blockComment n (n * blockSize)).filter fun c => !blank c) = comment n := by
  simp only [blockComment, comment, List.filter_append, filter_sharpHex]
  rfl

theorem blockComment_line (n boff : Nat) : '\n' ∉ blockComment n boff := by
  have := sharpHex_not_mem (c := '\n') (by decide) 1 n
  have := sharpHex_not_mem (c := '\n') (by decide) 1 boff
  simp_all [blockComment]

/-- The squeezed lines of a block. -/
def blockLines (k w n : Nat) (b : List Nat) : List (List Char) :=
  comment n :: (rows k (n * blockSize) 0 true b).2.map (rowText w)

theorem squeeze_rows (w : Nat) {f : List (Nat × Nat) → List Char}
    (hf : ∀ r, ((f r).filter fun c => !blank c) = rowText w r) :
    ∀ rs : List (List (Nat × Nat)), (∀ r ∈ rs, r ≠ []) → squeeze (rs.map f) = rs.map (rowText w)
  | [], _ => rfl
  | r :: rs, h => by
    have ih := squeeze_rows w hf rs fun r hr => h r (List.mem_cons_of_mem _ hr)
    rw [List.map_cons, squeeze_cons, ih]
    simp [squeeze, hf, rowText_ne_nil w (h r List.mem_cons_self)]

theorem squeezed_block (k w n : Nat) (b : List Nat) :
    squeezed (blockComment n (n * blockSize) ++ tableLoop k w (n * blockSize) 0 false b) = blockLines k w n b := by
  rw [squeezed, linesOf_append (blockComment_line _ _) (linesOf_tableLoop _ _ _ _ _ _), squeeze_cons, rows_zero,
    rows_first, squeeze_rows w (filter_rawRow w) _ (rows_ne_nil _ _ _ _ _)]
  simp only [rawRow, List.map_nil, List.flatten_nil, List.append_nil, squeeze, List.map_cons, filter_blockComment]
  rfl

theorem squeezed_printValues (n : Nat) (b : List Nat) : squeezed (printValues n b) = blockLines 6 4 n b := by
  simp only [printValues, valuesLoop_eq, squeezed_block]

theorem squeezed_printIndex (n : Nat) (b : List Nat) : squeezed (printIndex n b) = blockLines 8 2 n b := by
  simp only [printIndex, indexLoop_eq, squeezed_block]

/-- The squeezed lines of the blocks of a table. -/
def tableLines (k w : Nat) : Nat → List (List Nat) → List (List Char)
  | _, [] => []
  | n, b :: bs => blockLines k w n b ++ tableLines k w (n + 1) bs

theorem tableLines_append (k w : Nat) : ∀ a n b,
    tableLines k w n (a ++ b) = tableLines k w n a ++ tableLines k w (n + a.length) b
  | [], n, b => by simp [tableLines]
  | x :: a, n, b => by
    simp only [List.cons_append, tableLines, tableLines_append k w a, List.length_cons, List.append_assoc]
    rw [show n + 1 + a.length = n + (a.length + 1) by omega]

theorem squeezed_blocksText (k w : Nat) {print : Nat → List Nat → List Char}
    (hp : ∀ n b, squeezed (print n b) = blockLines k w n b) (rest : List Char) : ∀ bs n,
    squeezed (blocksText print n bs ++ rest) = tableLines k w n bs ++ squeezed rest
  | [], _ => rfl
  | b :: bs, n => by
    rw [blocksText, List.append_assoc, List.cons_append, squeezed_join, hp, squeezed_blocksText k w hp rest bs,
      tableLines, List.append_assoc]

/-! ## Reading them -/

theorem elements_rowText (w : Nat) : ∀ (r : List (Nat × Nat)) fuel, r.length ≤ fuel →
    elements fuel (rowText w r) = some r
  | [], fuel, _ => by cases fuel <;> rfl
  | e :: r, fuel, h => by
    obtain ⟨fuel, rfl⟩ : ∃ f, fuel = f + 1 := ⟨fuel - 1, by simp at h; omega⟩
    have ih := elements_rowText w r fuel (by simpa using h)
    simp only [rowText, List.map_cons, List.flatten_cons, item, sharpHex, List.cons_append, List.append_assoc,
      List.nil_append] at ih ⊢
    rw [elements, hexNumber_fmtDigits _ _ (by decide)]
    simp only
    rw [hexNumber_fmtDigits _ _ (by decide)]
    simp only [ih, Option.map_some]

theorem length_le_rowText (w : Nat) : ∀ r : List (Nat × Nat), r.length ≤ (rowText w r).length
  | [] => Nat.le_refl _
  | e :: r => by
    have := length_le_rowText w r
    simp only [rowText, List.map_cons, List.flatten_cons, List.length_append, item, sharpHex, List.cons_append,
      List.length_cons] at this ⊢
    omega

theorem literal_row (w : Nat) {r : List (Nat × Nat)} (h : r ≠ []) (ls : List (List Char)) :
    literal (rowText w r :: ls) = (literal ls).map (r ++ ·) := by
  have he := elements_rowText w r (rowText w r).length (length_le_rowText w r)
  cases r with
  | nil => exact absurd rfl h
  | cons e r =>
    have hs : ∃ s, rowText w (e :: r) = '0' :: 'x' :: s := ⟨_, rfl⟩
    obtain ⟨s, hs⟩ := hs
    rw [hs] at he ⊢
    rw [literal, he]
    · cases literal ls <;> rfl
    · simp
    · simp

theorem literal_rows (w : Nat) (ls : List (List Char)) : ∀ rs : List (List (Nat × Nat)), (∀ r ∈ rs, r ≠ []) →
    literal (rs.map (rowText w) ++ ls) = (literal ls).map (rs.flatten ++ ·)
  | [], _ => by simp
  | r :: rs, h => by
    rw [List.map_cons, List.cons_append, literal_row w (h r List.mem_cons_self),
      literal_rows w ls rs fun r hr => h r (List.mem_cons_of_mem _ hr)]
    cases literal ls <;> simp

theorem literal_block (k w n : Nat) (b : List Nat) (ls : List (List Char)) :
    literal (blockLines k w n b ++ ls) = (literal ls).map (pairs (n * blockSize) 0 b ++ ·) := by
  have h := rows_flatten k (n * blockSize) b 0 true
  rw [rows_first, List.nil_append] at h
  rw [← h, ← literal_rows w ls _ (rows_ne_nil k _ b 0 true)]
  rfl

/-- The elements of all blocks. -/
def tablePairs : Nat → List (List Nat) → List (Nat × Nat)
  | _, [] => []
  | n, b :: bs => pairs (n * blockSize) 0 b ++ tablePairs (n + 1) bs

theorem literal_table (k w : Nat) (ls : List (List Char)) : ∀ bs n,
    literal (tableLines k w n bs ++ ['}'] :: ls) = some (tablePairs n bs)
  | [], n => rfl
  | b :: bs, n => by
    rw [tableLines, List.append_assoc, literal_block, literal_table k w ls bs]
    rfl

theorem pairs_append (boff : Nat) : ∀ a i b, pairs boff i (a ++ b) = pairs boff i a ++ pairs boff (i + a.length) b
  | [], i, b => by simp [pairs]
  | x :: a, i, b => by
    have h := pairs_append boff a (i + 1) b
    rw [show i + 1 + a.length = i + (a.length + 1) by omega] at h
    simp only [List.cons_append, pairs, h, List.length_cons]
    split <;> rfl

theorem pairs_shift (boff d : Nat) : ∀ vs i, pairs (boff + d) i vs = pairs boff (d + i) vs
  | [], _ => rfl
  | v :: vs, i => by
    have h := pairs_shift boff d vs (i + 1)
    simp only [pairs, h, Nat.add_assoc]

theorem tablePairs_eq : ∀ bs n, (∀ b ∈ bs, b.length = blockSize) →
    tablePairs n bs = pairs 0 (n * blockSize) bs.flatten
  | [], _, _ => rfl
  | b :: bs, n, h => by
    have hb := h b List.mem_cons_self
    rw [tablePairs, tablePairs_eq bs _ fun b hb => h b (List.mem_cons_of_mem _ hb), List.flatten_cons, pairs_append, hb,
      Nat.add_mul, Nat.one_mul]
    have := pairs_shift 0 (n * blockSize) b 0
    rw [Nat.zero_add, Nat.add_zero] at this
    rw [this]

theorem pairs_keys : ∀ vs i, ∀ e ∈ pairs 0 i vs, i ≤ e.1 ∧ e.1 < i + vs.length
  | [], _ => by intro e he; cases he
  | v :: vs, i => by
    intro e he
    have ih := pairs_keys vs (i + 1) e
    simp only [pairs, Nat.zero_add] at he
    simp only [List.length_cons]
    split at he
    · rcases List.mem_cons.mp he with rfl | he
      · simp only; omega
      · have := ih he; omega
    · have := ih he; omega

theorem pairs_nodup : ∀ vs i, ((pairs 0 i vs).map (·.1)).Nodup
  | [], _ => by simp [pairs]
  | v :: vs, i => by
    simp only [pairs]
    split
    · rw [List.map_cons, List.nodup_cons]
      refine ⟨?_, pairs_nodup vs (i + 1)⟩
      intro h
      obtain ⟨e, he, h⟩ := List.mem_map.mp h
      have := (pairs_keys vs (i + 1) e he).1
      simp only at h
      omega
    · exact pairs_nodup vs (i + 1)

theorem pairs_lookup_lt : ∀ vs i k, k < i → (pairs 0 i vs).lookup k = none
  | [], _, _, _ => rfl
  | v :: vs, i, k, h => by
    have ih := pairs_lookup_lt vs (i + 1) k (by omega)
    simp only [pairs]
    split
    · rw [List.lookup_cons, show (k == 0 + i) = false by simp; omega]
      exact ih
    · exact ih

theorem pairs_lookup : ∀ vs i k (h : k < vs.length), entry (pairs 0 i vs) (i + k) = vs[k]
  | [], _, _, h => absurd h (by simp)
  | v :: vs, i, 0, _ => by
    simp only [pairs, entry, List.getElem_cons_zero]
    split
    · rw [List.lookup_cons, show (i + 0 == 0 + i) = true by simp]; rfl
    · rename_i hv
      rw [pairs_lookup_lt vs (i + 1) (i + 0) (by omega)]
      simp only [ne_eq, Decidable.not_not] at hv
      exact hv.symm
  | v :: vs, i, k + 1, h => by
    have ih := pairs_lookup vs (i + 1) k (by simpa using h)
    simp only [pairs, entry, List.getElem_cons_succ] at ih ⊢
    rw [← ih, show i + (k + 1) = i + 1 + k by omega]
    split
    · rw [List.lookup_cons, show (i + 1 + k == 0 + i) = false by simp; omega]
    · rfl

end Uax29.Gen
