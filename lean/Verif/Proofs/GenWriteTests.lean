import Verif.Model.GenTests
import Verif.Spec.GoTokens
import Verif.Proofs.GenPrint
import Verif.Proofs.GenTests
/-! # The text of the tests, read as tokens -/
namespace Uax29.Gen
open Spec Spec.GoTokens

/-! ## replacements -/

/-- The two patterns. -/
def pat1 : List Char := chars "[]uint8{0x"
def pat2 : List Char := chars "[]uint8{"

theorem pat_cons1 {new : List Char} {x : Char} (h : x ≠ '[') (s : List Char) :
    replaceAll pat1 new (x :: s) = x :: replaceAll pat1 new s :=
  replaceAll_cons (fun _ _ e => by rw [← (List.cons.inj e).1]; exact Ne.symm h) (by decide) new s

theorem pat_cons2 {new : List Char} {x : Char} (h : x ≠ '[') (s : List Char) :
    replaceAll pat2 new (x :: s) = x :: replaceAll pat2 new s :=
  replaceAll_cons (fun _ _ e => by rw [← (List.cons.inj e).1]; exact Ne.symm h) (by decide) new s

theorem pat_skip1 {new : List Char} : ∀ {a : List Char}, '[' ∉ a → ∀ s, replaceAll pat1 new (a ++ s) = a ++ replaceAll pat1 new s
  | [], _, _ => rfl
  | x :: a, h, s => by
    simp only [List.mem_cons, not_or] at h
    rw [List.cons_append, pat_cons1 (Ne.symm h.1), pat_skip1 h.2, List.cons_append]

theorem pat_skip2 {new : List Char} : ∀ {a : List Char}, '[' ∉ a → ∀ s, replaceAll pat2 new (a ++ s) = a ++ replaceAll pat2 new s
  | [], _, _ => rfl
  | x :: a, h, s => by
    simp only [List.mem_cons, not_or] at h
    rw [List.cons_append, pat_cons2 (Ne.symm h.1), pat_skip2 h.2, List.cons_append]

/-- A bracket where the pattern does not start. -/
theorem replace_miss {old new : List Char} {x : Char} {s : List Char} (h : old.isPrefixOf (x :: s) = false) :
    replaceAll old new (x :: s) = x :: replaceAll old new s := by
  rw [replaceAll, replaceLoop, if_neg (by rw [h]; decide)]
  rfl

theorem replaceLoop_drop (old new : List Char) : ∀ k s, replaceLoop old new k s = replaceAll old new (s.drop k)
  | 0, s => by rw [List.drop_zero, replaceAll]
  | k + 1, [] => by simp [replaceLoop, replaceAll]
  | k + 1, x :: s => by rw [replaceLoop, List.drop_succ_cons, replaceLoop_drop]

/-- An occurrence of the pattern. -/
theorem replace_hit {old new s : List Char} (h : old ≠ []) : replaceAll old new (old ++ s) = new ++ replaceAll old new s := by
  cases old with
  | nil => exact absurd rfl h
  | cons o os =>
    rw [List.cons_append, replaceAll, replaceLoop, if_pos, replaceLoop_drop, List.length_cons, Nat.add_sub_cancel,
      List.drop_left]
    rw [List.isPrefixOf_iff_prefix]
    exact ⟨s, rfl⟩

/-- Both replacements. -/
def replaced (s : List Char) : List Char := replaceAll pat2 (chars "[]byte{") (replaceAll pat1 (chars "{0x") s)

theorem replaced_join (a b : List Char) : replaced (a ++ '\n' :: b) = replaced a ++ '\n' :: replaced b := by
  rw [replaced, replaceAll_join (by decide) (by decide), replaceAll_join (by decide) (by decide)]
  rfl

theorem replaced_self {s : List Char} (h : '[' ∉ s) : replaced s = s := by
  rw [replaced, replaceAll_self (c := '[') (by decide) s h, replaceAll_self (c := '[') (by decide) s h]

theorem replaced_skip {a : List Char} (h : '[' ∉ a) (s : List Char) : replaced (a ++ s) = a ++ replaced s := by
  rw [replaced, pat_skip1 h, pat_skip2 h]
  rfl

theorem replaced_nil : replaced [] = [] := rfl

/-- A text that ends with a line break. -/
theorem replaced_line (a b : List Char) : replaced (a ++ ['\n'] ++ b) = replaced (a ++ ['\n']) ++ replaced b := by
  rw [List.append_assoc, List.singleton_append, replaced_join, replaced_join, replaced_nil]
  simp

theorem sharpByte_bracket (b : UInt8) : '[' ∉ sharpByte b := by
  have := fmtDigits_not_mem (c := '[') (by decide) (base := 16) (by decide) (by decide) 1 b.toNat
  simp [sharpByte, sharpHex, this]

theorem commas_not_mem {c : Char} (h1 : c ≠ ',') (h2 : c ≠ ' ') : ∀ {l : List (List Char)}, (∀ a ∈ l, c ∉ a) → c ∉ commas l
  | [], _ => by simp [commas]
  | [a], h => h a (by simp)
  | a :: b :: l, h => by
    have ih := commas_not_mem h1 h2 (l := b :: l) fun x hx => h x (List.mem_cons_of_mem _ hx)
    rw [commas]
    · simp [h a, h1, h2, ih]
    · intro e; cases e

theorem bytes_bracket (b : Bytes) : '[' ∉ commas (b.map sharpByte) := by
  refine commas_not_mem (by decide) (by decide) fun a ha => ?_
  obtain ⟨x, _, rfl⟩ := List.mem_map.mp ha
  exact sharpByte_bracket x

/-- An element before and after the replacements. -/
def element (b : Bytes) : List Char := sharpSlice (chars "[]uint8") (b.map sharpByte)
def element' (b : Bytes) : List Char :=
  if b = [] then chars "[]uint8(nil)" else '{' :: commas (b.map sharpByte) ++ ['}']

theorem commas_byte (x : UInt8) (b : Bytes) : ∃ r, commas ((x :: b).map sharpByte) = '0' :: 'x' :: r := by
  cases b with
  | nil => exact ⟨_, rfl⟩
  | cons y b => exact ⟨_, rfl⟩

theorem element_first (b : Bytes) (s : List Char) :
    replaceAll pat1 (chars "{0x") (element b ++ s) = element' b ++ replaceAll pat1 (chars "{0x") s := by
  cases b with
  | nil =>
    show replaceAll pat1 _ ('[' :: (chars "]uint8(nil)" ++ s)) = '[' :: (chars "]uint8(nil)" ++ _)
    rw [replace_miss (by rfl), pat_skip1 (by decide)]
  | cons x b =>
    obtain ⟨r, hr⟩ := commas_byte x b
    have hb := bytes_bracket (x :: b)
    rw [hr] at hb
    simp only [List.mem_cons, not_or] at hb
    rw [element, sharpSlice, if_neg (by simp), hr, element', if_neg (by simp), hr]
    have e : chars "[]uint8" ++ '{' :: ('0' :: 'x' :: r) ++ ['}'] ++ s = pat1 ++ (r ++ '}' :: s) := by
      simp [pat1]
    rw [e, replace_hit (by decide), pat_skip1 hb.2.2, pat_cons1 (by decide)]
    simp

theorem element_second (b : Bytes) (s : List Char) :
    replaceAll pat2 (chars "[]byte{") (element' b ++ s) = element' b ++ replaceAll pat2 (chars "[]byte{") s := by
  cases b with
  | nil =>
    show replaceAll pat2 _ ('[' :: (chars "]uint8(nil)" ++ s)) = '[' :: (chars "]uint8(nil)" ++ _)
    rw [replace_miss (by rfl), pat_skip2 (by decide)]
  | cons x b =>
    have hb := bytes_bracket (x :: b)
    rw [element', if_neg (by simp), pat_skip2 (by simpa using hb)]

theorem elements_replaced : ∀ (l : List Bytes) (s : List Char),
    replaceAll pat1 (chars "{0x") (commas (l.map element) ++ s) = commas (l.map element') ++ replaceAll pat1 (chars "{0x") s
    ∧ replaceAll pat2 (chars "[]byte{") (commas (l.map element') ++ s)
      = commas (l.map element') ++ replaceAll pat2 (chars "[]byte{") s
  | [], s => ⟨rfl, rfl⟩
  | [b], s => ⟨element_first b s, element_second b s⟩
  | b :: b' :: l, s => by
    obtain ⟨h1, h2⟩ := elements_replaced (b' :: l) s
    have e : ∀ f : Bytes → List Char, commas ((b :: b' :: l).map f) = f b ++ ',' :: ' ' :: commas ((b' :: l).map f) :=
      fun _ => rfl
    refine ⟨?_, ?_⟩
    · rw [e, e, List.append_assoc, element_first, List.cons_append, List.cons_append, pat_cons1 (by decide),
        pat_cons1 (by decide), h1]
      simp
    · rw [e, List.append_assoc, element_second, List.cons_append, List.cons_append, pat_cons2 (by decide),
        pat_cons2 (by decide), h2]
      simp

/-- The expected tokens after the replacements. -/
def expectedText (l : List Bytes) : List Char :=
  if l = [] then chars "[][]uint8(nil)" else chars "[][]byte{" ++ commas (l.map element') ++ ['}']

theorem element_head (b : Bytes) : ∃ r, element b = '[' :: r := by
  cases b <;> exact ⟨_, rfl⟩

theorem expected_replaced (l : List Bytes) {s : List Char} (hs : '[' ∉ s) :
    replaced (sharpBytesList l ++ s) = expectedText l ++ s := by
  cases l with
  | nil =>
    show replaced (chars "[][]uint8(nil)" ++ s) = chars "[][]uint8(nil)" ++ s
    rw [replaced]
    simp only [List.cons_append, List.nil_append]
    rw [replace_miss (old := pat1) (by rfl), pat_cons1 (by decide), replace_miss (old := pat1) (by rfl)]
    rw [show ∀ s, (']' :: 'u' :: 'i' :: 'n' :: 't' :: '8' :: '(' :: 'n' :: 'i' :: 'l' :: ')' :: s) = chars "]uint8(nil)" ++ s
      from fun _ => rfl, pat_skip1 (by decide), replaceAll_self (c := '[') (by decide) s hs]
    simp only [List.cons_append, List.nil_append]
    rw [replace_miss (by rfl), pat_cons2 (by decide), replace_miss (by rfl)]
    rw [show ∀ s, (']' :: 'u' :: 'i' :: 'n' :: 't' :: '8' :: '(' :: 'n' :: 'i' :: 'l' :: ')' :: s) = chars "]uint8(nil)" ++ s
      from fun _ => rfl, pat_skip2 (by decide), replaceAll_self (c := '[') (by decide) s hs]
  | cons b l =>
    obtain ⟨h1, h2⟩ := elements_replaced (b :: l) ('}' :: s)
    have hhead : ∃ r, commas ((b :: l).map element) ++ '}' :: s = '[' :: r := by
      obtain ⟨r, hr⟩ := element_head b
      cases l with
      | nil => exact ⟨_, by rw [List.map_cons, List.map_nil, commas, hr]; rfl⟩
      | cons b' l =>
        exact ⟨_, by
          rw [show commas ((b :: b' :: l).map element) = element b ++ ',' :: ' ' :: commas ((b' :: l).map element) from rfl, hr]
          rfl⟩
    obtain ⟨r, hr⟩ := hhead
    have e : sharpBytesList (b :: l) ++ s = '[' :: ']' :: '[' :: (chars "]uint8{" ++ (commas ((b :: l).map element) ++ '}' :: s)) := by
      rw [sharpBytesList, sharpSlice, if_neg (by simp)]
      simp only [List.cons_append, List.append_assoc, List.nil_append]
      rfl
    rw [replaced, e, replace_miss (old := pat1) (by rfl), pat_cons1 (by decide), replace_miss (old := pat1) (by rw [hr]; rfl), pat_skip1 (by decide), h1,
      pat_cons1 (by decide), replaceAll_self (c := '[') (by decide) s hs]
    rw [replace_miss (by rfl), pat_cons2 (by decide)]
    rw [show ∀ t, '[' :: (chars "]uint8{" ++ t) = pat2 ++ t from fun _ => rfl, replace_hit (by decide)]
    rw [(elements_replaced (b :: l) ('}' :: s)).2, pat_cons2 (by decide), replaceAll_self (c := '[') (by decide) s hs,
      expectedText, if_neg (by simp)]
    simp

theorem input_replaced (b : Bytes) {s : List Char} (hs : '[' ∉ s) : replaced (sharpBytes b ++ s) = sharpBytes b ++ s := by
  have key : ∀ t, '[' ∉ t → replaced ('[' :: ']' :: 'b' :: t) = '[' :: ']' :: 'b' :: t := by
    intro t ht
    rw [replaced, replace_miss (old := pat1) (by rfl), pat_cons1 (by decide), pat_cons1 (by decide), replaceAll_self (c := '[') (by decide) t ht,
      replace_miss (by rfl), pat_cons2 (by decide), pat_cons2 (by decide), replaceAll_self (c := '[') (by decide) t ht]
  cases b with
  | nil => exact key (chars "yte(nil)" ++ s) (by simp [hs])
  | cons x b =>
    have hb := bytes_bracket (x :: b)
    rw [sharpBytes, sharpSlice, if_neg (by simp)]
    have := key (chars "yte{" ++ commas ((x :: b).map sharpByte) ++ '}' :: s) (by
      rw [List.mem_append, List.mem_append]
      rintro ((h | h) | h)
      · exact absurd h (by decide)
      · exact hb h
      · simp [hs] at h)
    simpa using this

/-! ## quoted text -/

theorem escaped_cases (isPrint : Char → Bool) (c : Char) :
    (escapedRune isPrint c = [c] ∧ c ≠ '"' ∧ c ≠ '\\' ∧ isPrint c = true) ∨ ∃ r, escapedRune isPrint c = '\\' :: r ∧ '[' ∉ r := by
  have hd : ∀ w n, '[' ∉ fmtDigits 16 w n := fun w n => fmtDigits_not_mem (by decide) (by decide) (by decide) w n
  unfold escapedRune
  by_cases h1 : c = '"' ∨ c = '\\'
  · rw [if_pos h1]
    exact .inr ⟨_, rfl, by rcases h1 with rfl | rfl <;> decide⟩
  · rw [if_neg h1]
    by_cases h2 : isPrint c = true
    · rw [if_pos h2]
      exact .inl ⟨rfl, fun h => h1 (.inl h), fun h => h1 (.inr h), h2⟩
    · rw [if_neg h2]
      refine .inr ?_
      repeat' split
      all_goals exact ⟨_, rfl, by simp [hd]⟩

/-- What a quoted text starts with, the text starts with. -/
theorem quoted_prefix (isPrint : Char → Bool) : ∀ {pat : List Char}, '\\' ∉ pat → '"' ∉ pat → ∀ {s t : List Char},
    pat <+: s.flatMap (escapedRune isPrint) ++ '"' :: t → pat <+: s
  | [], _, _, _, _, _ => List.nil_prefix
  | p :: ps, h1, h2, [], t, h => by
    obtain ⟨r, hr⟩ := h
    exact absurd (List.cons.inj hr).1 fun e => h2 (by rw [← e]; exact List.mem_cons_self)
  | p :: ps, h1, h2, c :: s, t, h => by
    rw [List.flatMap_cons] at h
    rcases escaped_cases isPrint c with ⟨e, _⟩ | ⟨r, e, _⟩
    · rw [e] at h
      simp only [List.cons_append, List.nil_append, List.cons_prefix_cons] at h
      rw [h.1, List.cons_prefix_cons]
      exact ⟨rfl, quoted_prefix isPrint (fun h' => h1 (List.mem_cons_of_mem _ h')) (fun h' => h2 (List.mem_cons_of_mem _ h')) h.2⟩
    · rw [e] at h
      simp only [List.cons_append, List.cons_prefix_cons] at h
      exact absurd h.1 fun e => h1 (by rw [← e]; exact List.mem_cons_self)

theorem quoted_replace (isPrint : Char → Bool) {old new os : List Char} (ho : old = '[' :: os) (h1 : '\\' ∉ old) (h2 : '"' ∉ old) (t : List Char) :
    ∀ s, ¬ old <:+: s → replaceAll old new (s.flatMap (escapedRune isPrint) ++ '"' :: t)
      = s.flatMap (escapedRune isPrint) ++ '"' :: replaceAll old new t
  | [], _ => by
    refine replaceAll_cons (fun o _ e => ?_) (by rw [ho]; simp) new t
    rw [ho] at e
    rw [← (List.cons.inj e).1]; decide
  | c :: s, h => by
    have ih := quoted_replace isPrint ho h1 h2 (new := new) t s fun h' => h (h'.trans (List.suffix_cons c s).isInfix)
    rw [List.flatMap_cons, List.append_assoc, List.append_assoc]
    rcases escaped_cases isPrint c with ⟨e, _⟩ | ⟨r, e, hr⟩
    · rw [e]
      simp only [List.cons_append, List.nil_append]
      rw [replace_miss, ih]
      cases hp : old.isPrefixOf (c :: (s.flatMap (escapedRune isPrint) ++ '"' :: t)) with
      | false => rfl
      | true =>
        have := List.isPrefixOf_iff_prefix.mp hp
        have h3 := quoted_prefix isPrint h1 h2 (s := c :: s) (t := t) (by rw [List.flatMap_cons, e]; simpa using this)
        exact absurd h3.isInfix h
    · rw [e]
      have skip : ∀ a : List Char, '[' ∉ a → ∀ u, replaceAll old new (a ++ u) = a ++ replaceAll old new u := by
        intro a
        induction a with
        | nil => intro _ _; rfl
        | cons x a ih =>
          intro ha u
          simp only [List.mem_cons, not_or] at ha
          rw [List.cons_append, replaceAll_cons, ih ha.2, List.cons_append]
          · intro o _ e
            rw [ho] at e
            rw [← (List.cons.inj e).1]
            exact ha.1
          · rw [ho]; simp
      rw [skip ('\\' :: r) (by simp [hr]), ih]

theorem comment_replaced (isPrint : Char → Bool) {c : List Char} (h : ¬ pat2 <:+: c) {t : List Char} (ht : '[' ∉ t) :
    replaced (quote isPrint c ++ t) = quote isPrint c ++ t := by
  have e : quote isPrint c ++ t = '"' :: (c.flatMap (escapedRune isPrint) ++ '"' :: t) := by simp [quote]
  have h1 : ¬ pat1 <:+: c := fun h' => h (List.IsInfix.trans (List.prefix_append pat2 (chars "0x")).isInfix h')
  rw [replaced, e, pat_cons1 (by decide), quoted_replace isPrint (old := pat1) (os := pat1.tail) rfl (by decide) (by decide) _ c h1,
    replaceAll_self (c := '[') (by decide) t ht, pat_cons2 (by decide),
    quoted_replace isPrint (old := pat2) (os := pat2.tail) rfl (by decide) (by decide) _ c h, replaceAll_self (c := '[') (by decide) t ht]

/-! ## scanning -/

/-- The text is read from the first state, with these tokens, to the last state. -/
def Scans (st : State) (text : List Char) (ts : List Tok) (st' : State) : Prop := scan st text = some (ts, st')

instance (st : State) (text : List Char) (ts : List Tok) (st' : State) : Decidable (Scans st text ts st') :=
  inferInstanceAs (Decidable (_ = _))

theorem Scans.append {st st' st'' : State} {a b : List Char} {ts us : List Tok} (h : Scans st a ts st') (h' : Scans st' b us st'') :
    Scans st (a ++ b) (ts ++ us) st'' := by
  induction a generalizing st ts with
  | nil =>
    rw [Scans, scan] at h
    obtain ⟨rfl, rfl⟩ := Prod.mk.inj (Option.some.inj h)
    exact h'
  | cons c a ih =>
    rw [Scans, scan] at h
    rw [List.cons_append, Scans, scan]
    cases hs : step st c with
    | none => rw [hs] at h; simp at h
    | some r =>
      obtain ⟨vs, st1⟩ := r
      rw [hs] at h
      cases ha : scan st1 a with
      | none => simp [ha] at h
      | some q =>
        simp only [ha, Option.map_some, Option.some.injEq, Prod.mk.injEq] at h
        obtain ⟨h1, h2⟩ := h
        have := ih (st := st1) (ts := q.1) (by rw [Scans, ha, ← h2])
        rw [Scans] at this
        simp only [this, Option.map_some, ← h1, List.append_assoc]

theorem Scans.nil (st : State) : Scans st [] [] st := rfl

theorem Scans.step {st st' st'' : State} {c : Char} {s : List Char} {ts us : List Tok} (h : GoTokens.step st c = some (ts, st'))
    (h' : Scans st' s us st'') : Scans st (c :: s) (ts ++ us) st'' := by
  rw [Scans] at h'
  rw [Scans, scan, h]
  simp [h']

/-- One more character of a word. -/
theorem scans_word : ∀ {w : List Char}, (∀ c ∈ w, wordChar c = true) → ∀ acc, Scans (.word acc) w [] (.word (w.reverse ++ acc))
  | [], _, _ => rfl
  | c :: w, h, acc => by
    have ih := scans_word (w := w) (fun x hx => h x (List.mem_cons_of_mem _ hx)) (c :: acc)
    rw [List.reverse_cons, List.append_assoc, List.singleton_append]
    refine Scans.step (ts := []) (st' := .word (c :: acc)) ?_ ih
    rw [GoTokens.step, if_pos (h c List.mem_cons_self)]

theorem stepStart_word {c : Char} (h : wordChar c = true) : stepStart c = ([], .word [c]) := by
  rw [stepStart, if_neg, if_neg, if_neg, if_pos h]
  · rintro rfl; exact absurd h (by decide)
  · rintro rfl; exact absurd h (by decide)
  · intro hw
    have key : c = ' ' ∨ c = '\t' ∨ c = '\n' ∨ c = '\r' := by
      simpa [white, or_assoc] using hw
    rcases key with rfl | rfl | rfl | rfl <;> exact absurd h (by decide)

/-- A word, and the character after it. -/
theorem scans_token {w : List Char} (hw : ∀ c ∈ w, wordChar c = true) {t : Tok} (ht : wordToken w = some t) {c : Char}
    (hc : wordChar c = false) : Scans .start (w ++ [c]) (t :: (stepStart c).1) (stepStart c).2 := by
  cases w with
  | nil => simp [wordToken] at ht
  | cons x w =>
    have h1 : Scans .start [x] [] (.word [x]) := by
      rw [Scans, scan, GoTokens.step, stepStart_word (hw x List.mem_cons_self)]
      rfl
    have h2 := h1.append (scans_word (w := w) (fun y hy => hw y (List.mem_cons_of_mem _ hy)) [x])
    refine h2.append ?_
    rw [Scans, scan, GoTokens.step, if_neg (by rw [hc]; decide)]
    simp [ht, scan]

theorem hexNumber_digits (w n : Nat) : Spec.GoText.hexNumber 0 (fmtDigits 16 w n) = (n, []) := by
  have := digitsLoop_hex (n + w) w n (Nat.le_refl _) [] 0 []
  simp only [List.append_nil, Nat.zero_mul, Nat.zero_add] at this
  rw [fmtDigits, this]
  rfl

theorem digits_word {c : Char} (h : c ∈ chars "0123456789abcdef") : wordChar c = true := by
  revert c
  decide

theorem digitsLoop_length : ∀ fuel w n, n + w ≤ fuel → n < 16 ^ w → ∀ acc, (digitsLoop 16 fuel w n acc).length = w + acc.length := by
  intro fuel
  induction fuel with
  | zero => intro w n h _ acc; rw [digitsLoop]; omega
  | succ fuel ih =>
    intro w n h hn acc
    cases w with
    | zero =>
      have : n = 0 := by simpa using hn
      subst this
      rw [digitsLoop_zero]; omega
    | succ w =>
      rw [digitsLoop_succ 16 fuel acc (by omega), Nat.add_sub_cancel, ih]
      · simp; omega
      · omega
      · rw [Nat.pow_succ] at hn; omega

theorem fmtDigits_length {w n : Nat} (h : n < 16 ^ w) : (fmtDigits 16 w n).length = w := by
  rw [fmtDigits, digitsLoop_length _ _ _ (Nat.le_refl _) h]
  simp

theorem digits_ne {base : Nat} {w n : Nat} (h : 0 < w) : fmtDigits base w n ≠ [] := by
  rw [fmtDigits, show n + w = (n + w - 1) + 1 by omega, digitsLoop_succ _ _ _ (by omega), digitsLoop_append]
  simp

theorem byte_token (b : UInt8) : wordToken (sharpByte b) = some (.num b.toNat) := by
  rw [sharpByte, sharpHex, wordToken, hexNumber_digits]
  simp only
  rw [if_neg (digits_ne (by decide))]

theorem byte_word (b : UInt8) : ∀ c ∈ sharpByte b, wordChar c = true := by
  intro c hc
  simp only [sharpByte, sharpHex, List.mem_cons] at hc
  rcases hc with rfl | rfl | hc
  · decide
  · decide
  · exact digits_word (fmtDigits_mem (by decide) (by decide) _ _ c hc)

/-- The elements of a slice of bytes, and the brace after them. -/
theorem scans_bytes : ∀ (x : UInt8) (b : Bytes), Scans .start (commas ((x :: b).map sharpByte) ++ ['}'])
    (separated ((x :: b).map fun n => [.num n.toNat]) ++ [.sym '}']) .start
  | x, [] => scans_token (byte_word x) (byte_token x) (by decide)
  | x, y :: b => by
    have h := scans_bytes y b
    have h1 : Scans .start (sharpByte x ++ [',']) [.num x.toNat, .sym ','] .start :=
      scans_token (byte_word x) (byte_token x) (by decide)
    have h2 : Scans .start [' '] [] .start := by decide
    have e1 : commas ((x :: y :: b).map sharpByte) ++ ['}']
        = sharpByte x ++ [','] ++ ([' '] ++ (commas ((y :: b).map sharpByte) ++ ['}'])) := by
      rw [show commas ((x :: y :: b).map sharpByte) = sharpByte x ++ ',' :: ' ' :: commas ((y :: b).map sharpByte) from rfl]
      simp
    rw [e1]
    exact h1.append (h2.append h)

theorem scans_body (x : UInt8) (b : Bytes) : Scans .start ('{' :: commas ((x :: b).map sharpByte) ++ ['}'])
    (bytesBody ((x :: b).map UInt8.toNat)) .start := by
  have h : Scans .start ['{'] [.sym '{'] .start := by decide
  have := h.append (scans_bytes x b)
  simpa [bytesBody, List.map_map, Function.comp_def] using this

theorem scans_input (b : Bytes) : Scans .start (sharpBytes b) (bytesTokens (b.map UInt8.toNat)) .start := by
  cases b with
  | nil => decide
  | cons x b =>
    have h : Scans .start (chars "[]byte{") [.sym '[', .sym ']', .word (chars "byte"), .sym '{'] .start := by decide
    have := h.append (scans_bytes x b)
    simpa [sharpBytes, sharpSlice, bytesTokens, bytesBody, List.map_map, Function.comp_def] using this

/-- The tokens of an element. -/
def elementTokens (b : List Nat) : List Tok :=
  if b = [] then [.sym '[', .sym ']', .word (chars "uint8")] ++ nilBody else bytesBody b

theorem scans_element (b : Bytes) : Scans .start (element' b) (elementTokens (b.map UInt8.toNat)) .start := by
  cases b with
  | nil => decide
  | cons x b =>
    have := scans_body x b
    rw [element', if_neg (by simp), elementTokens, if_neg (by simp)]
    exact this

theorem scans_elements : ∀ l : List Bytes, Scans .start (commas (l.map element'))
    (separated (l.map fun b => elementTokens (b.map UInt8.toNat))) .start
  | [] => rfl
  | [b] => scans_element b
  | b :: b' :: l => by
    have ih := scans_elements (b' :: l)
    have h : Scans .start [',', ' '] [.sym ','] .start := by decide
    have e1 : commas ((b :: b' :: l).map element') = element' b ++ ([',', ' '] ++ commas ((b' :: l).map element')) := rfl
    rw [e1]
    exact (scans_element b).append (h.append ih)

theorem scans_expected (l : List Bytes) : Scans .start (expectedText l) (bytesListTokens (l.map (List.map UInt8.toNat))) .start := by
  cases l with
  | nil => decide
  | cons b l =>
    have h : Scans .start (chars "[][]byte{") [.sym '[', .sym ']', .sym '[', .sym ']', .word (chars "byte"), .sym '{'] .start := by decide
    have h' : Scans .start ['}'] [.sym '}'] .start := by decide
    have := (h.append (scans_elements (b :: l))).append h'
    rw [expectedText, if_neg (by simp)]
    simpa [bytesListTokens, elementTokens, List.map_map, Function.comp_def] using this

/-! ## strings -/

theorem scans_code (acc : List Char) (limit : Nat) : ∀ (d : List Char) (m v : Nat), d ≠ [] → Spec.GoText.hexNumber m d = (v, []) →
    v < limit → v.isValidChar → Scans (.code acc limit d.length m) d [] (.str (Char.ofNat v :: acc))
  | [], _, _, h, _, _, _ => absurd rfl h
  | [c], m, v, _, h, hl, hv => by
    cases hc : Spec.GoText.hexValue c with
    | none => simp [Spec.GoText.hexNumber, hc] at h
    | some x =>
      simp only [Spec.GoText.hexNumber, hc, Prod.mk.injEq, and_true] at h
      subst h
      refine Scans.step (ts := []) (us := []) ?_ (Scans.nil _)
      rw [GoTokens.step, hc]
      simp only [List.length_singleton, Nat.le_refl, if_true]
      rw [if_pos ⟨hl, hv⟩]
  | c :: c' :: d, m, v, _, h, hl, hv => by
    cases hc : Spec.GoText.hexValue c with
    | none => simp [Spec.GoText.hexNumber, hc] at h
    | some x =>
      rw [Spec.GoText.hexNumber, hc] at h
      have ih := scans_code acc limit (c' :: d) (16 * m + x) v (by simp) h hl hv
      refine Scans.step (ts := []) (us := []) ?_ ih
      rw [GoTokens.step, hc]
      simp

theorem char_valid (c : Char) : c.toNat.isValidChar := by
  have := c.valid
  exact this

theorem scans_digits (c : Char) (acc : List Char) {w limit : Nat} (hw : 0 < w) (h : c.toNat < 16 ^ w) (hl : c.toNat < limit) :
    Scans (.code acc limit w 0) (fmtDigits 16 w c.toNat) [] (.str (c :: acc)) := by
  have := scans_code acc limit _ 0 c.toNat (digits_ne hw) (hexNumber_digits w c.toNat) hl (char_valid c)
  rw [fmtDigits_length h, Char.ofNat_toNat] at this
  exact this

theorem scans_rune (isPrint : Char → Bool) (hp : isPrint '\n' = false) (c : Char) (acc : List Char) :
    Scans (.str acc) (escapedRune isPrint c) [] (.str (c :: acc)) := by
  have hmax : c.toNat < 0x110000 := by
    have := char_valid c
    rcases this with h | h <;> omega
  have esc : ∀ (x : Char) (r : List Char) st, GoTokens.step (.escape acc) x = some ([], st) → Scans st r [] (.str (c :: acc)) →
      Scans (.str acc) ('\\' :: x :: r) [] (.str (c :: acc)) := by
    intro x r st hx hr
    exact Scans.step (ts := []) (us := []) rfl (Scans.step (ts := []) (us := []) hx hr)
  unfold escapedRune
  split
  · rename_i h
    rcases h with rfl | rfl
    · exact esc _ _ _ rfl (Scans.nil _)
    · exact esc _ _ _ rfl (Scans.nil _)
  rename_i h0
  split
  · rename_i h1
    refine Scans.step (ts := []) (us := []) ?_ (Scans.nil _)
    rw [GoTokens.step, if_neg fun e => h0 (.inl e), if_neg fun e => h0 (.inr e), if_neg]
    rintro rfl
    rw [hp] at h1
    cases h1
  split
  · rename_i h; subst h; exact esc _ _ _ rfl (Scans.nil _)
  split
  · rename_i h; subst h; exact esc _ _ _ rfl (Scans.nil _)
  split
  · rename_i h; subst h; exact esc _ _ _ rfl (Scans.nil _)
  split
  · rename_i h; subst h; exact esc _ _ _ rfl (Scans.nil _)
  split
  · rename_i h; subst h; exact esc _ _ _ rfl (Scans.nil _)
  split
  · rename_i h; subst h; exact esc _ _ _ rfl (Scans.nil _)
  split
  · rename_i h; subst h; exact esc _ _ _ rfl (Scans.nil _)
  split
  · rename_i h
    have hc : c.toNat < 0x80 := by
      rcases h with h | rfl
      · have h : c.toNat < ' '.toNat := h
        have : ' '.toNat = 32 := rfl
        omega
      · decide
    exact esc _ _ _ rfl (scans_digits c acc (by decide) (by omega) hc)
  split
  · rename_i h
    exact esc _ _ _ rfl (scans_digits c acc (by decide) (by omega) hmax)
  · exact esc _ _ _ rfl (scans_digits c acc (by decide) (by omega) hmax)

theorem scans_string (isPrint : Char → Bool) (hp : isPrint '\n' = false) : ∀ (s acc : List Char),
    Scans (.str acc) (s.flatMap (escapedRune isPrint)) [] (.str (s.reverse ++ acc))
  | [], _ => rfl
  | c :: s, acc => by
    have h := (scans_rune isPrint hp c acc).append (scans_string isPrint hp s (c :: acc))
    simpa using h

theorem scans_quote (isPrint : Char → Bool) (hp : isPrint '\n' = false) (s : List Char) :
    Scans .start (quote isPrint s) [.str s] .start := by
  have h1 : Scans .start ['"'] [] (.str []) := by decide
  have h2 : Scans (.str s.reverse) ['"'] [.str s] .start := by
    rw [Scans, scan, GoTokens.step, if_pos rfl]
    simp [scan]
  have h := scans_string isPrint hp s []
  rw [List.append_nil] at h
  have := (h1.append h).append h2
  simpa [quote] using this

/-! ## the file -/

/-- A test after the replacements. -/
def testText' (isPrint : Char → Bool) (t : UnicodeTest) : List Char :=
  chars "{\n" ++
  (chars "\tinput: " ++ (sharpBytes t.input ++ chars ",\n")) ++
  (chars "\texpected: " ++ (expectedText t.expected ++ chars ",\n")) ++
  (chars "\tcomment: " ++ (quote isPrint t.comment ++ chars ",\n")) ++
  chars "},\n"

theorem replaced_line' {a : List Char} {a' : List Char} (e : a = a' ++ ['\n']) (b : List Char) :
    replaced (a ++ b) = replaced a ++ replaced b := by
  rw [e, replaced_line]

theorem test_replaced (isPrint : Char → Bool) (t : UnicodeTest) (h : ¬ pat2 <:+: t.comment) (s : List Char) :
    replaced (testText isPrint t ++ s) = testText' isPrint t ++ replaced s := by
  have e : testText isPrint t ++ s = chars "{\n" ++ ((chars "\tinput: " ++ (sharpBytes t.input ++ chars ",\n")) ++
      ((chars "\texpected: " ++ (sharpBytesList t.expected ++ chars ",\n")) ++
      ((chars "\tcomment: " ++ (quote isPrint t.comment ++ chars ",\n")) ++ (chars "},\n" ++ s)))) := by
    rw [testText]
    simp only [List.append_assoc]
  rw [e, replaced_line' (a := chars "{\n") (a' := chars "{") rfl,
    replaced_line' (a := chars "\tinput: " ++ (sharpBytes t.input ++ chars ",\n")) (a' := chars "\tinput: " ++ (sharpBytes t.input ++ [','])) (by simp),
    replaced_line' (a := chars "\texpected: " ++ (sharpBytesList t.expected ++ chars ",\n")) (a' := chars "\texpected: " ++ (sharpBytesList t.expected ++ [','])) (by simp),
    replaced_line' (a := chars "\tcomment: " ++ (quote isPrint t.comment ++ chars ",\n")) (a' := chars "\tcomment: " ++ (quote isPrint t.comment ++ [','])) (by simp),
    replaced_line' (a := chars "},\n") (a' := chars "},") rfl,
    replaced_self (s := chars "{\n") (by decide), replaced_self (s := chars "},\n") (by decide),
    replaced_skip (a := chars "\tinput: ") (by decide), input_replaced _ (by decide),
    replaced_skip (a := chars "\texpected: ") (by decide), expected_replaced _ (by decide),
    replaced_skip (a := chars "\tcomment: ") (by decide), comment_replaced isPrint h (by decide), testText']
  simp only [List.append_assoc]

theorem scans_test (isPrint : Char → Bool) (hp : isPrint '\n' = false) (t : UnicodeTest) : Scans .start (testText' isPrint t)
    (testTokens (t.input.map UInt8.toNat) (t.expected.map (List.map UInt8.toNat)) t.comment) .start := by
  have h1 : Scans .start (chars "{\n") [.sym '{'] .start := by decide
  have h2 : Scans .start (chars "\tinput: ") [.word (chars "input"), .sym ':'] .start := by decide
  have h3 : Scans .start (chars ",\n") [.sym ','] .start := by decide
  have h4 : Scans .start (chars "\texpected: ") [.word (chars "expected"), .sym ':'] .start := by decide
  have h5 : Scans .start (chars "\tcomment: ") [.word (chars "comment"), .sym ':'] .start := by decide
  have h6 : Scans .start (chars "},\n") [.sym '}', .sym ','] .start := by decide
  have := (((h1.append (h2.append ((scans_input t.input).append h3))).append
    (h4.append ((scans_expected t.expected).append h3))).append
    (h5.append ((scans_quote isPrint hp t.comment).append h3))).append h6
  rw [testText']
  simpa [testTokens] using this

theorem tests_replaced (isPrint : Char → Bool) : ∀ tests : List UnicodeTest, (∀ t ∈ tests, ¬ pat2 <:+: t.comment) → ∀ s,
    replaced (tests.flatMap (testText isPrint) ++ s) = tests.flatMap (testText' isPrint) ++ replaced s
  | [], _, _ => rfl
  | t :: tests, h, s => by
    rw [List.flatMap_cons, List.flatMap_cons, List.append_assoc, test_replaced isPrint t (h t List.mem_cons_self),
      tests_replaced isPrint tests (fun x hx => h x (List.mem_cons_of_mem _ hx)), List.append_assoc]

theorem scans_tests (isPrint : Char → Bool) (hp : isPrint '\n' = false) : ∀ tests : List UnicodeTest,
    Scans .start (tests.flatMap (testText' isPrint))
      (tests.map fun t => testTokens (t.input.map UInt8.toNat) (t.expected.map (List.map UInt8.toNat)) t.comment).flatten .start
  | [] => rfl
  | t :: tests => by
    rw [List.flatMap_cons, List.map_cons, List.flatten_cons]
    exact (scans_test isPrint hp t).append (scans_tests isPrint hp tests)

/-- The lines before the array. -/
def testHead (p : Name) : List Char :=
  chars "package " ++ p.packageName ++ chars "_test\n" ++
  chars "\n" ++
  chars "\t// generated by github.com/clipperhouse/uax29/v2\n" ++
  chars "\t// from " ++ p.testURL ++ chars "\n" ++
  chars "\n" ++
  chars "type unicodeTest struct {\n" ++
  chars "\tinput    []byte\n" ++
  chars "\texpected [][]byte\n" ++
  chars "\tcomment  string\n" ++
  chars "}\n"

theorem testHead_replaced (p : Name) : replaced (testHead p) = testHead p := by
  cases p <;> decide +kernel

/-- The tokens of these lines. -/
def headTokens (package : List Char) : List Tok :=
  [.word (chars "package"), .word package,
   .word (chars "type"), .word (chars "unicodeTest"), .word (chars "struct"), .sym '{',
   .word (chars "input"), .sym '[', .sym ']', .word (chars "byte"),
   .word (chars "expected"), .sym '[', .sym ']', .sym '[', .sym ']', .word (chars "byte"),
   .word (chars "comment"), .word (chars "string"), .sym '}']

theorem scans_testHead (p : Name) : Scans .start (testHead p) (headTokens (p.packageName ++ chars "_test")) .start := by
  unfold Scans
  cases p <;> decide +kernel

theorem decimal_head (n : Nat) : ∃ d r, decimal n = d :: r ∧ d ∈ chars "0123456789abcdef" := by
  cases h : decimal n with
  | nil => exact absurd h (digits_ne (by decide))
  | cons d r => exact ⟨d, r, rfl, fmtDigits_mem (base := 10) (by decide) (by decide) 1 n d (by rw [← decimal, h]; exact List.mem_cons_self)⟩

theorem decimal_bracket (n : Nat) : '[' ∉ decimal n :=
  fun h => absurd (fmtDigits_mem (base := 10) (by decide) (by decide) 1 n _ h) (by decide)

theorem array_replaced (n : Nat) : replaced (chars "var unicodeTests = [" ++ (decimal n ++ chars "]unicodeTest {\n"))
    = chars "var unicodeTests = [" ++ (decimal n ++ chars "]unicodeTest {\n") := by
  have hb : '[' ∉ decimal n ++ chars "]unicodeTest {\n" := by
    rw [List.mem_append]
    rintro (h | h)
    · exact decimal_bracket n h
    · exact absurd h (by decide)
  have miss : ∀ old os : List Char, old = '[' :: ']' :: os → old.isPrefixOf ('[' :: (decimal n ++ chars "]unicodeTest {\n")) = false := by
    intro old os e
    obtain ⟨d, r, hd, hm⟩ := decimal_head n
    have : (']' == d) = false := by
      rw [beq_eq_false_iff_ne]
      rintro rfl
      exact absurd hm (by decide)
    rw [hd, e]
    simp [List.isPrefixOf, this]
  have e : chars "var unicodeTests = [" ++ (decimal n ++ chars "]unicodeTest {\n")
      = chars "var unicodeTests = " ++ '[' :: (decimal n ++ chars "]unicodeTest {\n") := rfl
  rw [e, replaced_skip (by decide), replaced, replace_miss (old := pat1) (miss _ _ rfl),
    replaceAll_self (c := '[') (by decide) _ hb, replace_miss (old := pat2) (miss _ _ rfl),
    replaceAll_self (c := '[') (by decide) _ hb]

theorem decimal_token (n : Nat) : wordToken (decimal n) = some (.num n) := by
  obtain ⟨d, r, hd, _⟩ := decimal_head n
  have hn := decimalNumber_decimal n
  rw [hd] at hn ⊢
  have h9 : '0' ≤ d ∧ d ≤ '9' := by
    rw [Spec.GoText.decimalNumber] at hn
    by_cases h : '0' ≤ d ∧ d ≤ '9'
    · exact h
    · rw [if_neg h] at hn; cases hn
  have hx : ∀ s, ¬ (d = '0' ∧ r = 'x' :: s) := by
    rintro s ⟨rfl, rfl⟩
    rw [Spec.GoText.decimalNumber, if_pos h9, Spec.GoText.decimalNumber, if_neg (by decide)] at hn
    cases hn
  rw [wordToken, if_pos h9, hn]
  · rfl
  · intro s h1 h2; exact hx s ⟨h1, h2⟩

theorem scans_array (n : Nat) : Scans .start (chars "var unicodeTests = [" ++ (decimal n ++ chars "]unicodeTest {\n"))
    [.word (chars "var"), .word (chars "unicodeTests"), .sym '=', .sym '[', .num n, .sym ']', .word (chars "unicodeTest"), .sym '{']
    .start := by
  have h1 : Scans .start (chars "var unicodeTests = [") [.word (chars "var"), .word (chars "unicodeTests"), .sym '=', .sym '['] .start := by
    decide
  have h2 : Scans .start (decimal n ++ [']']) [.num n, .sym ']'] .start :=
    scans_token (fun c hc => digits_word (fmtDigits_mem (by decide) (by decide) _ _ c hc)) (decimal_token n) (by decide)
  have h3 : Scans .start (chars "unicodeTest {\n") [.word (chars "unicodeTest"), .sym '{'] .start := by decide
  have := h1.append (h2.append h3)
  simpa using this

/-! ## the comments are parts of the file -/

theorem trimSpace_infix (s : List Char) : trimSpace s <:+: s := by
  have h1 : (s.dropWhile isSpace).reverse.dropWhile isSpace <:+ (s.dropWhile isSpace).reverse := List.dropWhile_suffix _
  have h2 : trimSpace s <+: s.dropWhile isSpace := by
    have := List.reverse_prefix.mpr h1
    rwa [List.reverse_reverse] at this
  exact h2.isInfix.trans (List.dropWhile_suffix _).isInfix

theorem splitChar_infix (sep : Char) : ∀ s, (∃ p ps, splitChar sep s = p :: ps ∧ p <+: s) ∧ ∀ q ∈ splitChar sep s, q <:+: s
  | [] => by simp [splitChar]
  | c :: s => by
    obtain ⟨⟨p, ps, hp, hpre⟩, hall⟩ := splitChar_infix sep s
    by_cases h : c = sep
    · rw [splitChar, if_pos h]
      refine ⟨⟨_, _, rfl, List.nil_prefix⟩, fun q hq => ?_⟩
      rcases List.mem_cons.mp hq with rfl | hq
      · exact List.nil_prefix.isInfix
      · exact (hall q hq).trans (List.suffix_cons c s).isInfix
    · rw [splitChar, if_neg h, hp]
      have hc : c :: p <+: c :: s := List.cons_prefix_cons.mpr ⟨rfl, hpre⟩
      refine ⟨⟨_, _, rfl, hc⟩, fun q hq => ?_⟩
      rcases List.mem_cons.mp hq with rfl | hq
      · exact hc.isInfix
      · exact (hall q (by rw [hp]; exact List.mem_cons_of_mem _ hq)).trans (List.suffix_cons c s).isInfix

theorem parseTest_comment {l : List Char} {t : UnicodeTest} (h : parseTest l = .ok (some (some t))) : t.comment <:+: l := by
  unfold parseTest at h
  split at h
  · cases h
  · split at h
    · simp at h
    · split at h
      · rename_i data comment rest hs
        split at h
        · cases h
        · cases h
        · rename_i bs _
          have e : t = ⟨bs.flatten, bs, trimSpace comment⟩ := by
            simpa using h.symm
          subst e
          refine (trimSpace_infix comment).trans ((splitChar_infix '#' _).2 comment ?_)
          rw [hs]; simp
      · cases h

theorem dropCR_infix (l : List Char) : dropCR l <+: l := by
  unfold dropCR
  split
  · exact List.dropLast_prefix l
  · exact List.prefix_rfl

theorem textLines_infix : ∀ (s cur l : List Char), l ∈ textLines cur s → l <:+: cur.reverse ++ s
  | [], cur, l, h => by
    rw [textLines] at h
    split at h
    · cases h
    · rw [List.mem_singleton.mp h, List.append_nil]
      exact List.infix_rfl
  | c :: s, cur, l, h => by
    rw [textLines] at h
    split at h
    · rcases List.mem_cons.mp h with rfl | h
      · exact (List.prefix_append _ _).isInfix
      · have := textLines_infix s [] l h
        rw [List.reverse_nil, List.nil_append] at this
        exact this.trans ((List.suffix_cons c s).trans (List.suffix_append _ _)).isInfix
    · have := textLines_infix s (c :: cur) l h
      simpa using this

theorem parseTests_comment : ∀ {ls : List (List Char)} {ts : List UnicodeTest}, parseTests ls = .ok (some ts) →
    ∀ t ∈ ts, ∃ l ∈ ls, t.comment <:+: l
  | [], ts, h, t, ht => by
    have e : ts = [] := by simpa [parseTests] using h.symm
    rw [e] at ht; cases ht
  | l :: ls, ts, h, t, ht => by
    rw [parseTests] at h
    split at h
    · cases h
    split at h
    · cases h
    · cases h
    · rename_i u hu
      split at h
      · cases h
      · cases h
      · rename_i us hus
        have e : ts = u.toList ++ us := by simpa using h.symm
        rw [e, List.mem_append] at ht
        rcases ht with ht | ht
        · cases u with
          | none => cases ht
          | some u =>
            have : t = u := by simpa using ht
            subst this
            exact ⟨l, List.mem_cons_self, (parseTest_comment hu).trans (dropCR_infix l).isInfix⟩
        · obtain ⟨l', h1, h2⟩ := parseTests_comment hus t ht
          exact ⟨l', List.mem_cons_of_mem _ h1, h2⟩

end Uax29.Gen
