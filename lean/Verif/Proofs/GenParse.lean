import Verif.Model.GenParse
import Verif.Spec.PropFile
import Verif.Spec.TrieGen
/-! # Reading property files -/
namespace Uax29.Spec.PropFile
open Gen hiding Name

/-! ## Splitting -/

theorem splitChar_ne_nil (sep : Char) (s : List Char) : splitChar sep s ≠ [] := by
  cases s with
  | nil => simp [splitChar]
  | cons c s =>
    simp only [splitChar]
    split
    · simp
    · split <;> simp

theorem splitChar_cons_ne {sep c : Char} (h : c ≠ sep) (s : List Char) :
    ∃ p ps, splitChar sep s = p :: ps ∧ splitChar sep (c :: s) = (c :: p) :: ps := by
  simp only [splitChar]
  rw [if_neg h]
  cases hs : splitChar sep s with
  | nil => exact absurd hs (splitChar_ne_nil _ _)
  | cons p ps => exact ⟨p, ps, rfl, rfl⟩

theorem splitChar_append {sep : Char} : ∀ {s : List Char} (_ : sep ∉ s) (t : List Char) {p : List Char} {ps : List (List Char)}
    (_ : splitChar sep t = p :: ps), splitChar sep (s ++ t) = (s ++ p) :: ps
  | [], _, t, p, ps, ht => ht
  | c :: s, h, t, p, ps, ht => by
    have hc : c ≠ sep := fun e => h (by simp [e])
    have ih := splitChar_append (s := s) (fun e => h (List.mem_cons_of_mem _ e)) t ht
    rw [List.cons_append, splitChar, if_neg hc, ih]
    rfl

theorem splitChar_sep (sep : Char) (t : List Char) : splitChar sep (sep :: t) = [] :: splitChar sep t := by
  rw [splitChar, if_pos rfl]

theorem splitChar_mid {sep : Char} {s : List Char} (h : sep ∉ s) (t : List Char) :
    splitChar sep (s ++ sep :: t) = s :: splitChar sep t := by
  rw [splitChar_append h _ (splitChar_sep sep t), List.append_nil]

theorem splitChar_none {sep : Char} {s : List Char} (h : sep ∉ s) : splitChar sep s = [s] := by
  have := splitChar_append h [] (p := []) (ps := []) rfl
  rwa [List.append_nil] at this

theorem splitDots_ne_nil (s : List Char) : splitDots s ≠ [] := by
  unfold splitDots
  split
  · simp
  · simp
  · split <;> simp

theorem splitDots_cons {c : Char} (h : c ≠ '.') (s : List Char) {p : List Char} {ps : List (List Char)}
    (hs : splitDots s = p :: ps) : splitDots (c :: s) = (c :: p) :: ps := by
  rw [splitDots.eq_3 c s (fun t e _ => h e), hs]

theorem splitDots_append : ∀ {s : List Char} (_ : '.' ∉ s) (t : List Char) {p : List Char} {ps : List (List Char)}
    (_ : splitDots t = p :: ps), splitDots (s ++ t) = (s ++ p) :: ps
  | [], _, t, p, ps, ht => ht
  | c :: s, h, t, p, ps, ht => by
    have hc : c ≠ '.' := fun e => h (by simp [e])
    exact splitDots_cons hc _ (splitDots_append (s := s) (fun e => h (List.mem_cons_of_mem _ e)) t ht)

theorem splitDots_none {s : List Char} (h : '.' ∉ s) : splitDots s = [s] := by
  have := splitDots_append h [] (p := []) (ps := []) rfl
  rwa [List.append_nil] at this

theorem splitDots_mid {s t : List Char} (h : '.' ∉ s) (h' : '.' ∉ t) : splitDots (s ++ '.' :: '.' :: t) = [s, t] := by
  have e : splitDots ('.' :: '.' :: t) = [] :: splitDots t := by rw [splitDots]
  rw [splitDots_append h _ e, splitDots_none h', List.append_nil]

/-! ## Trimming -/

theorem dropWhile_blank {a s : List Char} (ha : ∀ c ∈ a, isSpace c = true) (hs : ∀ c ∈ s.head?, isSpace c = false) :
    (a ++ s).dropWhile isSpace = s := by
  induction a with
  | nil =>
    cases s with
    | nil => rfl
    | cons c s => rw [List.nil_append, List.dropWhile_cons_of_neg (by rw [hs c rfl]; simp)]
  | cons c a ih =>
    rw [List.cons_append, List.dropWhile_cons_of_pos (ha c List.mem_cons_self)]
    exact ih fun x hx => ha x (List.mem_cons_of_mem _ hx)

theorem trimSpace_eq {a s b : List Char} (ha : ∀ c ∈ a, isSpace c = true) (hb : ∀ c ∈ b, isSpace c = true)
    (hs : ∀ c ∈ s, isSpace c = false) (hne : s ≠ []) : trimSpace (a ++ s ++ b) = s := by
  unfold trimSpace
  rw [List.append_assoc, dropWhile_blank ha, List.reverse_append, dropWhile_blank, List.reverse_reverse]
  · intro c hc; exact hb c (List.mem_reverse.mp hc)
  · intro c hc
    exact hs c (List.mem_reverse.mp (List.mem_of_mem_head? hc))
  · intro c hc
    cases s with
    | nil => exact absurd rfl hne
    | cons x s =>
      simp only [List.cons_append, List.head?_cons, Option.mem_some_iff] at hc
      exact hc ▸ hs x List.mem_cons_self

theorem Blank.space {s : List Char} (h : Blank s) : ∀ c ∈ s, isSpace c = true := by
  intro c hc
  rcases h c hc with rfl | rfl <;> decide

theorem Blank.notMem {s : List Char} (h : Blank s) {x : Char} (h1 : x ≠ ' ') (h2 : x ≠ '\t') : x ∉ s := by
  intro hx
  rcases h x hx with e | e
  · exact h1 e
  · exact h2 e

/-! ## Numbers -/

theorem Digit.cases {c : Char} {d : Nat} (h : Digit c d) : hexDigit c = some d ∧ c ≠ '_' ∧ c ≠ '.' ∧ c ≠ ';'
    ∧ c ≠ '#' ∧ isSpace c = false ∧ c ≠ '÷' ∧ d < 16 := by
  have hd : d < 16 := by
    rcases h with h | h <;> exact (List.getElem?_eq_some_iff.mp h).1
  have key : ∀ d < 16, ∀ s ∈ ["0123456789abcdef".toList, "0123456789ABCDEF".toList],
      s[d]?.all (fun c => hexDigit c == some d && c != '_' && c != '.' && c != ';' && c != '#' && !isSpace c && c != '÷') = true := by
    decide
  have : ∃ s ∈ ["0123456789abcdef".toList, "0123456789ABCDEF".toList], s[d]? = some c := by
    rcases h with h | h
    · exact ⟨_, by simp, h⟩
    · exact ⟨_, by simp, h⟩
  obtain ⟨s, hs, hc⟩ := this
  have := key d hd s hs
  rw [hc] at this
  simpa [Option.all_some, hd, and_assoc] using this

/-- What is true of a character of a number. -/
def Plain (c : Char) : Prop := c ≠ '_' ∧ c ≠ '.' ∧ c ≠ ';' ∧ c ≠ '#' ∧ isSpace c = false ∧ c ≠ '÷'

theorem Hex.plain {s : List Char} {n : Nat} (h : Hex s n) : ∀ c ∈ s, Plain c := by
  induction h with
  | one hd =>
    intro c hc
    rw [List.mem_singleton] at hc
    subst hc
    have := hd.cases
    exact ⟨this.2.1, this.2.2.1, this.2.2.2.1, this.2.2.2.2.1, this.2.2.2.2.2.1, this.2.2.2.2.2.2.1⟩
  | more _ hd ih =>
    intro c hc
    rcases List.mem_append.mp hc with hc | hc
    · exact ih c hc
    · rw [List.mem_singleton] at hc
      subst hc
      have := hd.cases
      exact ⟨this.2.1, this.2.2.1, this.2.2.2.1, this.2.2.2.2.1, this.2.2.2.2.2.1, this.2.2.2.2.2.2.1⟩

theorem Hex.ne_nil {s : List Char} {n : Nat} (h : Hex s n) : s ≠ [] := by
  cases h <;> simp

theorem hexLoop_append : ∀ (s t : List Char) (n : Nat), hexLoop (s ++ t) n = (hexLoop s n).bind (hexLoop t)
  | [], _, _ => rfl
  | c :: s, t, n => by
    rw [List.cons_append, hexLoop, hexLoop]
    split
    · exact hexLoop_append s t n
    · split
      · rfl
      · split
        · rfl
        · exact hexLoop_append s t _

theorem Hex.loop {s : List Char} {n : Nat} (h : Hex s n) (hn : n < 2 ^ 32) : hexLoop s 0 = some n := by
  induction h with
  | one hd =>
    have := hd.cases
    rw [hexLoop, if_neg this.2.1, this.1]
    simp only
    rw [if_neg (by omega)]
    simp [hexLoop]
  | more _ hd ih =>
    have := hd.cases
    rw [hexLoop_append, ih (by omega), Option.bind_some, hexLoop, if_neg this.2.1, this.1]
    simp only
    rw [if_neg (by omega)]
    simp [hexLoop]
    omega

theorem Hex.parse {s : List Char} {n : Nat} (h : Hex s n) (hn : n < 2 ^ 31) : parseHex s = some n := by
  unfold parseHex
  rw [if_neg h.ne_nil, h.loop (by omega)]
  simp only
  have : s.contains '_' = false := by
    rw [Bool.eq_false_iff]
    intro hc
    exact (h.plain _ (List.contains_iff_mem.mp hc)).1 rfl
  rw [this, if_neg (by simp), if_neg (by omega)]

theorem Range.facts {r : List Char} {lo hi : Nat} (h : Range r lo hi) : r ≠ [] ∧ lo ≤ hi
    ∧ ∀ c ∈ r, isSpace c = false ∧ c ≠ ';' ∧ c ≠ '#' := by
  have hp : ∀ {s : List Char} {n : Nat}, Hex s n → ∀ c ∈ s, isSpace c = false ∧ c ≠ ';' ∧ c ≠ '#' := fun h c hc =>
    have := h.plain c hc
    ⟨this.2.2.2.2.1, this.2.2.1, this.2.2.2.1⟩
  cases h with
  | one h => exact ⟨h.ne_nil, Nat.le_refl _, hp h⟩
  | two h1 h2 hle =>
    refine ⟨by simp, hle, ?_⟩
    intro c hc
    rcases List.mem_append.mp hc with hc | hc
    · exact hp h1 c hc
    · rcases List.mem_cons.mp hc with rfl | hc
      · decide
      · rcases List.mem_cons.mp hc with rfl | hc
        · decide
        · exact hp h2 c hc

/-- The runes of a range. -/
theorem Range.get {a r b : List Char} {lo hi : Nat} (ha : Blank a) (h : Range r lo hi) (hb : Blank b)
    (hhi : hi ≤ 0x10FFFF) : ∃ runes, getRuneRange (a ++ r ++ b) = .ok (some runes) ∧ ∀ x, x ∈ runes ↔ lo ≤ x ∧ x ≤ hi := by
  unfold getRuneRange
  rw [trimSpace_eq ha.space hb.space (fun c hc => (h.facts.2.2 c hc).1) h.facts.1]
  cases h with
  | one h =>
    rw [splitDots_none fun hc => (h.plain _ hc).2.1 rfl]
    simp only
    rw [h.parse (by omega)]
    exact ⟨_, rfl, fun x => by rw [List.mem_singleton]; omega⟩
  | two h1 h2 hle =>
    rw [splitDots_mid (fun hc => (h1.plain _ hc).2.1 rfl) (fun hc => (h2.plain _ hc).2.1 rfl)]
    simp only
    rw [h1.parse (by omega)]
    simp only
    rw [h2.parse (by omega)]
    simp only
    by_cases he : hi = lo
    · rw [if_pos he]
      exact ⟨_, rfl, fun x => by rw [List.mem_singleton]; omega⟩
    · rw [if_neg he, if_neg (by omega)]
      refine ⟨_, rfl, fun x => ?_⟩
      rw [List.mem_cons, List.mem_range'_1]
      omega

/-! ## Lines -/

theorem alphanum_plain {c : Char} (h : c.isAlphanum = true ∨ c = '_') : isSpace c = false ∧ c ≠ ';' ∧ c ≠ '#' ∧ c ≠ '\n' := by
  rcases h with h | rfl
  · simp only [Char.isAlphanum, Char.isAlpha, Char.isUpper, Char.isLower, Char.isDigit, Bool.or_eq_true,
      Bool.and_eq_true, decide_eq_true_eq, ge_iff_le, UInt32.le_iff_toNat_le, show 'A'.val.toNat = 65 from rfl,
      show 'Z'.val.toNat = 90 from rfl, show 'a'.val.toNat = 97 from rfl, show 'z'.val.toNat = 122 from rfl,
      show '0'.val.toNat = 48 from rfl, show '9'.val.toNat = 57 from rfl] at h
    have hl : ∀ n : Nat, (n = 0x20 ∨ (9 ≤ n ∧ n ≤ 13) ∨ n = 0x85 ∨ n ≥ 0xA0 ∨ n = 59 ∨ n = 35) → c.toNat ≠ n := by
      intro n hn e
      have e' : c.val.toNat = n := e
      rw [e'] at h
      omega
    have ne : ∀ x : Char, (x.toNat = 0x20 ∨ (9 ≤ x.toNat ∧ x.toNat ≤ 13) ∨ x.toNat = 0x85 ∨ x.toNat ≥ 0xA0 ∨ x.toNat = 59 ∨ x.toNat = 35) → c ≠ x :=
      fun x hx e => hl x.toNat hx (by rw [e])
    refine ⟨?_, ne ';' (by decide), ne '#' (by decide), ne '\n' (by decide)⟩
    have hlt : c.toNat < 0x80 := by
      apply Classical.byContradiction
      intro hge
      have e' : c.val.toNat = c.toNat := rfl
      rw [e'] at h
      omega
    unfold isSpace
    simp only [Bool.or_eq_false_iff, Bool.and_eq_false_iff, decide_eq_false_iff_not]
    refine ⟨⟨⟨⟨⟨⟨⟨⟨⟨⟨ne ' ' (by decide), ?_⟩, by omega⟩, by omega⟩, by omega⟩, by omega⟩, by omega⟩, by omega⟩, by omega⟩, by omega⟩, by omega⟩
    apply Classical.byContradiction
    intro hn
    have h1 : '\t' ≤ c := Classical.byContradiction fun e => hn (.inl e)
    have h2 : c ≤ '\r' := Classical.byContradiction fun e => hn (.inr e)
    have h1' : 9 ≤ c.toNat := h1
    have h2' : c.toNat ≤ 13 := h2
    exact hl c.toNat (.inr (.inl ⟨h1', h2'⟩)) rfl
  · decide

theorem Name.facts {n : List Char} (h : Name n) : n ≠ [] ∧ (∀ c ∈ n, isSpace c = false) ∧ ';' ∉ n ∧ '#' ∉ n :=
  ⟨h.1, fun c hc => (alphanum_plain (h.2 c hc)).1, fun hc => (alphanum_plain (h.2 _ hc)).2.1 rfl,
    fun hc => (alphanum_plain (h.2 _ hc)).2.2.1 rfl⟩

theorem newline_space : ∀ c ∈ ['\n'], isSpace c = true := by decide

theorem beforeHash_name {a n b k : List Char} (ha : Blank a) (hn : Name n) (hb : ∀ c ∈ b, isSpace c = true)
    (hb' : '#' ∉ b) (hk : k = [] ∨ ∃ t, k = '#' :: t) : beforeHash (a ++ n ++ b ++ k) = .ok n := by
  have h1 : '#' ∉ a ++ n ++ b := by
    simp only [List.mem_append, not_or]
    exact ⟨⟨ha.notMem (by decide) (by decide), hn.facts.2.2.2⟩, hb'⟩
  unfold beforeHash
  rcases hk with rfl | ⟨t, rfl⟩
  · rw [List.append_nil, splitChar_none h1]
    simp only
    rw [trimSpace_eq ha.space hb hn.facts.2.1 hn.facts.1]
  · rw [splitChar_mid h1]
    simp only
    rw [trimSpace_eq ha.space hb hn.facts.2.1 hn.facts.1]

theorem Line.parse {l n : List Char} {lo hi : Nat} (h : Line l (some (n, lo, hi))) :
    ∃ runes, parseLine (l ++ ['\n']) = .ok (some (n, runes)) ∧ ∀ x, x ∈ runes ↔ lo ≤ x ∧ x ≤ hi := by
  have hsemi : ∀ {a r b : List Char}, Blank a → Range r lo hi → Blank b → ';' ∉ a ++ r ++ b := by
    intro a r b ha hr hb
    simp only [List.mem_append, not_or]
    exact ⟨⟨ha.notMem (by decide) (by decide), fun hc => (hr.facts.2.2 _ hc).2.1 rfl⟩, hb.notMem (by decide) (by decide)⟩
  cases h with
  | @value a r _ _ b c _ d k ha hr hhi hb hc hn hd hk hk' =>
    obtain ⟨runes, h1, h2⟩ := hr.get ha hb hhi
    refine ⟨runes, ?_, h2⟩
    unfold parseLine
    have h3 : ';' ∉ c ++ n ++ d ++ k ++ ['\n'] := by
      simp only [List.mem_append, not_or]
      exact ⟨⟨⟨⟨hc.notMem (by decide) (by decide), hn.facts.2.2.1⟩, hd.notMem (by decide) (by decide)⟩, hk'⟩, by decide⟩
    rw [List.append_assoc, List.cons_append, splitChar_mid (hsemi ha hr hb), splitChar_none h3]
    simp only
    rw [h1]
    simp only
    have : beforeHash (c ++ n ++ d ++ k ++ ['\n']) = .ok n := by
      rcases hk with rfl | ⟨t, rfl⟩
      · rw [List.append_nil, List.append_assoc (c ++ n)]
        have := beforeHash_name hc hn (b := d ++ ['\n']) (k := []) (fun x hx => by
          rcases List.mem_append.mp hx with hx | hx
          · exact hd.space x hx
          · exact newline_space x hx) (by
          rw [List.mem_append, not_or]
          exact ⟨hd.notMem (by decide) (by decide), by decide⟩) (.inl rfl)
        rwa [List.append_nil] at this
      · rw [List.append_assoc (c ++ n ++ d)]
        exact beforeHash_name hc hn hd.space (hd.notMem (by decide) (by decide)) (.inr ⟨_, rfl⟩)
    rw [this]
  | @propertyValue a r _ _ b c p d e v f k ha hr hhi hb hc hn hd he hv hf hk =>
    obtain ⟨runes, h1, h2⟩ := hr.get ha hb hhi
    refine ⟨runes, ?_, h2⟩
    unfold parseLine
    have h3 : ';' ∉ c ++ p ++ d := by
      simp only [List.mem_append, not_or]
      exact ⟨⟨hc.notMem (by decide) (by decide), hn.facts.2.2.1⟩, hd.notMem (by decide) (by decide)⟩
    have h4 : ';' ∉ e ++ v ++ f := by
      simp only [List.mem_append, not_or]
      exact ⟨⟨he.notMem (by decide) (by decide), hv.facts.2.2.1⟩, hf.notMem (by decide) (by decide)⟩
    rw [List.append_assoc, List.cons_append, splitChar_mid (hsemi ha hr hb),
      List.append_assoc (c ++ p ++ d), List.cons_append, splitChar_mid h3]
    have h5 : ∃ k' ps, splitChar ';' (e ++ v ++ f ++ k ++ ['\n']) = k' :: ps ∧ beforeHash k' = .ok v := by
      rcases hk with rfl | ⟨t, rfl⟩
      · refine ⟨_, _, splitChar_none (by
          rw [List.append_nil, List.mem_append, not_or]; exact ⟨h4, by decide⟩), ?_⟩
        rw [List.append_nil, List.append_assoc (e ++ v)]
        have := beforeHash_name he hv (b := f ++ ['\n']) (k := []) (fun x hx => by
          rcases List.mem_append.mp hx with hx | hx
          · exact hf.space x hx
          · exact newline_space x hx) (by
          rw [List.mem_append, not_or]
          exact ⟨hf.notMem (by decide) (by decide), by decide⟩) (.inl rfl)
        rwa [List.append_nil] at this
      · obtain ⟨q, qs, h6, h7⟩ := splitChar_cons_ne (sep := ';') (c := '#') (by decide) (t ++ ['\n'])
        rw [List.append_assoc (e ++ v ++ f), List.cons_append]
        refine ⟨_, _, splitChar_append h4 _ h7, ?_⟩
        exact beforeHash_name he hv hf.space (hf.notMem (by decide) (by decide)) (.inr ⟨_, rfl⟩)
    obtain ⟨k', ps, h6, h7⟩ := h5
    rw [h6]
    simp only
    rw [h1]
    simp only
    rw [h7]
    simp only
    rw [trimSpace_eq hc.space hd.space hn.facts.2.1 hn.facts.1]

theorem Line.head {l n : List Char} {lo hi : Nat} (h : Line l (some (n, lo, hi))) :
    ∃ c s, l = c :: s ∧ c ≠ '\n' ∧ c ≠ '#' := by
  have key : ∀ {a r : List Char} (t : List Char), Blank a → Range r lo hi →
      ∃ c s, a ++ r ++ t = c :: s ∧ c ≠ '\n' ∧ c ≠ '#' := by
    intro a r t ha hr
    cases a with
    | nil =>
      cases r with
      | nil => exact absurd rfl hr.facts.1
      | cons c r =>
        refine ⟨c, r ++ t, rfl, ?_, (hr.facts.2.2 c List.mem_cons_self).2.2⟩
        rintro rfl
        have := (hr.facts.2.2 _ List.mem_cons_self).1
        revert this; decide
    | cons c a =>
      refine ⟨c, a ++ r ++ t, rfl, ?_, ?_⟩
      · rcases ha c List.mem_cons_self with rfl | rfl <;> decide
      · rcases ha c List.mem_cons_self with rfl | rfl <;> decide
  cases h with
  | value ha hr _ => rw [List.append_assoc (_ ++ _)]; exact key _ ha hr
  | propertyValue ha hr _ => rw [List.append_assoc (_ ++ _)]; exact key _ ha hr

/-! ## Files -/

theorem readLines_line (t : List Char) : ∀ (l cur : List Char), '\n' ∉ l →
    readLines cur (l ++ '\n' :: t) = (cur.reverse ++ l ++ ['\n']) :: readLines [] t
  | [], cur, _ => by simp [readLines]
  | c :: l, cur, h => by
    have hc : c ≠ '\n' := fun e => h (by simp [e])
    rw [List.cons_append, readLines, if_neg hc, readLines_line t l _ fun e => h (List.mem_cons_of_mem _ e)]
    simp

theorem listed_nil (p : String) (r : Nat) : ¬ Listed [] p r := by
  rintro ⟨e, he, _⟩
  cases he

theorem listed_cons {e : String × List Nat} {m : List (String × List Nat)} {p : String} {r : Nat} :
    Listed (e :: m) p r ↔ (e.1 = p ∧ r ∈ e.2) ∨ Listed m p r := by
  simp only [Listed, List.mem_cons, exists_eq_or_imp]

theorem addRunes_listed {p : String} {runes : List Nat} : ∀ {m : List (String × List Nat)} {q : String} {r : Nat},
    Listed (addRunes p runes m) q r ↔ Listed m q r ∨ (p = q ∧ r ∈ runes)
  | [], q, r => by simp only [addRunes, listed_cons, listed_nil, or_false, false_or]
  | e :: m, q, r => by
    simp only [addRunes]
    split
    · rename_i he
      simp only [listed_cons, List.mem_append, he]
      constructor
      · rintro (⟨h1, h2 | h2⟩ | h)
        · exact .inl (.inl ⟨h1, h2⟩)
        · exact .inr ⟨h1, h2⟩
        · exact .inl (.inr h)
      · rintro ((⟨h1, h2⟩ | h) | ⟨h1, h2⟩)
        · exact .inl ⟨h1, .inl h2⟩
        · exact .inr h
        · exact .inl ⟨h1, .inr h2⟩
    · simp only [listed_cons, addRunes_listed (m := m), or_assoc]

theorem addRunes_names {p : String} {runes : List Nat} : ∀ {m : List (String × List Nat)},
    (addRunes p runes m).map (·.1) = if p ∈ m.map (·.1) then m.map (·.1) else m.map (·.1) ++ [p]
  | [] => by simp [addRunes]
  | e :: m => by
    simp only [addRunes]
    split
    · rename_i he
      rw [if_pos (by simp [he])]
      simp
    · rename_i he
      rw [List.map_cons, addRunes_names (m := m)]
      by_cases hm : p ∈ m.map (·.1)
      · rw [if_pos hm, if_pos (by simp only [List.map_cons, List.mem_cons]; exact .inr hm)]; rfl
      · rw [if_neg hm, if_neg (by simp only [List.map_cons, List.mem_cons, not_or]; exact ⟨fun e => he e.symm, hm⟩)]; rfl

theorem nodup_add {l : List String} {p : String} (h : l.Nodup) : (if p ∈ l then l else l ++ [p]).Nodup := by
  split
  · exact h
  · rename_i hp
    rw [List.nodup_append]
    refine ⟨h, by simp, ?_⟩
    intro a ha b hb e
    rw [List.mem_singleton] at hb
    exact hp (hb ▸ e ▸ ha)

theorem File.read {text : List Char} {es : List (List Char × Nat × Nat)} (h : File text es) :
    ∀ m : List (String × List Nat), (m.map (·.1)).Nodup →
    ∃ m', readProps (readLines [] text) m = .ok (some m') ∧ (m'.map (·.1)).Nodup
      ∧ (∀ p r, Listed m' p r ↔ Listed m p r ∨ Lists es p r)
      ∧ ∀ p, p ∈ m'.map (·.1) ↔ p ∈ m.map (·.1) ∨ ∃ e ∈ es, String.ofList e.1 = p := by
  induction h with
  | nil =>
    intro m hm
    refine ⟨m, rfl, hm, fun p r => ?_, fun p => ?_⟩
    · simp [Lists]
    · simp
  | @cons l o t es hl hnl _ ih =>
    intro m hm
    rw [readLines_line t l [] hnl, List.reverse_nil, List.nil_append]
    have hne : l ++ ['\n'] ≠ [] := by simp
    cases o with
    | none =>
      have hhead : (l ++ ['\n']).head? = some '\n' ∨ (l ++ ['\n']).head? = some '#' := by
        cases hl with
        | empty => exact .inl rfl
        | comment => exact .inr rfl
      rw [readProps, if_neg hne, if_pos hhead]
      exact ih m hm
    | some e =>
      obtain ⟨n, lo, hi⟩ := e
      obtain ⟨runes, h1, h2⟩ := hl.parse
      obtain ⟨c, s, rfl, hc1, hc2⟩ := hl.head
      rw [readProps, if_neg hne, if_neg (by simp [hc1, hc2]), h1]
      simp only
      obtain ⟨m', h3, h4, h5, h6⟩ := ih (addRunes (String.ofList n) runes m) (by
        rw [addRunes_names]; exact nodup_add hm)
      refine ⟨m', h3, h4, fun p r => ?_, fun p => ?_⟩
      · rw [h5, addRunes_listed, or_assoc]
        have : Lists ((some (n, lo, hi)).toList ++ es) p r
            ↔ (String.ofList n = p ∧ lo ≤ r ∧ r ≤ hi) ∨ Lists es p r := by
          simp only [Lists, Option.toList_some, List.cons_append, List.nil_append, List.mem_cons, exists_eq_or_imp]
        rw [this, h2]
      · rw [h6, addRunes_names]
        simp only [Option.toList_some, List.cons_append, List.nil_append, List.mem_cons, exists_eq_or_imp]
        by_cases hp : String.ofList n ∈ m.map (·.1)
        · rw [if_pos hp]
          constructor
          · rintro (h | h)
            · exact .inl h
            · exact .inr (.inr h)
          · rintro (h | h | h)
            · exact .inl h
            · exact .inl (h ▸ hp)
            · exact .inr h
        · rw [if_neg hp, List.mem_append, List.mem_singleton, or_assoc]
          constructor
          · rintro (h | h | h)
            · exact .inl h
            · exact .inr (.inl h.symm)
            · exact .inr (.inr h)
          · rintro (h | h | h)
            · exact .inl h
            · exact .inr (.inl h.symm)
            · exact .inr (.inr h)

end Uax29.Spec.PropFile
