import Verif.Proofs.GenParse
import Verif.Spec.PropLine
/-! # Any text as a property file -/
namespace Uax29.Spec.PropFile
open Gen

/-! ## Cutting -/

theorem Cut.exists (sep : List Char) (h : sep ≠ []) : ∀ s : List Char, ∃ p r, Cut sep s p r
  | [] => ⟨[], none, rfl, fun hi => h (List.infix_nil.mp hi)⟩
  | c :: s => by
    by_cases hp : sep <+: c :: s
    · obtain ⟨t, ht⟩ := hp
      refine ⟨[], some t, by simp [ht], fun hi => ?_⟩
      have h1 := hi.length_le
      have : 0 < sep.length := List.length_pos_iff.mpr h
      simp at h1
      omega
    · obtain ⟨p, r, hc⟩ := Cut.exists sep h s
      refine ⟨c :: p, r, ?_⟩
      cases r with
      | none =>
        obtain ⟨rfl, hn⟩ := hc
        refine ⟨rfl, fun hi => ?_⟩
        rcases List.infix_cons_iff.mp hi with hi | hi
        · exact hp hi
        · exact hn hi
      | some t =>
        obtain ⟨rfl, hn⟩ := hc
        refine ⟨by simp, fun hi => ?_⟩
        rw [List.cons_append] at hi
        rcases List.infix_cons_iff.mp hi with hi | hi
        · refine hp (hi.trans ?_)
          obtain ⟨u, hu⟩ := List.dropLast_prefix sep
          refine ⟨u ++ t, ?_⟩
          conv => rhs; rw [← hu]
          simp
        · exact hn hi

theorem singleton_infix {c : Char} {s : List Char} : [c] <:+: s ↔ c ∈ s := by
  constructor
  · rintro ⟨a, b, rfl⟩; simp
  · intro h
    obtain ⟨a, b, rfl⟩ := List.append_of_mem h
    exact ⟨a, b, by simp⟩

theorem Cut.char {c : Char} {s p : List Char} {r : Option (List Char)} (h : Cut [c] s p r) :
    splitChar c s = p :: match r with | none => [] | some t => splitChar c t := by
  cases r with
  | none =>
    obtain ⟨rfl, hn⟩ := h
    exact splitChar_none fun hm => hn (singleton_infix.mpr hm)
  | some t =>
    obtain ⟨rfl, hn⟩ := h
    have : c ∉ p := fun hm => hn (by simpa using singleton_infix.mpr hm)
    simpa using splitChar_mid this t

theorem splitDots_step {c : Char} {s : List Char} (h : ¬ ['.', '.'] <+: c :: s) {p : List Char} {ps : List (List Char)}
    (hs : splitDots s = p :: ps) : splitDots (c :: s) = (c :: p) :: ps := by
  rw [splitDots.eq_3 c s (fun t e e' => h ⟨t, by subst e; subst e'; rfl⟩), hs]

theorem splitDots_no : ∀ {s : List Char}, ¬ ['.', '.'] <:+: s → splitDots s = [s]
  | [], _ => rfl
  | c :: s, h => splitDots_step (fun hp => h hp.isInfix) (splitDots_no fun hi => h (hi.trans (List.suffix_cons c s).isInfix))

theorem splitDots_first (t : List Char) : ∀ {p : List Char}, ¬ ['.', '.'] <:+: p ++ ['.'] →
    splitDots (p ++ '.' :: '.' :: t) = p :: splitDots t
  | [], _ => by rw [List.nil_append, splitDots]
  | c :: p, h => by
    rw [List.cons_append]
    refine splitDots_step (fun hp => h ?_) (splitDots_first t fun hi => h (hi.trans (List.suffix_cons c _).isInfix))
    obtain ⟨u, hu⟩ := hp
    cases p with
    | nil => simp at hu; obtain ⟨rfl, _⟩ := hu; exact List.infix_refl _
    | cons d p =>
      simp at hu
      obtain ⟨rfl, rfl, _⟩ := hu
      exact ⟨[], p ++ ['.'], by simp⟩

theorem Cut.dots {s p : List Char} {r : Option (List Char)} (h : Cut ['.', '.'] s p r) :
    splitDots s = p :: match r with | none => [] | some t => splitDots t := by
  cases r with
  | none =>
    obtain ⟨rfl, hn⟩ := h
    exact splitDots_no hn
  | some t =>
    obtain ⟨rfl, hn⟩ := h
    simpa using splitDots_first t (p := p) hn

/-! ## Trimming -/

theorem isSpace_iff (c : Char) : isSpace c = true ↔ White c := by
  have h1 : c = ' ' ↔ c.toNat = 0x20 := by
    constructor
    · rintro rfl; rfl
    · intro h; exact Char.toNat_inj.mp h
  have h2 : '\t' ≤ c ↔ 9 ≤ c.toNat := Iff.rfl
  have h3 : c ≤ '\r' ↔ c.toNat ≤ 13 := Iff.rfl
  simp only [isSpace, White, h1, h2, h3, Bool.or_eq_true, Bool.and_eq_true, decide_eq_true_eq, List.mem_cons,
    List.not_mem_nil, or_false]
  omega

theorem Trimmed.eq {s t : List Char} (h : Trimmed s t) : trimSpace s = t := by
  obtain ⟨a, b, rfl, ha, hb, h1, h2⟩ := h
  have ha' : ∀ c ∈ a, isSpace c = true := fun c hc => (isSpace_iff c).mpr (ha c hc)
  have hb' : ∀ c ∈ b, isSpace c = true := fun c hc => (isSpace_iff c).mpr (hb c hc)
  unfold trimSpace
  by_cases ht : t = []
  · subst ht
    rw [List.append_nil, ← List.append_nil (a ++ b), dropWhile_blank]
    · rfl
    · intro c hc
      rcases List.mem_append.mp hc with hc | hc
      · exact ha' c hc
      · exact hb' c hc
    · intro c hc; cases hc
  · rw [List.append_assoc, dropWhile_blank ha', List.reverse_append, dropWhile_blank, List.reverse_reverse]
    · intro c hc; exact hb' c (List.mem_reverse.mp hc)
    · intro c hc
      rw [List.head?_reverse] at hc
      rw [Bool.eq_false_iff]
      exact fun hs => h2 c hc ((isSpace_iff c).mp hs)
    · intro c hc
      cases t with
      | nil => exact absurd rfl ht
      | cons x t =>
        simp only [List.cons_append, List.head?_cons, Option.mem_some_iff] at hc
        subst hc
        rw [Bool.eq_false_iff]
        exact fun hs => h1 x rfl ((isSpace_iff x).mp hs)

theorem dropWhile_split (s : List Char) : ∃ a, s = a ++ s.dropWhile isSpace ∧ (∀ c ∈ a, White c)
    ∧ ∀ c, (s.dropWhile isSpace).head? = some c → ¬ White c := by
  induction s with
  | nil => exact ⟨[], rfl, (fun _ h => by cases h), (fun _ h => by cases h)⟩
  | cons x s ih =>
    by_cases hx : isSpace x = true
    · obtain ⟨a, h1, h2, h3⟩ := ih
      rw [List.dropWhile_cons_of_pos hx]
      refine ⟨x :: a, by rw [List.cons_append, ← h1], fun c hc => ?_, h3⟩
      rcases List.mem_cons.mp hc with rfl | hc
      · exact (isSpace_iff _).mp hx
      · exact h2 c hc
    · rw [List.dropWhile_cons_of_neg hx]
      refine ⟨[], rfl, (fun _ h => by cases h), fun c hc => ?_⟩
      simp only [List.head?_cons, Option.some.injEq] at hc
      subst hc
      exact fun hw => hx ((isSpace_iff _).mpr hw)

theorem Trimmed.exists (s : List Char) : ∃ t, Trimmed s t := by
  obtain ⟨a, h1, h2, h3⟩ := dropWhile_split s
  generalize s.dropWhile isSpace = m at *
  obtain ⟨b, h4, h5, h6⟩ := dropWhile_split m.reverse
  generalize m.reverse.dropWhile isSpace = t at *
  have hm : m = t.reverse ++ b.reverse := by rw [← List.reverse_append, ← h4, List.reverse_reverse]
  refine ⟨t.reverse, a, b.reverse, by rw [h1, hm, List.append_assoc], h2, fun c hc => h5 c (List.mem_reverse.mp hc),
    fun c hc => ?_, fun c hc => h6 c (by rw [List.getLast?_reverse] at hc; exact hc)⟩
  refine h3 c ?_
  rw [hm, List.head?_append, hc]
  rfl

/-! ## Numbers -/

theorem Literal.facts {s : List Char} {n : Nat} (h : Literal s n) : s ≠ []
    ∧ (∀ t, underscoreOK true (s ++ t) = underscoreOK true t) ∧ (hexLoop s 0 = if n < 2 ^ 32 then some n else none) := by
  have key : ∀ {c : Char} {d : Nat}, Digit c d → ∀ n, (hexLoop [c] n = if 16 * n + d < 2 ^ 32 then some (16 * n + d) else none)
      ∧ (hexLoop ['_', c] n = if 16 * n + d < 2 ^ 32 then some (16 * n + d) else none) := by
    intro c d hd n
    have h := hd.cases
    have : hexLoop [c] n = if 16 * n + d < 2 ^ 32 then some (16 * n + d) else none := by
      rw [hexLoop, if_neg h.2.1, h.1]
      simp only [hexLoop]
      by_cases hn : 16 * n + d < 2 ^ 32
      · rw [if_neg (by omega), if_pos hn]; congr 1; omega
      · rw [if_pos (by omega), if_neg hn]
    refine ⟨this, ?_⟩
    rw [hexLoop, if_pos rfl, this]
  induction h with
  | one hd =>
    have h := hd.cases
    exact ⟨by simp, fun t => by simp [underscoreOK, h.2.1], by have := (key hd 0).1; rwa [Nat.mul_zero, Nat.zero_add] at this⟩
  | under hd =>
    have h := hd.cases
    exact ⟨by simp, fun t => by simp [underscoreOK, h.2.1], by have := (key hd 0).2; rwa [Nat.mul_zero, Nat.zero_add] at this⟩
  | more _ hd ih =>
    have h := hd.cases
    refine ⟨by simp, fun t => ?_, ?_⟩
    · rw [List.append_assoc, ih.2.1]; simp [underscoreOK, h.2.1]
    · rw [hexLoop_append, ih.2.2]
      split
      · exact (key hd _).1
      · rw [if_neg (by omega)]; rfl
  | moreUnder _ hd ih =>
    have h := hd.cases
    refine ⟨by simp, fun t => ?_, ?_⟩
    · rw [List.append_assoc, ih.2.1]; simp [underscoreOK, h.2.1]
    · rw [hexLoop_append, ih.2.2]
      split
      · exact (key hd _).2
      · rw [if_neg (by omega)]; rfl

theorem hexDigit_digit {c : Char} {d : Nat} (h : hexDigit c = some d) : Digit c d := by
  have hc : c = Char.ofNat c.toNat := by simp
  unfold hexDigit at h
  split at h
  · rename_i hr
    have h1 : 48 ≤ c.toNat := hr.1
    have h2 : c.toNat ≤ 57 := hr.2
    cases h
    left
    have : ∀ d < 10, "0123456789abcdef".toList[d]? = some (Char.ofNat (48 + d)) := by decide
    rw [this _ (by omega), show 48 + (c.toNat - 48) = c.toNat by omega, ← hc]
  · split at h
    · rename_i hr
      have h1 : 97 ≤ c.toNat := hr.1
      have h2 : c.toNat ≤ 102 := hr.2
      cases h
      left
      have : ∀ d < 6, "0123456789abcdef".toList[10 + d]? = some (Char.ofNat (97 + d)) := by decide
      rw [show c.toNat - 87 = 10 + (c.toNat - 97) by omega, this _ (by omega), show 97 + (c.toNat - 97) = c.toNat by omega, ← hc]
    · split at h
      · rename_i hr
        have h1 : 65 ≤ c.toNat := hr.1
        have h2 : c.toNat ≤ 70 := hr.2
        cases h
        right
        have : ∀ d < 6, "0123456789ABCDEF".toList[10 + d]? = some (Char.ofNat (65 + d)) := by decide
        rw [show c.toNat - 55 = 10 + (c.toNat - 65) by omega, this _ (by omega), show 65 + (c.toNat - 65) = c.toNat by omega, ← hc]
      · cases h

theorem hexLoop_digit {c : Char} {s : List Char} {m n : Nat} (hc : c ≠ '_') (h : hexLoop (c :: s) m = some n) :
    ∃ d, Digit c d ∧ hexLoop s (16 * m + d) = some n := by
  rw [hexLoop, if_neg hc] at h
  split at h
  · cases h
  · rename_i d hd
    split at h
    · cases h
    · exact ⟨d, hexDigit_digit hd, by rw [Nat.mul_comm]; exact h⟩

theorem literal_of (n : Nat) : ∀ (k : Nat) (s pre : List Char) (m : Nat), s.length ≤ k → Literal pre m →
    hexLoop s m = some n → underscoreOK true s = true → Literal (pre ++ s) n
  | _, [], pre, m, _, hp, h, _ => by
    simp only [hexLoop, Option.some.injEq] at h
    subst h
    rwa [List.append_nil]
  | 0, _ :: _, _, _, hk, _, _, _ => by simp at hk
  | k + 1, c :: s, pre, m, hk, hp, h, hu => by
    simp only [List.length_cons] at hk
    by_cases hc : c = '_'
    · subst hc
      rw [hexLoop, if_pos rfl] at h
      rw [underscoreOK, if_pos rfl, Bool.true_and] at hu
      cases s with
      | nil => simp [underscoreOK] at hu
      | cons c s =>
        by_cases hc : c = '_'
        · simp [underscoreOK, hc] at hu
        · obtain ⟨d, hd, h⟩ := hexLoop_digit hc h
          rw [underscoreOK, if_neg hc] at hu
          have := literal_of n k s _ _ (by simp only [List.length_cons] at hk; omega) (.moreUnder hp hd) h hu
          simpa using this
    · obtain ⟨d, hd, h⟩ := hexLoop_digit hc h
      rw [underscoreOK, if_neg hc] at hu
      have := literal_of n k s _ _ (by omega) (.more hp hd) h hu
      simpa using this

theorem underscoreOK_none : ∀ {s : List Char}, '_' ∉ s → underscoreOK true s = true
  | [], _ => rfl
  | c :: s, h => by
    rw [underscoreOK, if_neg (fun e => h (by simp [e]))]
    exact underscoreOK_none fun e => h (List.mem_cons_of_mem _ e)

theorem parseHex_iff {s : List Char} {n : Nat} : parseHex s = some n ↔ Number s n := by
  constructor
  · intro h
    unfold parseHex at h
    split at h
    · cases h
    · rename_i hne
      split at h
      · cases h
      · rename_i m hm
        split at h
        · cases h
        · rename_i hu
          split at h
          · cases h
          · rename_i hlt
            cases h
            refine ⟨?_, by omega⟩
            have hu' : underscoreOK true s = true := by
              by_cases hc : '_' ∈ s
              · simpa [hc] using hu
              · exact underscoreOK_none hc
            cases s with
            | nil => exact absurd rfl hne
            | cons c s =>
              by_cases hc : c = '_'
              · subst hc
                rw [hexLoop, if_pos rfl] at hm
                rw [underscoreOK, if_pos rfl, Bool.true_and] at hu'
                cases s with
                | nil => simp [underscoreOK] at hu'
                | cons c s =>
                  by_cases hc : c = '_'
                  · simp [underscoreOK, hc] at hu'
                  · obtain ⟨d, hd, hm⟩ := hexLoop_digit hc hm
                    rw [underscoreOK, if_neg hc] at hu'
                    rw [Nat.mul_zero, Nat.zero_add] at hm
                    exact literal_of n _ s _ _ (Nat.le_refl _) (.under hd) hm hu'
              · obtain ⟨d, hd, hm⟩ := hexLoop_digit hc hm
                rw [underscoreOK, if_neg hc] at hu'
                rw [Nat.mul_zero, Nat.zero_add] at hm
                exact literal_of n _ s _ _ (Nat.le_refl _) (.one hd) hm hu'
  · rintro ⟨h, hn⟩
    obtain ⟨h1, h2, h3⟩ := h.facts
    have h4 := h2 []
    rw [List.append_nil] at h4
    unfold parseHex
    rw [if_neg h1, h3, if_pos (by omega)]
    simp only
    rw [if_neg (by rw [h4]; simp [underscoreOK]), if_neg (by omega)]

theorem parseHex_none {s : List Char} (h : ∀ n, ¬ Number s n) : parseHex s = none := by
  cases hp : parseHex s with
  | none => rfl
  | some n => exact absurd (parseHex_iff.mp hp) (h n)

/-! ## Fields -/

theorem Codes.exists (s : List Char) : ∃ k, Codes s k := by
  obtain ⟨p, x, hc⟩ := Cut.exists ['.', '.'] (by simp) s
  by_cases hp : ∃ n, Number p n
  · obtain ⟨n, hn⟩ := hp
    cases x with
    | none => exact ⟨_, .one hc hn⟩
    | some r =>
      obtain ⟨q, y, hq⟩ := Cut.exists ['.', '.'] (by simp) r
      by_cases hm : ∃ m, Number q m
      · obtain ⟨m, hm⟩ := hm
        exact ⟨_, .two hc hn hq hm⟩
      · exact ⟨_, .second hc hq fun m h => hm ⟨m, h⟩⟩
  · exact ⟨_, .first hc fun n h => hp ⟨n, h⟩⟩

theorem range_none {f t : List Char} (ht : Trimmed f t) (h : Codes t none) : getRuneRange f = .ok none := by
  unfold getRuneRange
  rw [ht.eq]
  cases h with
  | first hc hn =>
    rw [hc.dots]
    simp only [parseHex_none hn]
  | second hc hq hn =>
    rw [hc.dots]
    simp only [hq.dots, parseHex_none hn]
    split <;> rfl

theorem range_some {f t : List Char} {lo hi : Nat} (ht : Trimmed f t) (h : Codes t (some (lo, hi))) :
    if lo ≠ hi ∧ hi = 2 ^ 31 - 1 then getRuneRange f = .error .diverge
    else ∃ runes, getRuneRange f = .ok (some runes) ∧ ∀ x, x ∈ runes ↔ x = lo ∨ (lo ≤ x ∧ x ≤ hi) := by
  unfold getRuneRange
  rw [ht.eq]
  cases h with
  | one hc hn =>
    rw [if_neg (by simp), hc.dots]
    simp only [parseHex_iff.mpr hn]
    exact ⟨_, rfl, fun x => by rw [List.mem_singleton]; omega⟩
  | two hc hn hq hm =>
    rw [hc.dots]
    simp only [parseHex_iff.mpr hn, hq.dots, parseHex_iff.mpr hm]
    by_cases he : hi = lo
    · rw [if_neg (fun h => h.1 he.symm), if_pos he]
      exact ⟨_, rfl, fun x => by rw [List.mem_singleton]; omega⟩
    · rw [if_neg he]
      by_cases hd : hi = 2 ^ 31 - 1
      · rw [if_pos ⟨fun e => he e.symm, hd⟩, if_pos hd]
      · rw [if_neg (fun h => hd h.2), if_neg hd]
        refine ⟨_, rfl, fun x => ?_⟩
        rw [List.mem_cons, List.mem_range'_1]
        omega

theorem Codes.bound {s : List Char} {lo hi : Nat} (h : Codes s (some (lo, hi))) : lo < 2 ^ 31 ∧ hi < 2 ^ 31 := by
  cases h with
  | one _ hn => exact ⟨hn.2, hn.2⟩
  | two _ hn _ hm => exact ⟨hn.2, hm.2⟩

/-! ## Lines -/

theorem Named.exists (s : List Char) : ∃ n, Named s n := by
  obtain ⟨p, x, hc⟩ := Cut.exists ['#'] (by simp) s
  obtain ⟨n, hn⟩ := Trimmed.exists p
  exact ⟨n, p, x, hc, hn⟩

theorem Named.eq {s n : List Char} (h : Named s n) : beforeHash s = .ok n := by
  obtain ⟨p, x, hc, hn⟩ := h
  unfold beforeHash
  rw [hc.char]
  simp only [hn.eq]

theorem Reads.exists (l : List Char) : ∃ o, Reads l o := by
  by_cases hs : ∃ c, l.head? = some c ∧ (c = '\n' ∨ c = '#')
  · obtain ⟨c, h1, h2⟩ := hs
    exact ⟨_, .skip h1 h2⟩
  · obtain ⟨f, x, hf⟩ := Cut.exists [';'] (by simp) l
    obtain ⟨t, ht⟩ := Trimmed.exists f
    obtain ⟨k, hk⟩ := Codes.exists t
    have hst : Starts l k x := ⟨fun c hc => ⟨fun e => hs ⟨c, hc, .inl e⟩, fun e => hs ⟨c, hc, .inr e⟩⟩, f, t, hf, ht, hk⟩
    cases k with
    | none => exact ⟨_, .refused hst⟩
    | some k =>
      obtain ⟨lo, hi⟩ := k
      by_cases he : lo ≠ hi ∧ hi = 2 ^ 31 - 1
      · exact ⟨_, .endless hst he.1 he.2⟩
      · have he' : lo = hi ∨ hi ≠ 2 ^ 31 - 1 := by omega
        cases x with
        | none => exact ⟨_, .crash hst he'⟩
        | some r =>
          obtain ⟨g, y, hg⟩ := Cut.exists [';'] (by simp) r
          cases y with
          | none =>
            obtain ⟨n, hn⟩ := Named.exists r
            exact ⟨_, .value hst he' (fun hm => hg.2 (singleton_infix.mpr hm)) hn⟩
          | some r' =>
            obtain ⟨n, hn⟩ := Trimmed.exists g
            obtain ⟨u, z, hu⟩ := Cut.exists [';'] (by simp) r'
            obtain ⟨v, hv⟩ := Named.exists u
            exact ⟨_, .propertyValue hst he' hg hn hu hv⟩

/-- How the model shows that reading stops. -/
def stopRes {α : Type} : Stop → Res (Option α)
  | .refused => .ok none
  | .crash => .error .bounds
  | .endless => .error .diverge

theorem Reads.parse {l : List Char} {o : Except Stop (Option (List Char × Nat × Nat))} (h : Reads l o) :
    match o with
    | .ok none => ∃ c, l.head? = some c ∧ (c = '\n' ∨ c = '#')
    | .ok (some (n, lo, hi)) => (∀ c, l.head? = some c → c ≠ '\n' ∧ c ≠ '#')
      ∧ ∃ runes, parseLine l = .ok (some (n, runes)) ∧ ∀ x, x ∈ runes ↔ x = lo ∨ (lo ≤ x ∧ x ≤ hi)
    | .error s => (∀ c, l.head? = some c → c ≠ '\n' ∧ c ≠ '#') ∧ parseLine l = stopRes s := by
  cases h with
  | skip h1 h2 => exact ⟨_, h1, h2⟩
  | refused h =>
    obtain ⟨h1, f, t, hf, ht, hk⟩ := h
    refine ⟨h1, ?_⟩
    unfold parseLine
    rw [hf.char]
    simp only [range_none ht hk]
    rfl
  | endless h h2 h3 =>
    obtain ⟨h1, f, t, hf, ht, hk⟩ := h
    have := range_some ht hk
    rw [if_pos ⟨h2, h3⟩] at this
    refine ⟨h1, ?_⟩
    unfold parseLine
    rw [hf.char]
    simp only [this]
    rfl
  | crash h h2 =>
    obtain ⟨h1, f, t, hf, ht, hk⟩ := h
    have := range_some ht hk
    rw [if_neg (by omega)] at this
    obtain ⟨runes, hr, _⟩ := this
    refine ⟨h1, ?_⟩
    unfold parseLine
    rw [hf.char]
    simp only [hr]
    rfl
  | value h h2 h3 h4 =>
    obtain ⟨h1, f, t, hf, ht, hk⟩ := h
    have := range_some ht hk
    rw [if_neg (by omega)] at this
    obtain ⟨runes, hr, hx⟩ := this
    refine ⟨h1, runes, ?_, hx⟩
    unfold parseLine
    rw [hf.char]
    simp only [hr, splitChar_none h3, h4.eq]
  | propertyValue h h2 h3 h4 h5 h6 =>
    obtain ⟨h1, f, t, hf, ht, hk⟩ := h
    have := range_some ht hk
    rw [if_neg (by omega)] at this
    obtain ⟨runes, hr, hx⟩ := this
    refine ⟨h1, runes, ?_, hx⟩
    unfold parseLine
    rw [hf.char]
    simp only [hr, h3.char, h5.char, h6.eq, h4.eq]

theorem Reads.bound {l n : List Char} {lo hi : Nat} (h : Reads l (.ok (some (n, lo, hi)))) : lo < 2 ^ 31 ∧ hi < 2 ^ 31 := by
  cases h with
  | value h _ _ _ =>
    obtain ⟨_, _, _, _, _, hk⟩ := h
    exact hk.bound
  | propertyValue h _ _ _ _ _ =>
    obtain ⟨_, _, _, _, _, hk⟩ := h
    exact hk.bound

/-! ## Files -/

theorem ReadsAll.exists : ∀ ls : List (List Char), ∃ r, ReadsAll ls r
  | [] => ⟨_, .nil⟩
  | l :: ls => by
    obtain ⟨o, ho⟩ := Reads.exists l
    cases o with
    | error s => exact ⟨_, .stop ho⟩
    | ok o =>
      obtain ⟨r, hr⟩ := ReadsAll.exists ls
      cases r with
      | error s => exact ⟨_, .later ho hr⟩
      | ok es => exact ⟨_, .next ho hr⟩

theorem Lines.exists (text : List Char) : ∃ ls, Lines text ls := by
  induction h : text.length using Nat.strongRecOn generalizing text with
  | _ n ih =>
    obtain ⟨p, x, hc⟩ := Cut.exists ['\n'] (by simp) text
    cases x with
    | none =>
      obtain ⟨rfl, hn⟩ := hc
      exact ⟨[], text, rfl, fun hm => hn (singleton_infix.mpr hm), fun _ h => by cases h⟩
    | some r =>
      obtain ⟨rfl, hn⟩ := hc
      obtain ⟨ls, tail, h1, h2, h3⟩ := ih r.length (by rw [← h]; simp; omega) r rfl
      refine ⟨(p ++ ['\n']) :: ls, tail, by rw [h1]; simp, h2, fun l hl => ?_⟩
      rcases List.mem_cons.mp hl with rfl | hl
      · exact ⟨p, rfl, fun hm => hn (by simpa using singleton_infix.mpr hm)⟩
      · exact h3 l hl

theorem readLines_none : ∀ {s cur : List Char}, '\n' ∉ s → readLines cur s = []
  | [], _, _ => rfl
  | c :: s, cur, h => by
    rw [readLines, if_neg (fun e => h (by simp [e]))]
    exact readLines_none fun e => h (List.mem_cons_of_mem _ e)

theorem Lines.eq {text : List Char} {ls : List (List Char)} (h : Lines text ls) : readLines [] text = ls := by
  obtain ⟨tail, rfl, h2, h3⟩ := h
  induction ls with
  | nil => exact readLines_none h2
  | cons l ls ih =>
    obtain ⟨s, rfl, hs⟩ := h3 l List.mem_cons_self
    have := readLines_line (ls.flatten ++ tail) s [] hs
    rw [show ((s ++ ['\n']) :: ls).flatten ++ tail = s ++ '\n' :: (ls.flatten ++ tail) by simp, this,
      ih fun l hl => h3 l (List.mem_cons_of_mem _ hl)]
    simp

/-- The runes that an entry lists. -/
theorem ReadsAll.read {ls : List (List Char)} (hne : ∀ l ∈ ls, l ≠ []) {r : Except Stop (List (List Char × Nat × Nat))} (h : ReadsAll ls r) :
    ∀ m : List (String × List Nat), (m.map (·.1)).Nodup → match r with
    | .error s => readProps ls m = stopRes s
    | .ok es => ∃ m', readProps ls m = .ok (some m') ∧ (m'.map (·.1)).Nodup
      ∧ (∀ p x, Listed m' p x ↔ Listed m p x ∨ ∃ e ∈ es, String.ofList e.1 = p ∧ (x = e.2.1 ∨ (e.2.1 ≤ x ∧ x ≤ e.2.2)))
      ∧ ∀ p, p ∈ m'.map (·.1) ↔ p ∈ m.map (·.1) ∨ ∃ e ∈ es, String.ofList e.1 = p := by
  have hskip : ∀ {l : List Char} {ls m}, (∃ c, l.head? = some c ∧ (c = '\n' ∨ c = '#')) → readProps (l :: ls) m = readProps ls m := by
    intro l ls m h
    obtain ⟨c, h1, h2⟩ := h
    have : l ≠ [] := by rintro rfl; cases h1
    rw [readProps, if_neg this, if_pos (by rcases h2 with rfl | rfl <;> simp [h1])]
  have hgo : ∀ {l : List Char}, l ≠ [] → (∀ c, l.head? = some c → c ≠ '\n' ∧ c ≠ '#') →
      ¬ (l.head? = some '\n' ∨ l.head? = some '#') := by
    intro l _ h h'
    rcases h' with h' | h'
    · exact (h _ h').1 rfl
    · exact (h _ h').2 rfl
  induction h with
  | nil =>
    intro m hm
    exact ⟨m, rfl, hm, fun p x => by simp, fun p => by simp⟩
  | @stop l ls s h =>
    intro m hm
    have hl := hne l List.mem_cons_self
    obtain ⟨h1, h2⟩ := h.parse
    rw [readProps, if_neg hl, if_neg (hgo hl h1), h2]
    cases s <;> rfl
  | @next l ls o es h _ ih =>
    intro m hm
    have hl := hne l List.mem_cons_self
    have ih := ih fun l hl => hne l (List.mem_cons_of_mem _ hl)
    cases o with
    | none =>
      have := h.parse
      simp only [hskip this]
      exact ih m hm
    | some e =>
      obtain ⟨n, lo, hi⟩ := e
      obtain ⟨h1, runes, h2, h3⟩ := h.parse
      obtain ⟨m', g1, g2, g3, g4⟩ := ih (addRunes (String.ofList n) runes m) (by rw [addRunes_names]; exact nodup_add hm)
      refine ⟨m', ?_, g2, fun p x => ?_, fun p => ?_⟩
      · rw [readProps, if_neg hl, if_neg (hgo hl h1), h2]
        exact g1
      · rw [g3, addRunes_listed, h3, or_assoc]
        simp
      · rw [g4, addRunes_names]
        simp only [Option.toList_some, List.cons_append, List.nil_append, List.mem_cons, exists_eq_or_imp]
        split
        · rename_i hmem
          constructor
          · rintro (h | h)
            · exact .inl h
            · exact .inr (.inr h)
          · rintro (h | h | h)
            · exact .inl h
            · exact .inl (h ▸ hmem)
            · exact .inr h
        · rw [List.mem_append, List.mem_singleton, or_assoc, eq_comm (a := p)]
  | @later l ls o s h _ ih =>
    intro m hm
    have hl := hne l List.mem_cons_self
    have ih := ih fun l hl => hne l (List.mem_cons_of_mem _ hl)
    cases o with
    | none =>
      have := h.parse
      simp only [hskip this]
      exact ih m hm
    | some e =>
      obtain ⟨n, lo, hi⟩ := e
      obtain ⟨h1, runes, h2, h3⟩ := h.parse
      have := ih (addRunes (String.ofList n) runes m) (by rw [addRunes_names]; exact nodup_add hm)
      simp only
      rw [readProps, if_neg hl, if_neg (hgo hl h1), h2]
      exact this

theorem Lines.ne {text : List Char} {ls : List (List Char)} (h : Lines text ls) : ∀ l ∈ ls, l ≠ [] := by
  intro l hl
  obtain ⟨_, _, _, h3⟩ := h
  obtain ⟨s, rfl, _⟩ := h3 l hl
  simp

/-! ## Files in the format -/

theorem Trimmed.of {a s b : List Char} (ha : ∀ c ∈ a, isSpace c = true) (hb : ∀ c ∈ b, isSpace c = true)
    (hs : ∀ c ∈ s, isSpace c = false) : Trimmed (a ++ s ++ b) s := by
  have hw : ∀ c ∈ s, ¬ White c := fun c hc h => by
    have h1 := hs c hc
    rw [(isSpace_iff c).mpr h] at h1
    cases h1
  exact ⟨a, b, rfl, fun c hc => (isSpace_iff c).mp (ha c hc), fun c hc => (isSpace_iff c).mp (hb c hc),
    fun c hc => hw c (List.mem_of_mem_head? hc), fun c hc => hw c (List.mem_of_getLast? hc)⟩

theorem Hex.literal {s : List Char} {n : Nat} (h : Hex s n) : Literal s n := by
  induction h with
  | one hd => exact .one hd
  | more _ hd ih => exact .more ih hd

theorem no_dots {s : List Char} (h : '.' ∉ s) : ¬ ['.', '.'] <:+: s :=
  fun hi => h (hi.subset List.mem_cons_self)

theorem Range.codes {r : List Char} {lo hi : Nat} (h : Range r lo hi) (hhi : hi ≤ 0x10FFFF) : Codes r (some (lo, hi)) := by
  cases h with
  | one h => exact .one ⟨rfl, no_dots fun hc => (h.plain _ hc).2.1 rfl⟩ ⟨h.literal, by omega⟩
  | two h1 h2 hle =>
    refine .two (r := _) ⟨by rw [List.append_assoc]; rfl, fun hi => ?_⟩ ⟨h1.literal, by omega⟩
      (x := none) ⟨rfl, no_dots fun hc => (h2.plain _ hc).2.1 rfl⟩ ⟨h2.literal, by omega⟩
    obtain ⟨a, b, hab⟩ := hi
    have hnd : '.' ∉ _ := fun hc => (h1.plain _ hc).2.1 rfl
    have h3 : ∀ s : List Char, '.' ∉ s → (a ++ ['.', '.'] ++ b) ≠ s ++ ['.'] := by
      intro s hs e
      have := congrArg (List.count '.') e
      simp only [List.count_append, List.count_eq_zero.mpr hs, List.count_cons, List.count_nil] at this
      simp at this
      omega
    exact h3 _ hnd hab

theorem Cut.mk_char {c : Char} {p t : List Char} (h : c ∉ p) : Cut [c] (p ++ c :: t) p (some t) :=
  ⟨by simp, fun hi => h (singleton_infix.mp (by simpa using hi))⟩

theorem Named.of {a n b k : List Char} (ha : Blank a) (hn : Name n) (hb : Blank b) (hk : Comment k) :
    Named (a ++ n ++ b ++ k ++ ['\n']) n := by
  have h1 : '#' ∉ a ++ n ++ b := by
    simp only [List.mem_append, not_or]
    exact ⟨⟨ha.notMem (by decide) (by decide), hn.facts.2.2.2⟩, hb.notMem (by decide) (by decide)⟩
  rcases hk with rfl | ⟨t, rfl⟩
  · refine ⟨_, none, ⟨rfl, fun hi => ?_⟩, ?_⟩
    · have := singleton_infix.mp hi
      rw [List.append_nil, List.mem_append] at this
      rcases this with h | h
      · exact h1 h
      · revert h; decide
    · rw [List.append_nil, List.append_assoc (a ++ n)]
      refine Trimmed.of ha.space (fun c hc => ?_) hn.facts.2.1
      rcases List.mem_append.mp hc with hc | hc
      · exact hb.space c hc
      · exact newline_space c hc
  · refine ⟨_, some (t ++ ['\n']), ?_, Trimmed.of ha.space hb.space hn.facts.2.1⟩
    · have := Cut.mk_char (t := t ++ ['\n']) h1
      simpa using this

theorem Line.reads {l : List Char} {o : Option (List Char × Nat × Nat)} (h : Line l o) : Reads (l ++ ['\n']) (.ok o) := by
  cases o with
  | none =>
    cases h with
    | empty => exact .skip (c := '\n') rfl (.inl rfl)
    | comment => exact .skip (c := '#') rfl (.inr rfl)
  | some e =>
    obtain ⟨n, lo, hi⟩ := e
    have hhead : ∀ c, (l ++ ['\n']).head? = some c → c ≠ '\n' ∧ c ≠ '#' := by
      obtain ⟨c, s, rfl, h1, h2⟩ := h.head
      intro x hx
      simp only [List.cons_append, List.head?_cons, Option.some.injEq] at hx
      exact hx ▸ ⟨h1, h2⟩
    have hsemi : ∀ {a r b : List Char}, Blank a → Range r lo hi → Blank b → ';' ∉ a ++ r ++ b := by
      intro a r b ha hr hb
      simp only [List.mem_append, not_or]
      exact ⟨⟨ha.notMem (by decide) (by decide), fun hc => (hr.facts.2.2 _ hc).2.1 rfl⟩, hb.notMem (by decide) (by decide)⟩
    cases h with
    | @value a r _ _ b c _ d k ha hr hhi hb hc hn hd hk hk' =>
      refine .value (r := c ++ n ++ d ++ k ++ ['\n']) ⟨hhead, a ++ r ++ b, r, ?_,
        Trimmed.of ha.space hb.space fun c hc => (hr.facts.2.2 c hc).1, hr.codes hhi⟩ (.inr (by omega)) ?_
        (Named.of hc hn hd hk)
      · have := Cut.mk_char (t := c ++ n ++ d ++ k ++ ['\n']) (hsemi ha hr hb)
        simpa using this
      · simp only [List.mem_append, not_or]
        exact ⟨⟨⟨⟨hc.notMem (by decide) (by decide), hn.facts.2.2.1⟩, hd.notMem (by decide) (by decide)⟩, hk'⟩, by decide⟩
    | @propertyValue a r _ _ b c p d e v f k ha hr hhi hb hc hn hd he hv hf hk =>
      have h3 : ';' ∉ c ++ p ++ d := by
        simp only [List.mem_append, not_or]
        exact ⟨⟨hc.notMem (by decide) (by decide), hn.facts.2.2.1⟩, hd.notMem (by decide) (by decide)⟩
      have h4 : ';' ∉ e ++ v ++ f := by
        simp only [List.mem_append, not_or]
        exact ⟨⟨he.notMem (by decide) (by decide), hv.facts.2.2.1⟩, hf.notMem (by decide) (by decide)⟩
      have h5 : ∃ u x, Cut [';'] (e ++ v ++ f ++ k ++ ['\n']) u x ∧ Named u v := by
        obtain ⟨u, x, hu⟩ := Cut.exists [';'] (by simp) (e ++ v ++ f ++ k ++ ['\n'])
        refine ⟨u, x, hu, ?_⟩
        cases x with
        | none =>
          obtain ⟨rfl, _⟩ := hu
          exact Named.of he hv hf hk
        | some t =>
          obtain ⟨h6, h7⟩ := hu
          have h7' : ';' ∉ u := fun hm => h7 (by simpa using singleton_infix.mpr hm)
          rcases hk with rfl | ⟨t', rfl⟩
          · have : ';' ∈ e ++ v ++ f ++ [] ++ ['\n'] := by rw [h6]; simp
            rw [List.append_nil, List.mem_append] at this
            rcases this with h | h
            · exact absurd h h4
            · exact absurd h (by decide)
          · have h8 : (e ++ v ++ f) ++ '#' :: (t' ++ ['\n']) = u ++ ';' :: t := by simpa using h6
            rcases List.append_eq_append_iff.mp h8 with ⟨w, h9, h10⟩ | ⟨w, h9, h10⟩
            · cases w with
              | nil => simp at h10
              | cons y w =>
                simp only [List.cons_append, List.cons.injEq] at h10
                obtain ⟨rfl, _⟩ := h10
                refine ⟨e ++ v ++ f, some w, ?_, Trimmed.of he.space hf.space hv.facts.2.1⟩
                rw [h9]
                refine Cut.mk_char ?_
                simp only [List.mem_append, not_or]
                exact ⟨⟨he.notMem (by decide) (by decide), hv.facts.2.2.2⟩, hf.notMem (by decide) (by decide)⟩
            · exfalso
              cases w with
              | nil => simp at h10
              | cons y w =>
                simp only [List.cons_append, List.cons.injEq] at h10
                obtain ⟨rfl, _⟩ := h10
                exact h4 (by rw [h9]; simp)
      obtain ⟨u, x, hu, hv'⟩ := h5
      refine .propertyValue (r := c ++ p ++ d ++ ';' :: (e ++ v ++ f ++ k ++ ['\n'])) ⟨hhead, a ++ r ++ b, r, ?_,
        Trimmed.of ha.space hb.space fun c hc => (hr.facts.2.2 c hc).1, hr.codes hhi⟩ (.inr (by omega))
        (Cut.mk_char h3) (Trimmed.of hc.space hd.space hn.facts.2.1) hu hv'
      have := Cut.mk_char (t := c ++ p ++ d ++ ';' :: (e ++ v ++ f ++ k ++ ['\n'])) (hsemi ha hr hb)
      simpa using this

theorem File.reads {text : List Char} {es : List (List Char × Nat × Nat)} (h : File text es) :
    ∃ ls, Lines text ls ∧ ReadsAll ls (.ok es) := by
  induction h with
  | nil => exact ⟨[], ⟨[], rfl, by simp, by simp⟩, .nil⟩
  | @cons l o t es hl hnl _ ih =>
    obtain ⟨ls, ⟨tail, rfl, h2, h3⟩, h4⟩ := ih
    refine ⟨(l ++ ['\n']) :: ls, ⟨tail, by simp, h2, fun x hx => ?_⟩, .next hl.reads h4⟩
    rcases List.mem_cons.mp hx with rfl | hx
    · exact ⟨l, rfl, hnl⟩
    · exact h3 x hx

end Uax29.Spec.PropFile
