import Verif.Proofs.Levels
import Verif.Proofs.PhrasesFast
import Verif.Proofs.SentencesFast
import Verif.Proofs.Replace
import Verif.Props.Clusters
import Verif.Spec.Hangul
/-! # The rules of the four packages do not tell Hangul syllables from their parts -/
set_option maxRecDepth 20000
namespace Uax29
open Spec

local notation "gc" => graphemeClasses
local notation "wc" => wordClasses
local notation "sc" => sentenceClass

theorem decomposed_ne (c : Char) : decomposed c ≠ [] := by
  unfold decomposed
  split <;> simp

theorem decomposed_other {c : Char} (h : ¬ IsSyllable c) : decomposed c = [c] := by simp [decomposed, h]

theorem decompose_cons (c : Char) (s : List Char) : decompose (c :: s) = decomposed c ++ decompose s := expand_cons c s

/-! ## The tables -/

/-- Nothing but a letter. -/
def letterOnly (w : WSet) : Bool :=
  w .ALetter && !(w.newline || w.ignorable || w.midLetter || w.midNum || w .RegionalIndicator || w .Katakana
    || w .HebrewLetter || w .DoubleQuote || w .Numeric || w .ExtendNumLet || w .WSegSpace || w .ExtendedPictographic)

theorem letterOnly_eq {w : WSet} (h : letterOnly w = true) : w = fun g => decide (g = .ALetter) := by
  funext g
  simp only [letterOnly, WSet.newline, WSet.ignorable, WSet.midLetter, WSet.midNum, WSet.midNumLetQ, Bool.and_eq_true,
    Bool.not_eq_true', Bool.or_eq_false_iff] at h
  cases g <;> simp [h]

theorem hangul_letter {c : Char} (h : (gc c .L || gc c .V || gc c .T || gc c .LV || gc c .LVT) = true) :
    wc c = (fun g => decide (g = .ALetter)) ∧ sc c = .OLetter := by
  have := classes_none (fun g w s => (g .L || g .V || g .T || g .LV || g .LVT) && !(letterOnly w && decide (s = .OLetter)))
    (by decide +kernel) c
  rw [h] at this
  simp only [Bool.true_and, Bool.not_eq_false', Bool.and_eq_true, decide_eq_true_eq] at this
  exact ⟨letterOnly_eq this.1, this.2⟩

theorem gb_listed (g : GB) : g ∈ [GB.CR, .LF, .Control, .Extend, .ZWJ, .RegionalIndicator, .Prepend, .SpacingMark,
    .L, .V, .T, .LV, .LVT, .ExtendedPictographic, .InCBConsonant, .InCBExtend, .InCBLinker] := by
  cases g <;> decide

theorem jamo_l {i : Nat} (h : i < 19) : gc (Char.ofNat (0x1100 + i)) = fun g => decide (g = .L) := by
  have : ∀ i : Fin 19, ∀ g ∈ [GB.CR, .LF, .Control, .Extend, .ZWJ, .RegionalIndicator, .Prepend, .SpacingMark,
    .L, .V, .T, .LV, .LVT, .ExtendedPictographic, .InCBConsonant, .InCBExtend, .InCBLinker],
    gc (Char.ofNat (0x1100 + i.val)) g = decide (g = .L) := by decide +kernel
  exact funext fun g => this ⟨i, h⟩ g (gb_listed g)

theorem jamo_v {i : Nat} (h : i < 21) : gc (Char.ofNat (0x1161 + i)) = fun g => decide (g = .V) := by
  have : ∀ i : Fin 21, ∀ g ∈ [GB.CR, .LF, .Control, .Extend, .ZWJ, .RegionalIndicator, .Prepend, .SpacingMark,
    .L, .V, .T, .LV, .LVT, .ExtendedPictographic, .InCBConsonant, .InCBExtend, .InCBLinker],
    gc (Char.ofNat (0x1161 + i.val)) g = decide (g = .V) := by decide +kernel
  exact funext fun g => this ⟨i, h⟩ g (gb_listed g)

theorem jamo_t {i : Nat} (h : i < 28) (h0 : i ≠ 0) : gc (Char.ofNat (0x11A7 + i)) = fun g => decide (g = .T) := by
  have : ∀ i : Fin 28, i.val ≠ 0 → ∀ g ∈ [GB.CR, .LF, .Control, .Extend, .ZWJ, .RegionalIndicator, .Prepend, .SpacingMark,
    .L, .V, .T, .LV, .LVT, .ExtendedPictographic, .InCBConsonant, .InCBExtend, .InCBLinker],
    gc (Char.ofNat (0x11A7 + i.val)) g = decide (g = .T) := by decide +kernel
  exact funext fun g => this ⟨i, h⟩ h0 g (gb_listed g)

/-- What a syllable and its parts are. -/
theorem syllable_parts {c : Char} (h : IsSyllable c) :
    (∃ l v, decomposed c = [l, v] ∧ gc c = (fun g => decide (g = .LV)) ∧ gc l = (fun g => decide (g = .L))
      ∧ gc v = fun g => decide (g = .V))
    ∨ ∃ l v t, decomposed c = [l, v, t] ∧ gc c = (fun g => decide (g = .LVT)) ∧ gc l = (fun g => decide (g = .L))
      ∧ gc v = (fun g => decide (g = .V)) ∧ gc t = fun g => decide (g = .T) := by
  have hc := C23_precomposed c h.1 h.2
  have h1 := h.1
  have h2 := h.2
  by_cases h0 : (c.toNat - 0xAC00) % 28 = 0
  · refine .inl ⟨_, _, ?_, ?_, jamo_l (i := (c.toNat - 0xAC00) / 588) (by omega),
      jamo_v (i := (c.toNat - 0xAC00) % 588 / 28) (by omega)⟩
    · simp [decomposed, h, h0]
    · funext g; rw [hc, if_pos h0]
  · refine .inr ⟨_, _, _, ?_, ?_, jamo_l (i := (c.toNat - 0xAC00) / 588) (by omega),
      jamo_v (i := (c.toNat - 0xAC00) % 588 / 28) (by omega), jamo_t (i := (c.toNat - 0xAC00) % 28) (by omega) h0⟩
    · simp [decomposed, h, h0]
    · funext g; rw [hc, if_neg h0]

/-- In the tables of the other packages a syllable is a letter, and so are its parts. -/
theorem syllable_letters {c : Char} (h : IsSyllable c) : ∀ d, d = c ∨ d ∈ decomposed c →
    wc d = (fun g => decide (g = .ALetter)) ∧ sc d = .OLetter := by
  intro d hd
  apply hangul_letter
  rcases syllable_parts h with ⟨l, v, e, h1, h2, h3⟩ | ⟨l, v, t, e, h1, h2, h3, h4⟩
  · rw [e] at hd
    simp only [List.mem_cons, List.not_mem_nil, or_false] at hd
    rcases hd with rfl | rfl | rfl <;> simp [*]
  · rw [e] at hd
    simp only [List.mem_cons, List.not_mem_nil, or_false] at hd
    rcases hd with rfl | rfl | rfl | rfl <;> simp [*]

theorem decomposed_last (c : Char) : ∃ i k, decomposed c = i ++ [k] :=
  ⟨_, _, (List.dropLast_concat_getLast (decomposed_ne c)).symm⟩

/-- It is enough that after a syllable, as after its last part, nothing before it matters. -/
theorem decomposed_left {K : Type} {J : List K → List K → Bool} {cl : Char → K}
    (h : ∀ c, IsSyllable c → ∃ i k, decomposed c = i ++ [k] ∧ ∀ B A A' C, J (B ++ cl c :: A) C = J (B ++ cl k :: A') C)
    (c : Char) (B A C : List K) : J (B ++ (((decomposed c).map cl).reverse ++ A)) C = J (B ++ cl c :: A) C := by
  by_cases hc : IsSyllable c
  · obtain ⟨i, k, e, hJ⟩ := h c hc
    rw [e, hJ B A ((i.map cl).reverse ++ A)]
    simp
  · rw [decomposed_other hc]
    simp

/-! ## Graphemes -/

theorem takeWhile_part {α : Type} {p : α → Bool} {x : α} (hx : p x = false) (B A : List α) :
    (B ++ x :: A).takeWhile p = B.takeWhile p := by
  induction B with
  | nil => simp [hx]
  | cons b B ih => simp only [List.cons_append, List.takeWhile_cons, ih]

theorem dropWhile_part {α : Type} {p q : α → Bool} {x x' : α} (hx : p x = false) (hx' : p x' = false)
    (hq : q x = q x') (B A A' : List α) :
    ((B ++ x :: A).dropWhile p).head?.any q = ((B ++ x' :: A').dropWhile p).head?.any q := by
  induction B with
  | nil => simp [hx, hx', hq]
  | cons b B ih =>
    simp only [List.cons_append, List.dropWhile_cons]
    split
    · exact ih
    · rfl

theorem drop_takeWhile_part {α : Type} (p : α → Bool) (l : List α) : l.drop (l.takeWhile p).length = l.dropWhile p := by
  induction l with
  | nil => rfl
  | cons a l ih =>
    by_cases h : p a = true
    · simp [h, ih]
    · simp [h]

/-- Nothing before a syllable matters after it. -/
theorem graphemeJoins_part {x x' : GB} (hx : (x = .LV ∧ x' = .V) ∨ (x = .LVT ∧ x' = .T)) (B A A' C : List GSet) :
    graphemeJoins (B ++ (fun g => decide (g = x)) :: A) C = graphemeJoins (B ++ (fun g => decide (g = x')) :: A') C := by
  have hf : ∀ g, g ≠ .LV → g ≠ .LVT → g ≠ .V → g ≠ .T → decide (g = x) = false ∧ decide (g = x') = false := by
    intro g h1 h2 h3 h4
    rcases hx with ⟨rfl, rfl⟩ | ⟨rfl, rfl⟩ <;> simp [*]
  have e1 : conjunct (B ++ (fun g => decide (g = x)) :: A) = conjunct (B ++ (fun g => decide (g = x')) :: A') := by
    simp only [conjunct, drop_takeWhile_part]
    rw [takeWhile_part (by simp [hf]), takeWhile_part (by simp [hf]),
      dropWhile_part (x := fun g => decide (g = x)) (x' := fun g => decide (g = x')) (A' := A')
        (by simp [hf]) (by simp [hf]) (by simp [hf])]
  have e2 : pictographZwj (B ++ (fun g => decide (g = x)) :: A) = pictographZwj (B ++ (fun g => decide (g = x')) :: A') := by
    cases B with
    | nil => simp [pictographZwj, hf]
    | cons b B =>
      simp only [pictographZwj, List.cons_append, List.head?_cons, List.tail_cons]
      rw [dropWhile_part (x := fun g => decide (g = x)) (x' := fun g => decide (g = x')) (A' := A')
        (by simp [hf]) (by simp [hf]) (by simp [hf])]
  have e3 : oddIndicators (B ++ (fun g => decide (g = x)) :: A) = oddIndicators (B ++ (fun g => decide (g = x')) :: A') := by
    simp only [oddIndicators]
    rw [takeWhile_part (by simp [hf]), takeWhile_part (by simp [hf])]
  cases C with
  | nil => cases B <;> rfl
  | cons c C =>
    cases B with
    | nil =>
      simp only [List.nil_append] at e1 e2 e3 ⊢
      simp only [graphemeJoins, e1, e2, e3]
      rcases hx with ⟨rfl, rfl⟩ | ⟨rfl, rfl⟩ <;> simp [GSet.control]
    | cons b B =>
      simp only [List.cons_append] at e1 e2 e3 ⊢
      simp only [graphemeJoins, e1, e2, e3]

theorem decomposing_graphemes : Replacing decomposed graphemeJoins graphemeClasses graphemeClasses where
  ne := decomposed_ne
  left := decomposed_left fun c hc => by
    rcases syllable_parts hc with ⟨l, v, e, h1, h2, h3⟩ | ⟨l, v, t, e, h1, h2, h3, h4⟩
    · exact ⟨[l], v, e, fun B A A' C => by rw [h1, h3]; exact graphemeJoins_part (.inl ⟨rfl, rfl⟩) B A A' C⟩
    · exact ⟨[l, v], t, e, fun B A A' C => by rw [h1, h4]; exact graphemeJoins_part (.inr ⟨rfl, rfl⟩) B A A' C⟩
  right L b := by
    rw [← decompose]
    cases b with
    | nil => rfl
    | cons c b =>
      rw [decompose_cons]
      by_cases hc : IsSyllable c
      · cases L with
        | nil => cases (List.map gc (decomposed c ++ decompose b)) <;> rfl
        | cons a L =>
          rcases syllable_parts hc with ⟨l, v, e, h1, h2, h3⟩ | ⟨l, v, t, e, h1, h2, h3, h4⟩
          · rw [e]; simp [graphemeJoins, h1, h2, GSet.control]
          · rw [e]; simp [graphemeJoins, h1, h2, GSet.control]
      · rw [decomposed_other hc]
        cases L <;> rfl
  inside c x y e hx hy A C := by
    by_cases hc : IsSyllable c
    · obtain ⟨x0, x1, rfl⟩ := List.exists_cons_of_ne_nil hx
      obtain ⟨y0, y1, rfl⟩ := List.exists_cons_of_ne_nil hy
      rcases syllable_parts hc with ⟨l, v, e', h1, h2, h3⟩ | ⟨l, v, t, e', h1, h2, h3, h4⟩
      · rw [e'] at e
        cases x1 with
        | nil =>
          obtain ⟨rfl, rfl, rfl⟩ : l = x0 ∧ v = y0 ∧ y1 = [] := by simpa using e
          simp [graphemeJoins, h2, h3, GSet.control]
        | cons x1 x2 => cases x2 <;> simp at e
      · rw [e'] at e
        cases x1 with
        | nil =>
          obtain ⟨rfl, rfl, rfl⟩ : l = x0 ∧ v = y0 ∧ [t] = y1 := by simpa using e
          simp [graphemeJoins, h2, h3, GSet.control]
        | cons x1 x2 =>
          cases x2 with
          | nil =>
            obtain ⟨rfl, rfl, rfl, rfl⟩ : l = x0 ∧ v = x1 ∧ t = y0 ∧ y1 = [] := by simpa using e
            simp [graphemeJoins, h3, h4, GSet.control]
          | cons x2 x3 => cases x3 <;> simp at e
    · rw [decomposed_other hc] at e
      have := congrArg List.length e
      have := List.length_pos_iff.mpr hx
      have := List.length_pos_iff.mpr hy
      simp at *
      omega

/-! ## Words and phrases -/

theorem head_ignoring (b : List Char) :
    (((decompose b).map wc).dropWhile (·.ignorable)).head? = ((b.map wc).dropWhile (·.ignorable)).head? := by
  induction b with
  | nil => rfl
  | cons c b ih =>
    rw [decompose_cons]
    by_cases hc : IsSyllable c
    · obtain ⟨d, r, e⟩ := List.exists_cons_of_ne_nil (decomposed_ne c)
      have h1 := (syllable_letters hc c (.inl rfl)).1
      have h2 := (syllable_letters hc d (.inr (by rw [e]; exact List.mem_cons_self))).1
      simp [e, h1, h2, WSet.ignorable]
    · rw [decomposed_other hc, List.singleton_append, List.map_cons, List.map_cons, List.dropWhile_cons, List.dropWhile_cons]
      split
      · exact ih
      · rfl

theorem decomposing_words (ph : Bool) : Replacing decomposed (joins ph) wordClasses wordClasses where
  ne := decomposed_ne
  left := decomposed_left fun c hc => by
    obtain ⟨i, k, e⟩ := decomposed_last c
    refine ⟨i, k, e, fun B A A' C => ?_⟩
    rw [(syllable_letters hc c (.inl rfl)).1, (syllable_letters hc k (.inr (by simp [e]))).1]
    rw [joins_forget, joins_forget (A := A')] <;> rfl
  right L b := by
    rw [← decompose]
    cases b with
    | nil => rfl
    | cons c b =>
      cases L with
      | nil => cases (decompose (c :: b)).map wc <;> rfl
      | cons a L =>
        by_cases hc : IsSyllable c
        · obtain ⟨d, r, e⟩ := List.exists_cons_of_ne_nil (decomposed_ne c)
          have h1 := (syllable_letters hc c (.inl rfl)).1
          have h2 := (syllable_letters hc d (.inr (by rw [e]; exact List.mem_cons_self))).1
          rw [decompose_cons, e]
          simp [joins, h1, h2, unitJoins, WSet.midLetter, WSet.midNum, WSet.midNumLetQ]
        · have := head_ignoring b
          rw [decompose_cons, decomposed_other hc, List.singleton_append, List.map_cons, List.map_cons]
          simp only [joins, this]
  inside c x y e hx hy A C := by
    by_cases hc : IsSyllable c
    · obtain ⟨i, k, rfl⟩ : ∃ i k, x = i ++ [k] := ⟨_, _, (List.dropLast_concat_getLast hx).symm⟩
      obtain ⟨y0, y1, rfl⟩ := List.exists_cons_of_ne_nil hy
      have h1 := (syllable_letters hc k (.inr (by simp [e]))).1
      have h2 := (syllable_letters hc y0 (.inr (by simp [e]))).1
      simp only [List.map_append, List.map_cons, List.map_nil, List.reverse_append, List.reverse_cons, List.reverse_nil,
        List.nil_append, List.cons_append, h1, h2]
      simp only [joins]
      rw [units_cons_solid rfl]
      simp [WSet.newline, WSet.ignorable, unitJoins, WSet.alnum, WSet.ahLetter]
    · rw [decomposed_other hc] at e
      have := congrArg List.length e
      have := List.length_pos_iff.mpr hx
      have := List.length_pos_iff.mpr hy
      simp at *
      omega

/-! ## Sentences -/

theorem lowerAhead_decompose (b : List Char) : lowerAhead ((decompose b).map sc) = lowerAhead (b.map sc) := by
  unfold lowerAhead
  congr 1
  induction b with
  | nil => rfl
  | cons c b ih =>
    rw [decompose_cons]
    by_cases hc : IsSyllable c
    · obtain ⟨d, r, e⟩ := List.exists_cons_of_ne_nil (decomposed_ne c)
      have h1 := (syllable_letters hc c (.inl rfl)).2
      have h2 := (syllable_letters hc d (.inr (by rw [e]; exact List.mem_cons_self))).2
      simp [e, h1, h2, SB.stops]
    · rw [decomposed_other hc, List.singleton_append, List.map_cons, List.map_cons, List.dropWhile_cons, List.dropWhile_cons]
      split
      · exact ih
      · rfl

/-- What is before a letter does not matter after it. -/
theorem sjoinsIf_letter (ahead : Bool) (B A C : List SB) :
    sjoinsIf ahead (B ++ .OLetter :: A) C = sjoinsIf ahead (B ++ [.OLetter]) C := by
  cases A with
  | nil => rfl
  | cons a A =>
  cases C with
  | nil => cases B <;> simp [sjoinsIf]
  | cons c C =>
    obtain ⟨y, L', hL⟩ := List.exists_cons_of_ne_nil (l := B ++ [SB.OLetter]) (by simp)
    have hlast : (B ++ [SB.OLetter]).getLast? = some .OLetter := by simp
    have happ : sunits (B ++ .OLetter :: a :: A) = sunits (B ++ [.OLetter]) ++ sunits (a :: A) := by
      have := sunits_append (a := a) (A := A) hlast (.inl rfl)
      rwa [List.append_assoc, List.singleton_append] at this
    have hBx : B ++ .OLetter :: a :: A = y :: (L' ++ a :: A) := by
      rw [← List.cons_append, ← hL, List.append_assoc]; rfl
    rw [hBx, hL]
    simp only [sjoinsIf]
    rw [← hBx, ← hL, happ]
    by_cases hyp : y.paraSep = true
    · simp [hyp]
    · have hp : (sunits (B ++ [SB.OLetter])).head?.any (·.paraSep) = false := by
        rw [Bool.eq_false_iff, hL]; intro h; exact hyp (sunits_head_para h)
      rw [sunitJoins_append (sunits_getLast hlast (.inl rfl)) (by rintro ⟨⟩) (by rintro ⟨⟩) (by rintro ⟨⟩) hp]

theorem decomposing_sentences : Replacing decomposed sjoins sentenceClass sentenceClass where
  ne := decomposed_ne
  left := decomposed_left fun c hc => by
    obtain ⟨i, k, e⟩ := decomposed_last c
    refine ⟨i, k, e, fun B A A' C => ?_⟩
    rw [(syllable_letters hc c (.inl rfl)).2, (syllable_letters hc k (.inr (by simp [e]))).2]
    unfold sjoins
    rw [sjoinsIf_letter, sjoinsIf_letter (A := A')]
  right L b := by
    rw [← decompose]
    unfold sjoins
    rw [lowerAhead_decompose]
    generalize lowerAhead (b.map sc) = ahead
    cases b with
    | nil => rfl
    | cons c b =>
      cases L with
      | nil => cases (decompose (c :: b)).map sc <;> rfl
      | cons a L =>
        rw [decompose_cons]
        by_cases hc : IsSyllable c
        · obtain ⟨d, r, e⟩ := List.exists_cons_of_ne_nil (decomposed_ne c)
          have h1 := (syllable_letters hc c (.inl rfl)).2
          have h2 := (syllable_letters hc d (.inr (by rw [e]; exact List.mem_cons_self))).2
          rw [e]
          simp only [List.cons_append, List.map_cons, sjoinsIf, h1, h2]
        · rw [decomposed_other hc]; rfl
  inside c x y e hx hy A C := by
    by_cases hc : IsSyllable c
    · obtain ⟨i, k, rfl⟩ : ∃ i k, x = i ++ [k] := ⟨_, _, (List.dropLast_concat_getLast hx).symm⟩
      obtain ⟨y0, y1, rfl⟩ := List.exists_cons_of_ne_nil hy
      have h1 := (syllable_letters hc k (.inr (by simp [e]))).2
      have h2 := (syllable_letters hc y0 (.inr (by simp [e]))).2
      simp only [List.map_append, List.map_cons, List.map_nil, List.reverse_append, List.reverse_cons, List.reverse_nil,
        List.nil_append, List.cons_append, h1, h2]
      simp only [sjoins, sjoinsIf]
      rw [sunits_solid rfl]
      simp [sunitJoins, endsClose, endsCloseSp, SB.paraSep, SB.ignorable, SB.saTerm]
    · rw [decomposed_other hc] at e
      have := congrArg List.length e
      have := List.length_pos_iff.mpr hx
      have := List.length_pos_iff.mpr hy
      simp at *
      omega

end Uax29
