import Verif.Props.Packages
import Verif.Props.Ansi
/-! # Tokens of valid UTF-8 are valid UTF-8: C07 -/
namespace Uax29
open Spec Scanner

/-- The advance function moves over whole characters. -/
def CharAdv (adv : Bytes → Nat) : Prop :=
  ∀ s : List Char, s ≠ [] → ∃ s1 s2, utf8 s = utf8 s1 ++ utf8 s2 ∧ adv (utf8 s) = (utf8 s1).length

theorem utf8_ne_nil {s : List Char} (hs : s ≠ []) : utf8 s ≠ [] := by
  obtain ⟨c, s', rfl⟩ := List.exists_cons_of_ne_nil hs
  obtain ⟨b, l, hb, _⟩ := Graphemes.encode_head c
  rw [utf8_cons, hb]; simp

theorem CharAdv.segs {adv : Bytes → Nat} (hg : GoodAdv adv) (h : CharAdv adv) (s : List Char) :
    ∀ t ∈ segs adv (utf8 s), ValidUtf8 t := by
  generalize hn : (utf8 s).length = n
  induction n using Nat.strongRecOn generalizing s with
  | _ n ih =>
    by_cases hs : s = []
    · subst hs; simp [utf8, segs_nil]
    · obtain ⟨s1, s2, h1, h2⟩ := h s hs
      have hne := utf8_ne_nil hs
      have h3 := hg.pos _ hne
      intro t ht
      rw [hg.segs_cons hne, h2, h1, List.take_left' rfl, List.drop_left' rfl] at ht
      rcases List.mem_cons.mp ht with rfl | ht
      · exact ⟨s1, rfl⟩
      · refine ih (utf8 s2).length ?_ s2 rfl t ht
        have := congrArg List.length h1
        rw [List.length_append] at this
        omega

theorem utf8_flatten (gs : List (List Char)) : (gs.map utf8).flatten = utf8 gs.flatten := by
  induction gs with
  | nil => rfl
  | cons g gs ih => rw [List.map_cons, List.flatten_cons, ih, List.flatten_cons, utf8_append]

theorem CharAdv.of_segs {adv : Bytes → Nat} (hg : GoodAdv adv)
    (h : ∀ s, ∃ gs : List (List Char), Uax29.segs adv (utf8 s) = gs.map utf8) : CharAdv adv := by
  intro s hs
  obtain ⟨gs, h1⟩ := h s
  have hne := utf8_ne_nil hs
  have hfl := hg.segs_flatten (utf8 s)
  have hle := hg.le _ hne
  rw [hg.segs_cons hne] at h1
  cases gs with
  | nil => simp at h1
  | cons g gs =>
    simp only [List.map_cons, List.cons.injEq] at h1
    refine ⟨g, gs.flatten, ?_, ?_⟩
    · rw [hg.segs_cons hne, List.flatten_cons, h1.1, h1.2, utf8_flatten] at hfl
      exact hfl.symm
    · rw [← h1.1, List.length_take]; omega

theorem splitOf_charAdv (p : Pkg) (c : Config p) : CharAdv (splitAdv (splitOf p c)) := by
  have hg := goodAdv_of_good (splitOf_good p c)
  apply CharAdv.of_segs hg
  intro s
  cases p with
  | graphemes =>
    obtain ⟨gs, h1, _⟩ := C08_conform s
    rw [graphemes_segs] at h1
    exact ⟨gs, Except.ok.inj h1⟩
  | words => exact segs_chars Words.wf hg (fun d l t hd hdec => (Words.splitAdv_at c hd hdec).1) s
  | phrases =>
    obtain ⟨gs, h1, _⟩ := C11_conform s
    rw [phrases_segs] at h1
    exact ⟨gs, Except.ok.inj h1⟩
  | sentences =>
    obtain ⟨gs, h1, _⟩ := C10_conform s
    rw [sentences_segs] at h1
    exact ⟨gs, Except.ok.inj h1⟩

theorem ascii_utf8 : ∀ bs : Bytes, (∀ b ∈ bs, b.toNat < 0x80) → ∃ s, bs = utf8 s
  | [], _ => ⟨[], rfl⟩
  | b :: bs, h => by
    obtain ⟨s, hs⟩ := ascii_utf8 bs fun x hx => h x (List.mem_cons_of_mem _ hx)
    have hb := h b (by simp)
    refine ⟨Char.ofNat b.toNat :: s, ?_⟩
    have hv : (Char.ofNat b.toNat).val.toNat = b.toNat := by
      have : b.toNat.isValidChar := .inl (by omega)
      have h1 : (Char.ofNat b.toNat).toNat = b.toNat := by
        unfold Char.ofNat
        rw [dif_pos this]
        simp [Char.ofNatAux, Char.toNat]
      exact h1
    rw [utf8_cons, hs]
    rcases encode_cases (Char.ofNat b.toNat) with ⟨h1, b0, he, h2⟩ | ⟨h1, _⟩ | ⟨h1, _⟩ | ⟨h1, _⟩
    · rw [he]
      have : b0 = b := UInt8.toNat_inj.mp (by omega)
      rw [this]; rfl
    all_goals omega

theorem words_charAdv (j : Option Words.Joiners) : CharAdv (Words.adv (Words.joinersSplitFunc j)) := by
  intro s hs
  have hsplit := splitOf_charAdv .words j s hs
  have hne := utf8_ne_nil hs
  generalize hd : utf8 s = d at *
  cases d with
  | nil => exact absurd rfl hne
  | cons b d =>
    unfold Words.adv
    dsimp only
    by_cases hb : Words.isASCIIAlphanumeric b = true
    · rw [if_pos hb]
      obtain ⟨run, rest, rfl, h2, h3, _⟩ := countWhile_split Words.isASCIIAlphanumeric d
      rw [h2]
      split
      · rename_i hc
        have hascii : ∀ x ∈ b :: run, x.toNat < 0x80 := by
          intro x hx
          have hx : Words.isASCIIAlphanumeric x = true := by
            rcases List.mem_cons.mp hx with rfl | hx
            · exact hb
            · exact h3 x hx
          exact of_decide_eq_true (forall_uint8 (P := fun x => !Words.isASCIIAlphanumeric x || decide (x.toNat < 0x80))
            (by decide +kernel) x |> fun h => by simpa [hx] using h)
        obtain ⟨s1, h1⟩ := ascii_utf8 _ hascii
        have hrest : ∃ s2, rest = utf8 s2 := by
          simp only [Bool.or_eq_true, decide_eq_true_eq, beq_iff_eq] at hc
          rcases hc with hc | hc
          · simp at hc
            exact ⟨[], List.eq_nil_of_length_eq_zero (by omega)⟩
          · rw [Nat.add_comm, List.getElem?_cons_succ, List.getElem?_append_right (Nat.le_refl _), Nat.sub_self] at hc
            cases rest with
            | nil => simp at hc
            | cons x rest =>
              have hx : x = 0x20 := by simpa using hc
              subst hx
              obtain ⟨_, s2, _, _, h4⟩ := Graphemes.utf8_cut s (b :: run) 0x20 rest (by rw [hd]; rfl) (by decide)
              exact ⟨s2, h4⟩
        obtain ⟨s2, h4⟩ := hrest
        refine ⟨s1, s2, by rw [← h1, ← h4]; rfl, by rw [← h1]; simp; omega⟩
      · exact hsplit
    · rw [if_neg hb]
      exact hsplit

theorem advOf_charAdv (p : Pkg) (c : Config p) : CharAdv (Iterator.advOf p c) := by
  cases p with
  | graphemes =>
    intro s hs
    obtain ⟨_, s1, s2, h1, h2⟩ := Graphemes.adv_utf8 c hs
    have hle := (Iterator.goodAdv .graphemes c).le _ (utf8_ne_nil hs)
    refine ⟨s1, s2, ?_, ?_⟩
    · rw [← h1, ← h2, List.take_append_drop]
    · rw [← h1, List.length_take]; exact (Nat.min_eq_left hle).symm
  | words => exact words_charAdv c
  | phrases =>
    apply CharAdv.of_segs (Iterator.goodAdv .phrases c)
    intro s
    obtain ⟨gs, h1, _⟩ := C11_conform s
    rw [defaultTokens_eq, tokens_eq] at h1
    exact ⟨gs, Except.ok.inj h1⟩
  | sentences =>
    apply CharAdv.of_segs (Iterator.goodAdv .sentences c)
    intro s
    obtain ⟨gs, h1, _⟩ := C10_conform s
    rw [defaultTokens_eq, tokens_eq] at h1
    exact ⟨gs, Except.ok.inj h1⟩

/-- **C07** If the input is valid UTF-8, every token of the iterator is, in every configuration. -/
theorem C07_iterator (p : Pkg) (c : Config p) (data : Bytes) (h : ValidUtf8 data) :
    ∃ ts, tokens p c data = .ok ts ∧ ∀ t ∈ ts, ValidUtf8 t := by
  obtain ⟨s, rfl⟩ := h
  exact ⟨_, tokens_eq p c _, CharAdv.segs (Iterator.goodAdv p c) (advOf_charAdv p c) s⟩

/-- C07: if what the reader delivers is valid UTF-8, every token of a scanner is, in every configuration,
however the reader cuts the text and also when a token is too long for the buffer. -/
theorem C07_scanner (p : Pkg) (c : Config p) (r : Reader) (n max : Nat) (h : ValidUtf8 (deliver 0 r).1) :
    ∃ ts err, Scanner.tokens (scanner p c r n max) = .ok (ts, err) ∧ ∀ t ∈ ts, ValidUtf8 t := by
  obtain ⟨s, hs⟩ := h
  obtain ⟨ts, err, k1, k2⟩ := C16_errors p c r n max
  refine ⟨ts, err, k1, fun t ht => ?_⟩
  have hall := CharAdv.segs (goodAdv_of_good (splitOf_good p c)) (splitOf_charAdv p c) s
  rw [hs] at k2
  rcases k2 with ⟨k2, _⟩ | ⟨_, _, ts', k2⟩
  · rw [(splits_iff (splitOf_good p c)).1 k2] at ht
    exact hall t ht
  · refine hall t ?_
    rw [← (splits_iff (splitOf_good p c)).1 k2]
    exact List.mem_append_left _ ht

-- an escape sequence with "é" inside; "é" as a joiner; a reader that cuts "é" in two
example : tokens .graphemes ⟨true, true⟩ (utf8 ['\x1b', ']', 'é', '\x18', 'é'])
    = .ok [utf8 ['\x1b', ']', 'é'], utf8 ['\x18'], utf8 ['é']] := by decide +kernel
example : tokens .words (some ⟨some ['→'.toNat], none⟩) (utf8 ['a', '→', 'b', ' ']) = .ok [utf8 ['a', '→', 'b'], utf8 [' ']] := by
  decide +kernel
example : Scanner.tokens (scanner .graphemes {} [([0xC3], none), ([0xA9, 0x61], none)] 0 100)
    = .ok ([utf8 ['é'], utf8 ['a']], none) := by decide +kernel
-- it needs valid input: an 8-bit sequence cuts through the second byte of "é" only where the first is no character
example : tokens .graphemes ⟨false, true⟩ [0x9D, 0xC3, 0x07, 0xA9] = .ok [[0x9D, 0xC3, 0x07], [0xA9]] := by decide +kernel

end Uax29
