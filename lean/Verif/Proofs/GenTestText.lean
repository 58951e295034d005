import Verif.Proofs.GenLine
import Verif.Proofs.GenTests
import Verif.Spec.TestText
/-! # Any text as a file of tests -/
namespace Uax29.Spec.PropFile
open Gen

/-- What the model does when reading stops. -/
def Halts {α : Type} : Stop → Res (Option α) → Prop
  | .refused, r => r = .ok none
  | .crash, r => ∃ f, r = .error f ∧ f ≠ .diverge
  | .endless, r => r = .error .diverge

theorem Halts.cast {α β : Type} {s : Stop} {r : Res (Option α)} {r' : Res (Option β)} (h : Halts s r)
    (h1 : r = .ok none → r' = .ok none) (h2 : ∀ f, r = .error f → r' = .error f) : Halts s r' := by
  cases s with
  | refused => exact h1 h
  | crash => obtain ⟨f, h3, h4⟩ := h; exact ⟨f, h2 f h3, h4⟩
  | endless => exact h2 _ h

theorem Each.exists {α β : Type} {R : α → Except Stop (List β) → Prop} (h : ∀ a, ∃ r, R a r) : ∀ as : List α, ∃ r, Each R as r
  | [] => ⟨_, .nil⟩
  | a :: as => by
    obtain ⟨r, hr⟩ := h a
    obtain ⟨r', hr'⟩ := Each.exists h as
    cases r with
    | error s => exact ⟨_, .stop hr⟩
    | ok x =>
      cases r' with
      | error s => exact ⟨_, .later hr hr'⟩
      | ok y => exact ⟨_, .next hr hr'⟩

theorem Parts.eq {sep : Char} {s : List Char} {ps : List (List Char)} (h : Parts sep s ps) : splitChar sep s = ps := by
  induction h with
  | last h => exact splitChar_none h
  | cons h _ ih => rw [splitChar_mid h, ih]

theorem Parts.exists (sep : Char) : ∀ s : List Char, ∃ ps, Parts sep s ps
  | [] => ⟨_, .last (by simp)⟩
  | c :: s => by
    obtain ⟨ps, h⟩ := Parts.exists sep s
    by_cases hc : c = sep
    · subst hc; exact ⟨_, .cons (p := []) (by simp) h⟩
    · cases h with
      | last h => exact ⟨_, .last (by simp [h, Ne.symm hc])⟩
      | @cons p r ps h h' => exact ⟨_, .cons (p := c :: p) (by simp [h, Ne.symm hc]) h'⟩

theorem Value.exists (v : List Char) : ∃ r, Value v r := by
  by_cases hl : (utf8 v).length < 4
  · exact ⟨_, .short hl⟩
  · have hl : 4 ≤ (utf8 v).length := by omega
    by_cases hn : ∃ n, Number v n
    · obtain ⟨n, hn⟩ := hn
      by_cases hc : ∃ c : Char, c.toNat = n
      · obtain ⟨c, rfl⟩ := hc; exact ⟨_, .char hl hn⟩
      · exact ⟨_, .crash hl hn fun c e => hc ⟨c, e⟩⟩
    · exact ⟨_, .refused hl fun n h => hn ⟨n, h⟩⟩

theorem toNat_ofNat_valid {n : Nat} (h : n.isValidChar) : (Char.ofNat n).toNat = n := by
  rw [Char.ofNat, dif_pos h]; rfl

theorem long {v : List Char} {n : Nat} (h : n ≤ (utf8 v).length) : ¬ (encode v).length < n := Nat.not_lt_of_le h

theorem Each.values {vs : List (List Char)} {r : Except Stop (List Char)} (h : Each Value vs r) : match r with
    | .error s => Halts s (parseVals vs)
    | .ok cs => parseVals vs = .ok (some (utf8 cs)) := by
  induction h with
  | nil => rfl
  | stop h =>
    cases h with
    | refused hl hn => show parseVals _ = _; rw [parseVals, if_neg (long hl), parseHex_none hn]
    | @crash n hl hn hc =>
      refine ⟨.panic "runtime error: makeslice: len out of range", ?_, by simp⟩
      rw [parseVals, if_neg (long hl), parseHex_iff.mpr hn]
      simp only
      rw [if_neg (fun hv => hc (Char.ofNat n) (toNat_ofNat_valid hv))]
  | @later v vs x s h _ ih =>
    simp only at ih ⊢
    cases h with
    | short hl => rw [parseVals, if_pos (show (encode _).length < 4 from hl)]; exact ih
    | @char c hl hn =>
      rw [parseVals, if_neg (long hl), parseHex_iff.mpr hn]
      simp only
      rw [if_pos (show c.toNat.isValidChar from c.valid)]
      refine ih.cast (fun e => by rw [e]) (fun f e => by rw [e])
  | @next v vs x y h _ ih =>
    simp only at ih ⊢
    cases h with
    | short hl => rw [parseVals, if_pos (show (encode _).length < 4 from hl)]; exact ih
    | @char c hl hn =>
      rw [parseVals, if_neg (long hl), parseHex_iff.mpr hn]
      simp only
      rw [if_pos (show c.toNat.isValidChar from c.valid), ih]
      simp [utf8, Char.ofNat_toNat]

theorem Expects.exists (s : List Char) : ∃ r, Expects s r := by
  by_cases hl : (utf8 s).length < 4
  · exact ⟨_, .short hl⟩
  · obtain ⟨vs, hv⟩ := Parts.exists ' ' s
    obtain ⟨r, hr⟩ := Each.exists Value.exists vs
    cases r with
    | error e => exact ⟨_, .stop (by omega) hv hr⟩
    | ok cs => exact ⟨_, .segment (by omega) hv hr⟩

theorem Each.segments {ss : List (List Char)} {r : Except Stop (List (List Char))} (h : Each Expects ss r) : match r with
    | .error s => Halts s (parseSegments ss)
    | .ok css => parseSegments ss = .ok (some (css.map utf8)) := by
  induction h with
  | nil => rfl
  | stop h =>
    cases h with
    | stop hl hp hv =>
      have := hv.values
      simp only at this ⊢
      rw [parseSegments, if_neg (long hl), hp.eq]
      exact this.cast (fun e => by rw [e]) (fun f e => by rw [e])
  | later h _ ih =>
    simp only at ih ⊢
    cases h with
    | short hl => rw [parseSegments, if_pos (show (encode _).length < 4 from hl)]; exact ih
    | segment hl hp hv =>
      have := hv.values
      simp only at this
      rw [parseSegments, if_neg (long hl), hp.eq, this]
      exact ih.cast (fun e => by simp only [e]) (fun f e => by simp only [e])
  | next h _ ih =>
    simp only at ih ⊢
    cases h with
    | short hl => rw [parseSegments, if_pos (show (encode _).length < 4 from hl)]; exact ih
    | segment hl hp hv =>
      have := hv.values
      simp only at this
      rw [parseSegments, if_neg (long hl), hp.eq, this]
      simp only [ih]
      rfl

theorem Bare.eq {l b : List Char} (h : Bare l b) : dropCR l = b := by
  rcases h with rfl | ⟨rfl, h⟩
  · simp [dropCR]
  · exact if_neg h

theorem Bare.exists (l : List Char) : ∃ b, Bare l b := by
  by_cases h : l.getLast? = some '\r'
  · obtain ⟨b, hb⟩ := List.getLast?_eq_some_iff.mp h
    exact ⟨b, .inl hb⟩
  · exact ⟨l, .inr ⟨rfl, h⟩⟩

theorem Tests.exists (l : List Char) : ∃ r, Tests l r := by
  by_cases hl : 65536 ≤ (utf8 l).length
  · exact ⟨_, .long hl⟩
  · have hl : (utf8 l).length < 65536 := by omega
    by_cases hk : ∃ k, l = '#' :: k
    · obtain ⟨k, hk⟩ := hk
      exact ⟨_, .comment hl hk⟩
    · obtain ⟨b, hb⟩ := Bare.exists l
      obtain ⟨d, r, hc⟩ := Cut.exists ['#'] (by simp) b
      cases r with
      | none => exact ⟨_, .crash hl hb fun hm => hc.2 (singleton_infix.mpr hm)⟩
      | some r =>
        have hd : d ≠ [] := by
          rintro rfl
          have e := hc.1
          simp only [List.nil_append, List.cons_append] at e
          rcases hb with hb | ⟨hb, _⟩
          · exact hk ⟨r ++ ['\r'], by rw [hb, e]; rfl⟩
          · exact hk ⟨r, by rw [hb, e]⟩
        obtain ⟨ss, hs⟩ := Parts.exists '÷' d
        obtain ⟨k, x, hk'⟩ := Cut.exists ['#'] (by simp) r
        obtain ⟨c, ht⟩ := Trimmed.exists k
        obtain ⟨o, ho⟩ := Each.exists Expects.exists ss
        cases o with
        | error e => exact ⟨_, .stop hl hb hc hd hs ho⟩
        | ok css => exact ⟨_, .test hl hb hc hd hs ho hk' ht⟩

/-- A test as it is in the file. -/
def testOf (t : List (List Char) × List Char) : UnicodeTest := ⟨utf8 t.1.flatten, t.1.map utf8, t.2⟩

theorem parseTest_cut {b d r : List Char} (hc : Cut ['#'] b d (some r)) (hd : d ≠ []) {k : List Char} {x : Option (List Char)}
    (hk : Cut ['#'] r k x) : parseTest b = match parseSegments (splitChar '÷' d) with
        | .error f => .error f
        | .ok none => .ok none
        | .ok (some bs) => .ok (some (some ⟨bs.flatten, bs, trimSpace k⟩)) := by
  obtain ⟨c, d', rfl⟩ := List.exists_cons_of_ne_nil hd
  have h1 := hc.char
  have h2 := hk.char
  have hn : c ≠ '#' := fun e => hc.2 (singleton_infix.mpr (by simp [e]))
  have hb := hc.1
  simp only [List.cons_append] at hb
  subst hb
  simp only at h1
  rw [h2] at h1
  rw [parseTest]
  rw [if_neg hn, h1]
  rfl

theorem Each.tests {ls : List (List Char)} {r : Except Stop (List (List (List Char) × List Char))} (h : Each Tests ls r) : match r with
    | .error s => Halts s (parseTests ls)
    | .ok ts => parseTests ls = .ok (some (ts.map testOf)) := by
  have first : ∀ {l b : List Char}, (utf8 l).length < 65536 → Bare l b → ∀ ls, parseTests (l :: ls) = match parseTest b with
      | .error f => .error f
      | .ok none => .ok none
      | .ok (some t) => match parseTests ls with
        | .error f => .error f
        | .ok none => .ok none
        | .ok (some ts) => .ok (some (t.toList ++ ts)) := by
    intro l b hl hb ls
    rw [parseTests, if_neg (show ¬ 65536 ≤ (encode _).length from Nat.not_le_of_lt hl), hb.eq]
    rfl
  have ok : ∀ {l x}, Tests l (.ok x) → ∀ ls, parseTests (l :: ls) = match parseTests ls with
        | .error f => .error f
        | .ok none => .ok none
        | .ok (some ts) => .ok (some (x.map testOf ++ ts)) := by
    intro l x h ls
    cases h with
    | @comment k hl hk =>
      subst hk
      obtain ⟨k', hk⟩ := dropCR_hash k
      rw [parseTests, if_neg (show ¬ 65536 ≤ (encode _).length from Nat.not_le_of_lt hl), hk, parseTest, if_pos rfl]
      rfl
    | test hl hb hc hd hp he hk ht =>
      have := he.segments
      simp only at this
      rw [first hl hb, parseTest_cut hc hd hk, hp.eq, this]
      simp only [ht.eq, utf8_flatten]
      rfl
  induction h with
  | nil => rfl
  | stop h =>
    cases h with
    | long hl => show parseTests _ = _; rw [parseTests, if_pos (show _ ≤ (encode _).length from hl)]
    | @crash b hl hb hn =>
      refine ⟨.bounds, ?_, fun e => by cases e⟩
      rw [first hl hb]
      cases b with
      | nil => rfl
      | cons c b =>
        rw [parseTest, if_neg (fun e => hn (by simp [e])), splitChar_none hn]
    | @stop b d r ss _ hl hb hc hd hp he =>
      obtain ⟨k, x, hk⟩ := Cut.exists ['#'] (by simp) r
      have := he.segments
      simp only at this ⊢
      rw [first hl hb, parseTest_cut hc hd hk, hp.eq]
      exact this.cast (fun e => by simp only [e]) (fun f e => by simp only [e])
  | later h _ ih =>
    simp only at ih ⊢
    rw [ok h]
    exact ih.cast (fun e => by rw [e]) (fun f e => by rw [e])
  | next h _ ih =>
    simp only at ih ⊢
    rw [ok h, ih, List.map_append]

theorem TextLines.eq {text : List Char} {ls : List (List Char)} (h : TextLines text ls) : textLines [] text = ls := by
  induction h with
  | nil => rfl
  | last h1 h2 => rw [textLines_last _ _ h2 (by simpa using h1)]; rfl
  | line h1 _ ih => rw [textLines_line _ _ _ h1, ih]; rfl

theorem TextLines.exists : ∀ text : List Char, ∃ ls, TextLines text ls
  | [] => ⟨_, .nil⟩
  | c :: s => by
    obtain ⟨ls, h⟩ := TextLines.exists s
    by_cases hc : c = '\n'
    · subst hc; exact ⟨_, .line (l := []) (by simp) h⟩
    · cases h with
      | nil => exact ⟨_, .last (by simp) (by simp [Ne.symm hc])⟩
      | last _ h => exact ⟨_, .last (by simp) (by simp [h, Ne.symm hc])⟩
      | @line l t ls h h' => exact ⟨_, .line (l := c :: l) (by simp [h, Ne.symm hc]) h'⟩

end Uax29.Spec.PropFile
