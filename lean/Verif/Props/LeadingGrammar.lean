import Verif.Spec.JoinerGrammar
import Verif.Props.JoinerGrammar
import Verif.Props.Joiners
import Verif.Props.Repair
/-! # Words with leading joiners are the longest matches of a grammar: C99 -/
namespace Uax29
open Spec

/-- At the start of a text the two sets of properties are the same to the rules: punctuation is of no consequence there, and the rules
do not tell a letter that is both from a Hebrew one. -/
structure SameStart (w w' : WSet) : Prop where
  same : ∀ g, g ≠ .ALetter → WB.mid g = false → w g = w' g
  letter : w.ahLetter false = w'.ahLetter false

theorem SameStart.ignorable {w w' : WSet} (h : SameStart w w') : w.ignorable = w'.ignorable := by
  simp [WSet.ignorable, h.same _ (by decide : WB.Extend ≠ .ALetter) rfl, h.same _ (by decide : WB.Format ≠ .ALetter) rfl,
    h.same _ (by decide : WB.ZWJ ≠ .ALetter) rfl]

theorem SameStart.newline {w w' : WSet} (h : SameStart w w') : w.newline = w'.newline := by
  simp [WSet.newline, h.same _ (by decide : WB.Newline ≠ .ALetter) rfl, h.same _ (by decide : WB.CR ≠ .ALetter) rfl,
    h.same _ (by decide : WB.LF ≠ .ALetter) rfl]

theorem SameStart.alnum {w w' : WSet} (h : SameStart w w') : w.alnum false = w'.alnum false := by
  simp [WSet.alnum, h.letter, h.same _ (by decide : WB.Numeric ≠ .ALetter) rfl]

theorem SameStart.units {w w' : WSet} (h : SameStart w w') : ∀ X : List WSet,
    ∃ U, units (X ++ [w]) = U ++ [w] ∧ units (X ++ [w']) = U ++ [w']
  | [] => ⟨[], rfl, rfl⟩
  | [x] => by
    simp only [List.cons_append, List.nil_append, Spec.units, ← h.newline]
    split
    · exact ⟨[], rfl, rfl⟩
    · exact ⟨[x], rfl, rfl⟩
  | x :: y :: X => by
    obtain ⟨U, h1, h2⟩ := SameStart.units h (y :: X)
    simp only [List.cons_append] at h1 h2 ⊢
    rw [Spec.units, Spec.units]
    simp only [h1, h2]
    split
    · exact ⟨U, rfl, rfl⟩
    · exact ⟨x :: U, rfl, rfl⟩

theorem SameStart.unitJoins {w w' : WSet} (h : SameStart w w') (U : List WSet) (b : WSet) (n : Option WSet) :
    Spec.unitJoins false (U ++ [w]) b n = Spec.unitJoins false (U ++ [w']) b n := by
  have hRI : ((U ++ [w]).takeWhile (· .RegionalIndicator)).length = ((U ++ [w']).takeWhile (· .RegionalIndicator)).length := by
    induction U with
    | nil =>
      have := h.same _ (by decide : WB.RegionalIndicator ≠ .ALetter) rfl
      simp only [List.nil_append, List.takeWhile_cons, List.takeWhile_nil, this]
      split <;> rfl
    | cons x U ih =>
      simp only [List.cons_append, List.takeWhile_cons]
      split
      · simp [ih]
      · rfl
  have k1 := h.same _ (by decide : WB.HebrewLetter ≠ .ALetter) rfl
  have k2 := h.same _ (by decide : WB.Numeric ≠ .ALetter) rfl
  have k3 := h.same _ (by decide : WB.Katakana ≠ .ALetter) rfl
  have k4 := h.same _ (by decide : WB.ExtendNumLet ≠ .ALetter) rfl
  unfold Spec.unitJoins
  rw [hRI]
  match U with
  | [] => simp [h.alnum, h.letter, k1, k2, k3, k4]
  | [x] => simp [h.letter, k1, k2]
  | x :: y :: U => simp

theorem SameStart.joins {w w' : WSet} (h : SameStart w w') (X R : List WSet) :
    Spec.joins false (X ++ [w]) R = Spec.joins false (X ++ [w']) R := by
  obtain ⟨U, h1, h2⟩ := h.units X
  cases R with
  | nil => cases X <;> rfl
  | cons b R =>
    cases X with
    | nil =>
      simp only [List.nil_append] at h1 h2 ⊢
      simp only [Spec.joins, h1, h2, h.newline, h.unitJoins, h.same _ (by decide : WB.CR ≠ .ALetter) rfl,
        h.same _ (by decide : WB.ZWJ ≠ .ALetter) rfl, h.same _ (by decide : WB.WSegSpace ≠ .ALetter) rfl]
    | cons x X =>
      simp only [List.cons_append] at h1 h2 ⊢
      simp only [Spec.joins, h1, h2, h.unitJoins]

theorem sameStart_lead (M : List Int) {L : List Int} (hL : Punctuation L) (c : Char) (n : Option Piece) :
    SameStart (leadClasses L (.char c) n) (withMiddle M (if (c.val.toNat : Int) ∈ L then 'א' else c)) := by
  have hw : (Piece.char c).wordClasses = wordClasses c := rfl
  have hr : (Piece.char c).rune = (c.val.toNat : Int) := rfl
  by_cases hc : (c.val.toNat : Int) ∈ L
  · have h0 : ∀ g, WB.mid g = false → wordClasses c g = false := by
      intro g hg
      cases h : wordClasses c g with
      | false => rfl
      | true => rw [hL c hc g h] at hg; cases hg
    have h1 : (wordClasses c).ignorable = false := by
      simp [WSet.ignorable, h0 .Extend rfl, h0 .Format rfl, h0 .ZWJ rfl]
    have h2 : (wordClasses c).newline = false := by
      simp [WSet.newline, h0 .Newline rfl, h0 .CR rfl, h0 .LF rfl]
    have hA : ∀ g, wordClasses 'א' g = (g == .HebrewLetter) := by
      intro g
      cases g <;> decide +kernel
    have e : leadClasses L (.char c) n = fun g => wordClasses c g || g == .ALetter || g == .HebrewLetter := by
      rw [leadClasses, hw, hr, if_neg (fun h => h hc), h1, h2]
      rfl
    rw [e, if_pos hc]
    constructor
    · intro g hg hm
      have : (g == WB.MidNumLet) = false := by cases g <;> first | rfl | cases hm
      simp only [withMiddle, hA, h0 g hm, this, Bool.false_or, Bool.false_and, Bool.or_false]
      cases g <;> first | rfl | exact absurd rfl hg
    · simp [WSet.ahLetter, withMiddle, hA]
  · have e : leadClasses L (.char c) n = wordClasses c := by rw [leadClasses, hw, hr, if_pos hc]
    rw [e, if_neg hc]
    constructor
    · intro g hg hm
      have : (g == WB.MidNumLet) = false := by cases g <;> first | rfl | cases hm
      simp [withMiddle, this]
    · have h1 : (WB.ALetter == WB.MidNumLet) = false := rfl
      have h2 : (WB.HebrewLetter == WB.MidNumLet) = false := rfl
      simp [WSet.ahLetter, withMiddle, h1, h2]

/-- There is no boundary within the text, by the properties with joiners, if and only if the text has the form. -/
theorem joinedForm_iff {M L : List Int} (hM : Punctuation M) (hL : Punctuation L) (c : Char) (s : List Char) :
    (∀ n, 0 < n → n < (c :: s).length →
      wordBreak ((joinedClasses M L ((c :: s).map Piece.char)).take n) ((joinedClasses M L ((c :: s).map Piece.char)).drop n) = false)
      ↔ JoinedForm M L (c :: s) := by
  have hm : (s.map Piece.char).map (middleClasses M) = s.map (withMiddle M) := by
    rw [List.map_map]; rfl
  have hS := sameStart_lead M hL c (s.map Piece.char).head?
  rw [JoinedForm, ← undivided_iff (withMiddle_exclusive hM) (by simp [asLetter])]
  simp only [List.map_cons, joinedClasses, hm, asLetter]
  generalize (if (c.val.toNat : Int) ∈ L then 'א' else c) = c' at hS ⊢
  generalize leadClasses L (.char c) (s.map Piece.char).head? = w at hS ⊢
  have key : ∀ x y : List Char, s = x ++ y → y ≠ [] →
      (wordBreak (w :: x.map (withMiddle M)) (y.map (withMiddle M)) = false
        ↔ joins false ((c' :: x).map (withMiddle M)).reverse (y.map (withMiddle M)) = true) := by
    intro x y _ hy
    have : (y.map (withMiddle M)).isEmpty = false := by cases y with
      | nil => exact absurd rfl hy
      | cons => rfl
    simp only [wordBreak, List.isEmpty_cons, this, Bool.false_or, Bool.not_eq_false', List.map_cons, List.reverse_cons]
    rw [hS.joins]
  constructor
  · intro h x y hxy hx hy
    cases x with
    | nil => exact absurd rfl hx
    | cons d x =>
      obtain ⟨rfl, hs⟩ := List.cons.inj hxy
      replace hs : s = x ++ y := hs
      have h1 := h (x.length + 1) (by omega) (by
        rw [hs]; simp only [List.length_cons, List.length_append]
        have := List.length_pos_iff.mpr hy
        omega)
      refine (key x y hs hy).mp ?_
      subst hs
      simpa using h1
  · intro h n h0 hn
    obtain ⟨k, rfl⟩ : ∃ k, n = k + 1 := ⟨n - 1, by omega⟩
    simp only [List.length_cons] at hn
    have hy : s.drop k ≠ [] := by
      intro e
      have := congrArg List.length e
      simp at this
      omega
    have := (key (s.take k) (s.drop k) (List.take_append_drop k s).symm hy).mpr
      (h (c' :: s.take k) (s.drop k) (by simp) (by simp) hy)
    simpa [List.map_take, List.map_drop] using this

theorem bytes_chars (s : List Char) : (s.map Piece.char).flatMap Piece.bytes = utf8 s := by
  simp [utf8, List.flatMap_map]
  rfl

/-- A text is one word for a scanner with joiners if and only if it has the form. -/
theorem scanner_joined_iff {j : Option Words.Joiners} {M L : List Int} (hM : Punctuation M) (hL : Punctuation L)
    (eM : (j.bind (·.middle)).getD [] = M) (eL : (j.bind (·.leading)).getD [] = L) (t : List Char) (r : Scanner.Reader) (n max : Nat)
    (hr : (deliver 0 r).1 = utf8 t) (hmax : (utf8 t).length < max) :
    Scanner.tokens (scanner .words j r n max) = .ok ([utf8 t], shownErr (deliver 0 r).2) ↔ JoinedForm M L t := by
  obtain ⟨ps, t', gs, h1, h2, h3, h4, h5⟩ := C50_scanner j r n max (by rw [hr]; exact hmax)
  rw [hr] at h1
  obtain ⟨rfl, rfl⟩ := h1.unique (pieces_chars t)
  rw [h2]
  simp only [eM, eL] at h5
  cases t with
  | nil =>
    constructor
    · intro h
      have : gs = [] := by
        cases gs with
        | nil => rfl
        | cons g gs =>
          have := h4 g (by simp)
          simp_all
      subst this
      simp [tokenBytes] at h
    · intro h
      exact absurd rfl (WordForm.ne_nil h)
  | cons c s =>
    rw [← joinedForm_iff hM hL]
    constructor
    · intro h
      have h6 : tokenBytes [] gs = [utf8 (c :: s)] := (Prod.mk.inj (Except.ok.inj h)).1
      match gs, h6 with
      | [], h6 => simp [tokenBytes] at h6
      | [g], h6 =>
        have := h5 [] g [] rfl
        simp only [List.flatten_cons, List.flatten_nil, List.append_nil] at h3 this
        subst h3
        intro n h0 hn
        simpa only [List.append_nil] using this.1 n h0 (by simpa using hn)
      | g :: g' :: gs, h6 =>
        simp only [tokenBytes] at h6
        have := congrArg List.length h6
        cases gs <;> simp [tokenBytes] at this
    · intro h
      match gs with
      | [] => simp at h3
      | [g] =>
        simp only [List.flatten_cons, List.flatten_nil, List.append_nil] at h3
        subst h3
        simp only [tokenBytes, List.append_nil, bytes_chars]
      | g :: g' :: gs =>
        exfalso
        have h7 := (h5 [] g (g' :: gs) rfl).2 (by simp [h4 g' (by simp)])
        have h8 : g ++ (g' :: gs).flatten = (c :: s).map Piece.char := by rw [← h3]; rfl
        have e := congrArg List.length h8
        rw [h8, h g.length (List.length_pos_iff.mpr (h4 g (by simp))) (by
          have := List.length_pos_iff.mpr (h4 g' (by simp))
          simp only [List.length_append, List.flatten_cons, List.length_map] at e
          omega)] at h7
        cases h7

/-- **C99** With joiners that are punctuation the words are the longest matches of the grammar in which a middle joiner is like the
full stop, and a leading joiner at the start is like a Hebrew letter. -/
theorem C99_joiners (j : Option Words.Joiners) (M L : List Int) (hM : Punctuation M) (hL : Punctuation L)
    (eM : (j.bind (·.middle)).getD [] = M) (eL : (j.bind (·.leading)).getD [] = L) (s : List Char) (ts : List (List Char)) :
    tokens .words j (utf8 s) = .ok (ts.map utf8) ↔ LongestMatches (JoinedForm M L) s ts := by
  rw [C98_joiners_longest]
  refine longestMatches_congr fun u => ?_
  have hsp : ∀ M', j.bind (·.middle) = some M' → (0x20 : Int) ∉ M' := by
    intro M' e h
    rw [e] at eM
    have := hM ' ' (by rw [← eM]; exact h) .WSegSpace (by decide +kernel)
    cases this
  let r : Scanner.Reader := [(utf8 u, some .eof)]
  have hr : (deliver 0 r).1 = utf8 u := rfl
  rw [← scanner_joined_iff hM hL eM eL u r 0 ((utf8 u).length + 1) hr (by omega)]
  obtain ⟨ts, k1, k2⟩ := C31_agree_partial j hsp r 0 ((utf8 u).length + 1) (by rw [hr]; omega)
  rw [k2, ← hr, k1]
  simp

/-- **C99** A scanner with such joiners yields the longest matches of the grammar. -/
theorem C99_joiners_scanner (j : Option Words.Joiners) (M L : List Int) (hM : Punctuation M) (hL : Punctuation L)
    (eM : (j.bind (·.middle)).getD [] = M) (eL : (j.bind (·.leading)).getD [] = L) (s : List Char) (ts : List (List Char))
    (r : Scanner.Reader) (n max : Nat) (hr : (deliver 0 r).1 = utf8 s) (hmax : (utf8 s).length < max) :
    Scanner.tokens (scanner .words j r n max) = .ok (ts.map utf8, shownErr (deliver 0 r).2) ↔ LongestMatches (JoinedForm M L) s ts := by
  have hsp : ∀ M', j.bind (·.middle) = some M' → (0x20 : Int) ∉ M' := by
    intro M' e h
    rw [e] at eM
    have := hM ' ' (by rw [← eM]; exact h) .WSegSpace (by decide +kernel)
    cases this
  obtain ⟨us, k1, k2⟩ := C31_agree_partial j hsp r n max (by rw [hr]; exact hmax)
  rw [← C99_joiners j M L hM hL eM eL, k2, ← hr, k1]
  simp

/-- **C99** On arbitrary bytes, with joiners as above, the words are whole pieces, and with every ill-formed piece as U+FFFD they are the
longest matches of the grammar; an encoding that is cut off at the end of the text belongs to the last word. -/
theorem C99_joiners_bytes (j : Option Words.Joiners) (M L : List Int) (hM : Punctuation M) (hL : Punctuation L)
    (eM : (j.bind (·.middle)).getD [] = M) (eL : (j.bind (·.leading)).getD [] = L) (data : Bytes) :
    ∃ ps t gs, Pieces data ps t ∧ tokens .words j data = .ok (tokenBytes t gs) ∧ gs.flatten = ps ∧ (∀ g ∈ gs, g ≠ [])
      ∧ LongestMatches (JoinedForm M L) (ps.map Piece.repaired) (gs.map (·.map Piece.repaired)) := by
  have hsp : ∀ M', j.bind (·.middle) = some M' → (0x20 : Int) ∉ M' := by
    intro M' e h
    rw [e] at eM
    have := hM ' ' (by rw [← eM]; exact h) .WSegSpace (by decide +kernel)
    cases this
  obtain ⟨ps, t, gs, h0, h1, h2, h3, h4⟩ := C64_joiners j data
  refine ⟨ps, t, gs, h0, ?_, h2, h3, ?_⟩
  · rw [words_segs j hsp, (splits_iff (splitOf_good .words j)).1 h1]
    rfl
  · rw [← C99_joiners j M L hM hL eM eL, words_segs j hsp]
    have := (splits_iff (splitOf_good .words j)).1 h4
    rw [List.map_map]
    exact congrArg Except.ok this.symm

-- "#" and "@" at the start of words, "-" in the middle
theorem punctuation_signs : Punctuation [0x23, 0x40] := by
  intro c hc g
  have : c = '#' ∨ c = '@' := by
    simp only [List.mem_cons, List.not_mem_nil, or_false] at hc
    rcases hc with h | h
    · exact .inl (Char.ext (UInt32.toNat_inj.mp (by exact_mod_cast h)))
    · exact .inr (Char.ext (UInt32.toNat_inj.mp (by exact_mod_cast h)))
  rcases this with rfl | rfl <;> cases g <;> decide +kernel
example : LongestMatches (JoinedForm [0x2D, 0x40, 0x2E] [0x23, 0x40]) (chars "#a-b @c@d ##1 #'")
    [chars "#a-b", [' '], chars "@c@d", [' '], ['#'], chars "#1", [' '], chars "#'"] :=
  (C99_joiners (some ⟨some [0x2D, 0x40, 0x2E], some [0x23, 0x40]⟩) _ _ punctuation_hyphen punctuation_signs rfl rfl _ _).mp
    (by decide +kernel)
-- "#a" is a word with "#" as a leading joiner, and "a#" is none
example : JoinedForm [] [0x23] ['#', 'a'] ∧ ¬ JoinedForm [] [0x23] ['a', '#'] := by
  constructor
  · exact .pieces (.one (.run (.next 'a' [] (.one 'א' [] (.inl (.inl (.inr (.inl (by decide +kernel))))) (by simp [Marks]))
      (.inl ⟨.inl (.inr (.inl (by decide +kernel))), .inl (.inl (by decide +kernel))⟩) (by simp [Marks]))))
  · have h0 : Punctuation [] := fun _ h => by cases h
    have h1 : Punctuation [0x23] := fun c h g => punctuation_signs c (List.mem_cons.mpr (.inl (by simpa using h))) g
    rw [← scanner_joined_iff (j := some ⟨none, some [0x23]⟩) h0 h1 rfl rfl ['a', '#'] [(utf8 ['a', '#'], some .eof)] 0 100 rfl
      (by decide +kernel)]
    decide +kernel
-- U+FFFD as a leading joiner: so is an ill-formed byte
theorem punctuation_fffd : Punctuation [0xFFFD] := by
  intro c hc g
  obtain rfl : c = '\uFFFD' := Char.ext (UInt32.toNat_inj.mp (by
    have h := List.mem_singleton.mp hc
    have e : ('\uFFFD'.val.toNat : Int) = 0xFFFD := by decide +kernel
    rw [← e] at h
    exact Int.ofNat.inj h))
  cases g <;> decide +kernel
example : tokens .words (some ⟨none, some [0xFFFD]⟩) [0x80, 0x61, 0x80, 0xE2]
    = .ok (tokenBytes [0xE2] [[.bad [0x80], .char 'a'], [.bad [0x80]]]) := by decide +kernel
example : LongestMatches (JoinedForm [] [0xFFFD]) ['\uFFFD', 'a', '\uFFFD'] [['\uFFFD', 'a'], ['\uFFFD']] :=
  (C99_joiners (some ⟨none, some [0xFFFD]⟩) _ _ (fun _ h => by cases h) punctuation_fffd rfl rfl _ _).mp (by decide +kernel)

end Uax29
