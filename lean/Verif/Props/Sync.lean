import Verif.Spec.Sync
import Verif.Proofs.SyncRules
import Verif.Proofs.JoinersExact
import Verif.Proofs.AnsiText
import Verif.Props.Packages
import Verif.Props.Classes
import Verif.Props.Clusters
import Verif.Props.Append
import Verif.Props.Utf8
import Verif.Model.Chars
/-! # Reading from within a text: C73 -/
namespace Uax29
open Spec

/-- How many of the first tokens of a text may depend on the text before it. -/
def unsynced : Pkg → Nat
  | .graphemes => 1
  | .words => 2
  | .phrases => 2
  | .sentences => 1

/-- The text begins with a letter of a flag. For words and phrases, ignored characters may be before it. -/
def FlagFirst : Pkg → Bytes → Prop
  | .graphemes => StartsFlag fun _ => False
  | .words => StartsFlag fun c => (wordClasses c).ignorable = true
  | .phrases => StartsFlag fun c => (wordClasses c).ignorable = true
  | .sentences => fun _ => False

theorem indicator_graphemes {c : Char} (h : graphemeClasses c .RegionalIndicator = true) : regionalIndicator c := by
  rw [C51_graphemes] at h
  simpa [Ucd.grapheme, Ucd.gcb, Ucd.gcbRegionalIndicator, Ucd.gcbChanged, inRanges, regionalIndicator] using h

theorem indicator_words {c : Char} (h : wordClasses c .RegionalIndicator = true) : regionalIndicator c := by
  rw [C51_words] at h
  simpa [Ucd.word, Ucd.wb, Ucd.wbRegionalIndicator, Ucd.wbChanged, inRanges, regionalIndicator] using h

/-- The first pieces of a text that have properties are characters of it. -/
theorem Decodes.starts {T : Trie} (hT : T.Wf) (hs : T.Strict) {b t : Bytes} {l : List (Nat × Bytes)}
    (h : Decodes T b l t) {I R : List (Nat × Bytes)} {d : Nat × Bytes} (hl : l = I ++ d :: R)
    (hI : ∀ i ∈ I, i.1 ≠ 0) (hd : d.1 ≠ 0) :
    ∃ m c rest, b = utf8 (m ++ [c]) ++ rest ∧ I.map Prod.fst = m.map T.prop ∧ d.1 = T.prop c := by
  obtain ⟨ps, hp, rfl⟩ := h.pieces hT hs
  have hb := hp.flatten
  obtain ⟨is, r, rfl, rfl, hr⟩ := List.map_eq_append_iff.mp hl
  obtain ⟨d', rs, rfl, rfl, rfl⟩ := List.map_eq_cons_iff.mp hr
  have all : ∀ is : List Piece, (∀ i ∈ is.map T.pieceChunk, i.1 ≠ 0) →
      ∃ m : List Char, is = m.map Piece.char := by
    intro is
    induction is with
    | nil => exact fun _ => ⟨[], rfl⟩
    | cons i is ih =>
      intro h
      obtain ⟨m, rfl⟩ := ih fun j hj => h j (by simp only [List.map_cons, List.mem_cons]; exact .inr hj)
      cases i with
      | char c => exact ⟨c :: m, rfl⟩
      | bad bs => exact absurd rfl (h _ (by simp only [List.map_cons, List.mem_cons]; exact .inl rfl))
  obtain ⟨m, rfl⟩ := all is hI
  cases d' with
  | bad bs => exact absurd rfl hd
  | char c =>
    refine ⟨m, c, rs.flatMap Piece.bytes ++ t, ?_, by simp [Trie.pieceChunk, Trie.pieceProp, Piece.classes], rfl⟩
    rw [← hb]
    have : ∀ m : List Char, (m.map Piece.char).flatMap Piece.bytes = utf8 m := by
      intro m
      induction m with
      | nil => rfl
      | cons c m ih => rw [List.map_cons, List.flatMap_cons, ih]; rfl
    rw [List.flatMap_append, this, List.flatMap_cons, utf8_append]
    simp [utf8, Piece.bytes]

/-- **C73** Reading may begin within a text, where no encoding continues and the text that follows does not
begin with a letter of a flag: after at most two tokens, the tokens are those of the whole text. The
bytes before that place, and the others, may be any. -/
theorem C73_sync (p : Pkg) (a b : Bytes) (hb : StartsFresh b) (hf : ¬ FlagFirst p b) (ts tl : List Bytes)
    (h : defaultTokens p b = .ok (ts ++ tl)) (hn : unsynced p < ts.length) :
    ∃ us, defaultTokens p (a ++ b) = .ok (us ++ tl) ∧ us.flatten = a ++ ts.flatten := by
  rw [default_segs] at h
  obtain ⟨us, h1, h2⟩ := (follows p).sync (trieOf_wf p) (splitAdv_good p) (restart p) (n := unsynced p) (a := a) (b := b)
    (by
      cases b with
      | nil => rfl
      | cons x b => exact hb x rfl)
    (by
      intro c l1 l2 l3 t hd hv
      have hv2 : ∀ x ∈ l2.map Prod.fst, (trieOf p).IsValue x := by
        intro x hx
        obtain ⟨y, hy, rfl⟩ := List.mem_map.mp hx
        exact (hd.values y (by simp [hy])).1
      apply Syncs.of_map Prod.fst (J := ruleOf p c)
      cases p with
      | sentences => exact Sentences.syncs c
      | graphemes =>
        refine Graphemes.syncs hv2 ?_
        cases l2 with
        | nil => rfl
        | cons d l2 =>
          rw [List.map_cons, List.head?_cons, Option.any_some, Bool.eq_false_iff]
          intro hri
          obtain ⟨m, c, rest, e1, e2, e3⟩ := hd.starts Graphemes.wf Graphemes.strict (I := []) rfl (by simp) (by
            intro h0; rw [h0] at hri; revert hri; decide)
          obtain rfl : m = [] := by simpa using e2.symm
          refine hf ⟨[], c, rest, e1, by simp, indicator_graphemes ?_⟩
          rw [graphemeClasses_eq, ← e3]
          exact hri
      | words =>
        refine Words.syncs hv2 ?_
        intro I d R hl hI _
        rw [Bool.eq_false_iff]
        intro hri
        obtain ⟨I', r, rfl, rfl, hr⟩ := List.map_eq_append_iff.mp hl
        obtain ⟨d', R', rfl, rfl, rfl⟩ := List.map_eq_cons_iff.mp hr
        obtain ⟨m, c, rest, e1, e2, e3⟩ := hd.starts Words.wf Words.strict (I := I') (d := d') (R := R' ++ l3) (by simp) (by
          intro i hi h0
          have := hI _ (List.mem_map_of_mem hi)
          rw [h0] at this; revert this; decide) (by
          intro h0; rw [h0] at hri; revert hri; decide)
        refine hf ⟨m, c, rest, e1, ?_, indicator_words ?_⟩
        · intro i hi
          rw [Words.wordClasses_eq]
          exact hI _ (by rw [e2]; exact List.mem_map_of_mem hi)
        · rw [Words.wordClasses_eq, ← e3]
          exact hri
      | phrases =>
        refine Phrases.syncs hv2 ?_
        intro I d R hl hI _
        rw [Bool.eq_false_iff]
        intro hri
        obtain ⟨I', r, rfl, rfl, hr⟩ := List.map_eq_append_iff.mp hl
        obtain ⟨d', R', rfl, rfl, rfl⟩ := List.map_eq_cons_iff.mp hr
        obtain ⟨m, c, rest, e1, e2, e3⟩ := hd.starts Phrases.wf Phrases.strict (I := I') (d := d') (R := R' ++ l3) (by simp) (by
          intro i hi h0
          have := hI _ (List.mem_map_of_mem hi)
          rw [h0] at this; revert this; decide) (by
          intro h0; rw [h0] at hri; revert hri; decide)
        refine hf ⟨m, c, rest, e1, ?_, indicator_words ?_⟩
        · intro i hi
          rw [← C33_classes, phraseClasses_eq]
          exact hI _ (by rw [e2]; exact List.mem_map_of_mem hi)
        · rw [← C33_classes, phraseClasses_eq, ← e3]
          exact hri)
    (Except.ok.inj h) hn (by
      revert hn
      cases p <;> simp only [unsynced] <;> omega)
  exact ⟨us, by rw [default_segs, h1], h2⟩

-- the text before changes the first two words of the text "\u0308'b c", and the first sentence of ".S x. Y"
example : StartsFresh (utf8 (chars "\u0308'b c"))
    ∧ defaultTokens .words (utf8 (chars "\u0308'b c")) = .ok [utf8 ['\u0308'], utf8 ['\''], utf8 ['b'], utf8 [' '], utf8 ['c']]
    ∧ defaultTokens .words (utf8 (chars "x a") ++ utf8 (chars "\u0308'b c"))
      = .ok [utf8 ['x'], utf8 [' '], utf8 ['a', '\u0308', '\'', 'b'], utf8 [' '], utf8 ['c']] := by
  refine ⟨?_, by decide +kernel, by decide +kernel⟩
  intro x hx
  cases hx
  decide
example : defaultTokens .sentences (utf8 (chars ".S x. Y")) = .ok [utf8 ['.'], utf8 (chars "S x. "), utf8 ['Y']]
    ∧ defaultTokens .sentences (utf8 (chars "W. U") ++ utf8 (chars ".S x. Y"))
      = .ok [utf8 (chars "W. "), utf8 (chars "U.S x. "), utf8 ['Y']] := by
  decide +kernel
-- bytes that are not UTF-8: the text before ends within an encoding
example : StartsFresh [0x61, 0xFF, 0x62] ∧ defaultTokens .graphemes [0x61, 0xFF, 0x62] = .ok [[0x61], [0xFF], [0x62]]
    ∧ defaultTokens .graphemes ([0xF0, 0x9F] ++ [0x61, 0xFF, 0x62]) = .ok [[0xF0, 0x9F], [0x61], [0xFF], [0x62]] := by
  refine ⟨?_, by decide +kernel, by decide +kernel⟩
  intro x hx
  cases hx
  decide

/-- C73 for a part of a text: all tokens of the part but the first and the last few are tokens of the
text, at the same place. -/
theorem C73_window (p : Pkg) (a b c : Bytes) (hb : StartsFresh b) (hf : ¬ FlagFirst p b) (ts ms tl : List Bytes)
    (h : defaultTokens p b = .ok (ts ++ ms ++ tl)) (hn : unsynced p < ts.length) (hl : unsettled p ≤ tl.length) :
    ∃ us vs, defaultTokens p (a ++ b ++ c) = .ok (us ++ ms ++ vs) ∧ us.flatten = a ++ ts.flatten
      ∧ vs.flatten = tl.flatten ++ c := by
  obtain ⟨us, h1, h2⟩ := C73_sync p a b hb hf ts (ms ++ tl) (by rw [h, List.append_assoc]) hn
  obtain ⟨vs, h3, h4⟩ := C71_append p (a ++ b) c (us ++ ms) tl (by rw [h1, List.append_assoc]) hl
  refine ⟨us, vs, h4, h2, ?_⟩
  rw [default_segs] at h3
  rw [← Except.ok.inj h3, (splitAdv_good p).segs_flatten]

example : defaultTokens .words (utf8 (chars "b c d e f")) = .ok ([utf8 ['b'], utf8 [' '], utf8 ['c']]
      ++ [utf8 [' '], utf8 ['d'], utf8 [' ']] ++ [utf8 ['e'], utf8 [' '], utf8 ['f']])
    ∧ defaultTokens .words (utf8 ['a'] ++ utf8 (chars "b c d e f") ++ utf8 ['g']) = .ok ([utf8 ['a', 'b'], utf8 [' '], utf8 ['c']]
      ++ [utf8 [' '], utf8 ['d'], utf8 [' ']] ++ [utf8 ['e'], utf8 [' '], utf8 ['f', 'g']]) := by
  decide +kernel

theorem encode_inj {c d : Char} {e f : Bytes} (h : String.utf8EncodeChar c ++ e = String.utf8EncodeChar d ++ f) :
    c = d ∧ e = f := by
  have h1 := decodeRune_encode c e
  rw [h, decodeRune_encode d f] at h1
  simp only [Prod.mk.injEq] at h1
  have hc : c = d := by
    have := h1.1
    rw [← Char.ofNat_toNat c, ← Char.ofNat_toNat d]
    congr 1
    exact this.symm
  subst hc
  exact ⟨rfl, List.append_cancel_left h⟩

/-- `StartsFlag` from character to character. -/
theorem startsFlag_cons {skip : Char → Prop} {x : Char} {d : Bytes} (h : StartsFlag skip (String.utf8EncodeChar x ++ d)) :
    regionalIndicator x ∨ skip x ∧ StartsFlag skip d := by
  obtain ⟨m, c, rest, e, hm, hc⟩ := h
  cases m with
  | nil =>
    rw [List.nil_append, utf8_cons, utf8_nil, List.append_nil] at e
    rw [(encode_inj e).1]
    exact .inl hc
  | cons i m =>
    rw [List.cons_append, utf8_cons, List.append_assoc] at e
    obtain ⟨rfl, e'⟩ := encode_inj e
    exact .inr ⟨hm x (by simp), m, c, rest, e', fun j hj => hm j (by simp [hj]), hc⟩

theorem startsFresh_cons {x : UInt8} {b : Bytes} (h : continuation x = false) : StartsFresh (x :: b) := by
  intro y hy
  cases hy
  exact h

/-- Fewer tokens are not enough. -/
theorem C73_least (p : Pkg) : ∃ a b ts tl, StartsFresh b ∧ ¬ FlagFirst p b ∧ defaultTokens p b = .ok (ts ++ tl)
    ∧ ts.length = unsynced p ∧ ¬ ∃ us, defaultTokens p (a ++ b) = .ok (us ++ tl) := by
  have key : ∀ (a b : Bytes) (ts tl ws : List Bytes), StartsFresh b → ¬ FlagFirst p b → defaultTokens p b = .ok (ts ++ tl) →
      ts.length = unsynced p → defaultTokens p (a ++ b) = .ok ws → ¬ tl <:+ ws →
      ∃ a b ts tl, StartsFresh b ∧ ¬ FlagFirst p b ∧ defaultTokens p b = .ok (ts ++ tl)
        ∧ ts.length = unsynced p ∧ ¬ ∃ us, defaultTokens p (a ++ b) = .ok (us ++ tl) := by
    intro a b ts tl ws h1 h2 h3 h4 h5 h6
    refine ⟨a, b, ts, tl, h1, h2, h3, h4, ?_⟩
    rintro ⟨us, h7⟩
    rw [h5] at h7
    exact h6 ⟨us, (Except.ok.inj h7).symm⟩
  have flag : ¬ StartsFlag (fun c => (wordClasses c).ignorable = true) (utf8 ['\u0308', '\'', 'b']) := by
    intro h
    rcases startsFlag_cons h with h | ⟨_, h⟩
    · revert h; unfold regionalIndicator; decide
    · rcases startsFlag_cons h with h | ⟨h, _⟩
      · revert h; unfold regionalIndicator; decide
      · revert h; decide +kernel
  cases p with
  | graphemes =>
    refine key (utf8 ['❤']) (utf8 ['\u200D', '❤']) [utf8 ['\u200D']] [utf8 ['❤']] [utf8 ['❤', '\u200D', '❤']]
      (startsFresh_cons (by decide)) ?_ (by decide +kernel) rfl (by decide +kernel) (by decide)
    intro h
    rcases startsFlag_cons h with h | ⟨h, _⟩
    · revert h; unfold regionalIndicator; decide
    · exact h
  | words =>
    exact key (utf8 ['a']) (utf8 ['\u0308', '\'', 'b']) [utf8 ['\u0308'], utf8 ['\'']] [utf8 ['b']] [utf8 ['a', '\u0308', '\'', 'b']]
      (startsFresh_cons (by decide)) flag (by decide +kernel) rfl (by decide +kernel) (by decide)
  | phrases =>
    exact key (utf8 ['a']) (utf8 ['\u0308', '\'', 'b']) [utf8 ['\u0308'], utf8 ['\'']] [utf8 ['b']] [utf8 ['a', '\u0308', '\'', 'b']]
      (startsFresh_cons (by decide)) flag (by decide +kernel) rfl (by decide +kernel) (by decide)
  | sentences =>
    exact key (utf8 ['U']) (utf8 ['.', 'S']) [utf8 ['.']] [utf8 ['S']] [utf8 ['U', '.', 'S']]
      (startsFresh_cons (by decide)) id (by decide +kernel) rfl (by decide +kernel) (by decide)

/-- A text that begins within an encoding may need more: its first bytes are tokens, but not in the text. -/
theorem C73_fresh (p : Pkg) (hp : p ≠ .sentences) : ∃ a b ts tl, ¬ FlagFirst p b ∧ defaultTokens p b = .ok (ts ++ tl)
    ∧ unsynced p < ts.length ∧ ¬ ∃ us, defaultTokens p (a ++ b) = .ok (us ++ tl) := by
  have key : ∀ (a b : Bytes) (ts tl ws : List Bytes), (∃ x, b.head? = some x ∧ byteIn 0x80 0x9F x) →
      defaultTokens p b = .ok (ts ++ tl) → unsynced p < ts.length → defaultTokens p (a ++ b) = .ok ws → ¬ tl <:+ ws →
      ∃ a b ts tl, ¬ FlagFirst p b ∧ defaultTokens p b = .ok (ts ++ tl)
        ∧ unsynced p < ts.length ∧ ¬ ∃ us, defaultTokens p (a ++ b) = .ok (us ++ tl) := by
    intro a b ts tl ws h1 h2 h3 h4 h5
    have hf : ∀ skip, ¬ StartsFlag skip b := by
      rintro skip ⟨m, c, rest, e, -, -⟩
      obtain ⟨i, m', hm⟩ := List.exists_cons_of_ne_nil (l := m ++ [c]) (by simp)
      obtain ⟨y, l, h, hy, -⟩ := Graphemes.encode_head i
      obtain ⟨x, hx, hx2⟩ := h1
      rw [e, hm, utf8_cons, h] at hx
      cases hx
      exact hy hx2
    refine ⟨a, b, ts, tl, ?_, h2, h3, ?_⟩
    · cases p with
      | sentences => exact absurd rfl hp
      | _ => exact hf _
    rintro ⟨us, h7⟩
    rw [h4] at h7
    exact h5 ⟨us, (Except.ok.inj h7).symm⟩
  cases p with
  | sentences => exact absurd rfl hp
  | graphemes =>
    exact key [0xF0] [0x9F, 0x98, 0x80] [[0x9F], [0x98]] [[0x80]] [[0xF0, 0x9F, 0x98, 0x80]] ⟨_, rfl, by decide, by decide⟩
      (by decide +kernel) (by decide) (by decide +kernel) (by decide)
  | words =>
    exact key [0xF0] [0x90, 0x90, 0x80, 0x27, 0x62] [[0x90], [0x90], [0x80], [0x27]] [[0x62]]
      [[0xF0, 0x90, 0x90, 0x80, 0x27, 0x62]] ⟨_, rfl, by decide, by decide⟩
      (by decide +kernel) (by decide) (by decide +kernel) (by decide)
  | phrases =>
    exact key [0xF0] [0x90, 0x90, 0x80, 0x27, 0x62] [[0x90], [0x90], [0x80], [0x27]] [[0x62]]
      [[0xF0, 0x90, 0x90, 0x80, 0x27, 0x62]] ⟨_, rfl, by decide, by decide⟩
      (by decide +kernel) (by decide) (by decide +kernel) (by decide)

theorem getLast?_right {α : Type} {a b : List α} (h : b ≠ []) : (a ++ b).getLast? = b.getLast? := by
  rw [List.getLast?_append]
  cases b with
  | nil => exact absurd rfl h
  | cons x b => rw [List.getLast?_cons]; rfl

theorem pairs_last {α : Type} : ∀ s : List α, s ≠ [] → ∃ t, (pairs s).getLast? = some t ∧ t.length = 2 - s.length % 2
  | [], h => absurd rfl h
  | [a], _ => ⟨[a], rfl, rfl⟩
  | [a, b], _ => ⟨[a, b], rfl, by simp⟩
  | a :: b :: c :: l, _ => by
    obtain ⟨t, h1, h2⟩ := pairs_last (c :: l) (by simp)
    refine ⟨t, ?_, ?_⟩
    · rw [pairs, List.getLast?_cons, h1]; rfl
    · rw [h2]
      simp only [List.length_cons]
      congr 1
      omega

/-- In a row of flags there is no number of tokens after which the places are known: no boundary but the
end is one of the row with one letter before it. -/
theorem C73_flags (p : Pkg) (hp : p = .graphemes ∨ p = .words) (r : Char) (s : List Char) (hr : regionalIndicator r)
    (hs : ∀ c ∈ s, regionalIndicator c) (he : s.length % 2 = 0) (ts tl : List Bytes)
    (h : defaultTokens p (utf8 s) = .ok (ts ++ tl)) (ht : tl ≠ []) :
    ¬ ∃ us, defaultTokens p (utf8 [r] ++ utf8 s) = .ok (us ++ tl) := by
  rintro ⟨us, h1⟩
  have key : ∀ s, (∀ c ∈ s, regionalIndicator c) → defaultTokens p (utf8 s) = .ok ((pairs s).map utf8) := by
    rcases hp with rfl | rfl
    · exact C21_graphemes
    · exact C21_words
  rw [key s hs] at h
  rw [← utf8_append, key ([r] ++ s) (by simpa using ⟨hr, hs⟩)] at h1
  have hsn : s ≠ [] := by
    rintro rfl
    simp [pairs] at h
    exact ht h.2
  obtain ⟨t, h2, h3⟩ := pairs_last s hsn
  obtain ⟨t', h4, h5⟩ := pairs_last ([r] ++ s) (by simp)
  have e1 : tl.getLast? = some (utf8 t) := by
    have := congrArg List.getLast? (Except.ok.inj h)
    rw [List.getLast?_map, h2, getLast?_right ht] at this
    exact this.symm
  have e2 : tl.getLast? = some (utf8 t') := by
    have := congrArg List.getLast? (Except.ok.inj h1)
    rw [List.getLast?_map, h4, getLast?_right ht] at this
    exact this.symm
  rw [e1] at e2
  have e3 : utf8 t = utf8 t' := Option.some.inj e2
  have inj : ∀ {t t' : List Char}, utf8 t = utf8 t' → t.length = t'.length := by
    intro t
    induction t with
    | nil =>
      intro t' h
      cases t' with
      | nil => rfl
      | cons c t' => exact absurd h.symm (utf8_ne_nil (by simp))
    | cons c t ih =>
      intro t' h
      cases t' with
      | nil => exact absurd h (utf8_ne_nil (by simp))
      | cons c' t' =>
        rw [utf8_cons, utf8_cons] at h
        rw [List.length_cons, List.length_cons, ih (encode_inj h).2]
  have := inj e3
  rw [h3, h5] at this
  simp only [List.length_append, List.length_singleton] at this
  omega

example : defaultTokens .graphemes (utf8 ['🇦', '🇧', '🇨', '🇩']) = .ok ([utf8 ['🇦', '🇧']] ++ [utf8 ['🇨', '🇩']])
    ∧ defaultTokens .graphemes (utf8 ['🇽'] ++ utf8 ['🇦', '🇧', '🇨', '🇩'])
      = .ok [utf8 ['🇽', '🇦'], utf8 ['🇧', '🇨'], utf8 ['🇩']] := by
  decide +kernel

end Uax29
