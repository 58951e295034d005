import Verif.Spec.Repair
import Verif.Props.Joiners
import Verif.Props.Levels
import Verif.Proofs.AtomicRules
/-! # Property C64: ill-formed bytes can be replaced before or after segmentation -/
namespace Uax29
open Spec

/-! ## tokens and their boundaries -/

theorem boundary_tail {α : Type} {p : List α} {P : List (List α)} (hp : p ≠ []) (a : List α) :
    Boundary (p :: P) (p ++ a) ↔ Boundary P a := by
  rw [boundary_cons]
  constructor
  · rintro (h | ⟨a', h, h'⟩)
    · exact absurd (List.append_eq_nil_iff.mp h).1 hp
    · rw [List.append_cancel_left h]
      exact h'
  · exact fun h => .inr ⟨a, rfl, h⟩

/-- Tokens are given by their boundaries. -/
theorem tokens_unique {α : Type} : ∀ {P W : List (List α)}, P.flatten = W.flatten → (∀ p ∈ P, p ≠ []) → (∀ w ∈ W, w ≠ []) →
    (∀ a b, P.flatten = a ++ b → (Boundary P a ↔ Boundary W a)) → P = W
  | [], [], _, _, _, _ => rfl
  | [], w :: W, h, _, hw, _ => by
    simp only [List.flatten_nil, List.flatten_cons] at h
    exact absurd (List.append_eq_nil_iff.mp h.symm).1 (hw w (by simp))
  | p :: P, [], h, hp, _, _ => by
    simp only [List.flatten_nil, List.flatten_cons] at h
    exact absurd (List.append_eq_nil_iff.mp h).1 (hp p (by simp))
  | p :: P, w :: W, h, hp, hw, hb => by
    have hpn := hp p (by simp)
    have hwn := hw w (by simp)
    have h1 : Boundary (w :: W) p := by
      rw [← hb p P.flatten rfl]
      exact boundary_cons.mpr (.inr ⟨[], by simp, boundary_nil _⟩)
    have h2 : Boundary (p :: P) w := by
      rw [hb w W.flatten (by rw [h]; rfl)]
      exact boundary_cons.mpr (.inr ⟨[], by simp, boundary_nil _⟩)
    have hpw : p = w := by
      rcases boundary_cons.mp h1 with h1 | ⟨a, h1, _⟩
      · exact absurd h1 hpn
      rcases boundary_cons.mp h2 with h2 | ⟨b, h2, _⟩
      · exact absurd h2 hwn
      have := congrArg List.length h2
      rw [h1] at this
      simp only [List.length_append] at this
      have : a = [] := List.length_eq_zero_iff.mp (by omega)
      rw [h1, this, List.append_nil]
    subst hpw
    have hf : P.flatten = W.flatten := by
      simp only [List.flatten_cons] at h
      exact List.append_cancel_left h
    have := tokens_unique hf (fun x hx => hp x (List.mem_cons_of_mem _ hx)) (fun x hx => hw x (List.mem_cons_of_mem _ hx)) (by
      intro a b hab
      rw [← boundary_tail hpn, ← boundary_tail (P := W) hpn]
      exact hb (p ++ a) b (by rw [List.flatten_cons, hab, List.append_assoc]))
    rw [this]

theorem boundary_map {α β : Type} (f : α → β) {gs : List (List α)} {a b : List α} (h : gs.flatten = a ++ b) :
    Boundary (gs.map (List.map f)) (a.map f) ↔ Boundary gs a := by
  have e : ∀ n, ((gs.map (List.map f)).take n).flatten = ((gs.take n).flatten).map f := by
    intro n
    rw [← List.map_take, List.map_flatten]
  constructor
  · rintro ⟨n, hn⟩
    refine ⟨n, ?_⟩
    rw [e] at hn
    have h1 : gs.flatten = (gs.take n).flatten ++ (gs.drop n).flatten := by
      rw [← List.flatten_append, List.take_append_drop]
    exact (List.append_inj (h1.symm.trans h) (by simpa only [List.length_map] using congrArg List.length hn)).1
  · rintro ⟨n, rfl⟩
    exact ⟨n, e n⟩

/-- Tokens of pieces and tokens of the repaired text, both by the same rules, correspond. -/
theorem repaired_tokens {ps : List Piece} {gs : List (List Piece)} {ws : List (List Char)} (break_ : List Piece → List Piece → Prop)
    (h1 : gs.flatten = ps) (h2 : ∀ g ∈ gs, g ≠ []) (h3 : ∀ a b, ps = a ++ b → (Boundary gs a ↔ break_ a b))
    (k1 : ws.flatten = ps.map Piece.repaired) (k2 : ∀ w ∈ ws, w ≠ [])
    (k3 : ∀ a b, ps = a ++ b → (Boundary ws (a.map Piece.repaired) ↔ break_ a b)) :
    ws = gs.map (List.map Piece.repaired) := by
  have hf : (gs.map (List.map Piece.repaired)).flatten = ps.map Piece.repaired := by rw [← List.map_flatten, h1]
  refine tokens_unique (k1.trans hf.symm) k2 ?_ ?_
  · intro w hw
    obtain ⟨g, hg, rfl⟩ := List.mem_map.mp hw
    simpa using h2 g hg
  · intro a b hab
    rw [k1] at hab
    obtain ⟨a', b', hp, rfl, rfl⟩ := List.map_eq_append_iff.mp hab
    rw [k3 a' b' hp, boundary_map Piece.repaired (h1.trans hp), h3 a' b' hp]

/-! ## U+FFFD has no properties -/

theorem graphemes_repaired (l : List Piece) :
    (l.map Piece.repaired).map graphemeClasses = l.map (Piece.classes graphemeClasses fun _ => false) := by
  rw [List.map_map]
  refine List.map_congr_left fun p _ => ?_
  cases p with
  | char c => rfl
  | bad b =>
    funext g
    simp only [Function.comp_apply, Piece.repaired, Piece.classes]
    cases g <;> decide +kernel

theorem words_repaired (l : List Piece) :
    (l.map Piece.repaired).map wordClasses = l.map (Piece.classes wordClasses fun _ => false) := by
  rw [List.map_map]
  refine List.map_congr_left fun p _ => ?_
  cases p with
  | char c => rfl
  | bad b =>
    funext g
    simp only [Function.comp_apply, Piece.repaired, Piece.classes]
    cases g <;> decide +kernel

theorem phrases_repaired (l : List Piece) :
    (l.map Piece.repaired).map phraseClasses = l.map (Piece.classes phraseClasses fun _ => false) := by
  rw [List.map_map]
  refine List.map_congr_left fun p _ => ?_
  cases p with
  | char c => rfl
  | bad b =>
    funext g
    simp only [Function.comp_apply, Piece.repaired, Piece.classes]
    cases g <;> decide +kernel

theorem sentences_repaired (l : List Piece) :
    (l.map Piece.repaired).map sentenceClass = l.map (Piece.classes sentenceClass .Other) := by
  rw [List.map_map]
  refine List.map_congr_left fun p _ => ?_
  cases p with
  | char c => rfl
  | bad b =>
    simp only [Function.comp_apply, Piece.repaired, Piece.classes]
    decide +kernel

/-! ## C64 -/

theorem tokenBytes_nil : ∀ gs : List (List Piece), tokenBytes [] gs = gs.map (·.flatMap Piece.bytes)
  | [] => rfl
  | [g] => by simp [tokenBytes]
  | g :: g' :: gs => by rw [tokenBytes_cons, tokenBytes_nil (g' :: gs)]; rfl

/-- **C64** for graphemes, words and phrases: replacing the ill-formed pieces of a text by U+FFFD and then taking it apart gives
the tokens with the ill-formed pieces replaced. (An incomplete encoding `t` at the end belongs to the last token, C42.) -/
theorem C64_repair (p : Pkg) (hp : p ≠ .sentences) (data : Bytes) :
    ∃ ps t gs, Pieces data ps t ∧ defaultTokens p data = .ok (tokenBytes t gs) ∧ gs.flatten = ps ∧ (∀ g ∈ gs, g ≠ [])
      ∧ defaultTokens p (utf8 (ps.map Piece.repaired)) = .ok (gs.map fun g => utf8 (g.map Piece.repaired)) := by
  cases p with
  | sentences => exact absurd rfl hp
  | graphemes =>
    obtain ⟨ps, t, gs, h0, h1, h2, h3, h4⟩ := C42_graphemes data
    obtain ⟨ws, k1, k2, k3, k4⟩ := C08_conform (ps.map Piece.repaired)
    refine ⟨ps, t, gs, h0, h1, h2, h3, ?_⟩
    rw [k1, repaired_tokens _ h2 h3 h4 k2 k3, List.map_map]
    · rfl
    · intro a b hab
      rw [k4 _ (b.map Piece.repaired) (by rw [hab, List.map_append]), graphemes_repaired, graphemes_repaired]
  | words =>
    obtain ⟨ps, t, gs, h0, h1, h2, h3, h4⟩ := C42_words data
    obtain ⟨ws, k1, k2, k3, k4⟩ := C09_conform (ps.map Piece.repaired)
    refine ⟨ps, t, gs, h0, h1, h2, h3, ?_⟩
    rw [k1, repaired_tokens _ h2 h3 h4 k2 k3, List.map_map]
    · rfl
    · intro a b hab
      rw [k4 _ (b.map Piece.repaired) (by rw [hab, List.map_append]), words_repaired, words_repaired]
  | phrases =>
    obtain ⟨ps, t, gs, h0, h1, h2, h3, h4⟩ := C42_phrases data
    obtain ⟨ws, k1, k2, k3, k4⟩ := C11_conform (ps.map Piece.repaired)
    refine ⟨ps, t, gs, h0, h1, h2, h3, ?_⟩
    rw [k1, repaired_tokens _ h2 h3 h4 k2 k3, List.map_map]
    · rfl
    · intro a b hab
      rw [k4 _ (b.map Piece.repaired) (by rw [hab, List.map_append]), phrases_repaired, phrases_repaired]

/-- **C64** for sentences. The full statement is the one above; missing are texts that end with an incomplete encoding. -/
theorem C64_sentences_partial (data : Bytes) (ps : List Piece) (hp : Pieces data ps []) :
    ∃ gs, defaultTokens .sentences data = .ok (tokenBytes [] gs) ∧ gs.flatten = ps ∧ (∀ g ∈ gs, g ≠ [])
      ∧ defaultTokens .sentences (utf8 (ps.map Piece.repaired)) = .ok (gs.map fun g => utf8 (g.map Piece.repaired)) := by
  obtain ⟨gs, h1, h2, h3, h4⟩ := C42_sentences_partial data ps hp
  obtain ⟨ws, k1, k2, k3, k4⟩ := C10_conform (ps.map Piece.repaired)
  refine ⟨gs, by rw [h1, tokenBytes_nil], h2, h3, ?_⟩
  rw [k1, repaired_tokens _ h2 h3 h4 k2 k3, List.map_map]
  · rfl
  · intro a b hab
    rw [k4 _ (b.map Piece.repaired) (by rw [hab, List.map_append]), sentences_repaired, sentences_repaired]

/-- C64 is violated by sentences if the text ends with an incomplete encoding: see `C42_sentences_fails`. -/
theorem C64_sentences_fails : ¬ ∀ data ps t, Pieces data ps t → ∃ gs, defaultTokens .sentences data = .ok (tokenBytes t gs)
      ∧ gs.flatten = ps
      ∧ defaultTokens .sentences (utf8 (ps.map Piece.repaired)) = .ok (gs.map fun g => utf8 (g.map Piece.repaired)) := by
  intro h
  obtain ⟨gs, h1, h2, h3⟩ := h _ _ _ C42_sentences_fails.1
  have h4 : defaultTokens .sentences (utf8 ([Piece.char 'a', .char '.', .char ' ', .char '1'].map Piece.repaired))
      = .ok [utf8 "a. ".toList, utf8 "1".toList] := by decide +kernel
  rw [h4] at h3
  rw [C42_sentences_fails.2.1] at h1
  have h3 := Except.ok.inj h3
  have h1 := Except.ok.inj h1
  match gs, h1, h3 with
  | [], _, h3 => exact absurd h3 (by simp)
  | [_], _, h3 => exact absurd (congrArg List.length h3) (by simp)
  | _ :: _ :: _ :: _, _, h3 => exact absurd (congrArg List.length h3) (by simp)
  | [g, g'], h1, h3 =>
    have := congrArg List.length h1
    simp [tokenBytes] at this

/-! ### sentences of a text with an incomplete encoding at the end -/

theorem lowerAhead_mono {r : List SB} (l : List SB) (h : lowerAhead r = true) : lowerAhead (r ++ l) = true := by
  unfold lowerAhead at h ⊢
  induction r with
  | nil => simp at h
  | cons b r ih =>
    rw [List.cons_append]
    by_cases hb : b.stops = true
    · rw [List.dropWhile_cons_of_neg (by simp [hb])] at h ⊢
      exact h
    · rw [List.dropWhile_cons_of_pos (by simpa using hb)] at h ⊢
      exact ih h

/-- More text can only take away the boundaries before its last character. -/
theorem sentenceBreak_append {a b : List SB} (l : List SB) (hb : b ≠ []) (h : sentenceBreak a (b ++ l) = true) :
    sentenceBreak a b = true := by
  unfold sentenceBreak at h ⊢
  cases b with
  | nil => exact absurd rfl hb
  | cons x b =>
    cases a with
    | nil => rfl
    | cons y a =>
      simp only [List.isEmpty_cons, List.cons_append, Bool.false_or, Bool.not_eq_true'] at h ⊢
      cases hj : sjoins (y :: a).reverse (x :: b) with
      | false => rfl
      | true =>
        rw [← h, ← List.cons_append]
        unfold sjoins at hj ⊢
        have e : ∀ ahead, sjoinsIf ahead (y :: a).reverse (x :: b ++ l) = sjoinsIf ahead (y :: a).reverse (x :: b) := fun _ => by
          cases (y :: a).reverse <;> rfl
        rw [e]
        cases hl : lowerAhead (x :: b) with
        | true =>
          rw [hl] at hj
          rw [lowerAhead_mono l hl]
          exact hj.symm
        | false =>
          rw [hl] at hj
          cases lowerAhead (x :: b ++ l) with
          | false => exact hj.symm
          | true => exact (sjoinsIf_mono hj fun _ => rfl).symm

/-- A sentence of a text with an incomplete encoding at the end ends where one of the repaired text does. -/
theorem sentences_boundary (data : Bytes) :
    ∃ ps t gs, Pieces data ps t ∧ defaultTokens .sentences data = .ok (tokenBytes t gs) ∧ gs.flatten = ps ∧ (∀ g ∈ gs, g ≠ [])
      ∧ ∀ a b, ps = a ++ b → Boundary gs a →
        sentenceBreak ((a.map Piece.repaired).map sentenceClass) ((b.map Piece.repaired).map sentenceClass) = true := by
  obtain ⟨ps, t, gs, h0, h1, h2, h3, h4⟩ := C42_sentences_cut data
  refine ⟨ps, t, gs, h0, h1, h2, h3, fun a b hab ha => ?_⟩
  rw [sentences_repaired, sentences_repaired]
  by_cases hb : b = []
  · subst hb
    simp [sentenceBreak]
  · exact sentenceBreak_append _ (by simpa using hb) (((h4 a b hab).mp ha).resolve_left hb)

/-- C64 for sentences of all texts: the sentences, with the ill-formed pieces replaced, are made up of whole sentences of the
repaired text. -/
theorem C64_sentences_unions (data : Bytes) :
    ∃ ps t gs, Pieces data ps t ∧ defaultTokens .sentences data = .ok (tokenBytes t gs) ∧ gs.flatten = ps ∧ (∀ g ∈ gs, g ≠ [])
      ∧ ∃ R : List (List (List Char)), defaultTokens .sentences (utf8 (ps.map Piece.repaired)) = .ok (R.flatten.map utf8)
        ∧ R.map List.flatten = gs.map (List.map Piece.repaired) := by
  obtain ⟨ps, t, gs, h0, h1, h2, h3, h4⟩ := sentences_boundary data
  obtain ⟨ws, k1, k2, k3, k4⟩ := C10_conform (ps.map Piece.repaired)
  obtain ⟨R, r1, r2⟩ := unions_of (ws := gs.map (List.map Piece.repaired)) (by rw [← List.map_flatten, h2]) k2 k3 (by
    intro a b hab ha
    obtain ⟨a, b, hp, rfl, rfl⟩ := List.map_eq_append_iff.mp hab
    rw [k4 _ _ hab]
    exact h4 a b hp ((boundary_map Piece.repaired (h2.trans hp)).mp ha))
  exact ⟨ps, t, gs, h0, h1, h2, h3, R, by rw [k1, r1], r2⟩

/-! ## C64 with joiners -/

theorem middle_repaired (M : List Int) (p : Piece) : middleClasses M (.char p.repaired) = middleClasses M p := by
  cases p with
  | char c => rfl
  | bad b =>
    have : ∀ g, (Piece.char '�').wordClasses g = false := by intro g; cases g <;> decide +kernel
    funext g
    show ((Piece.char '�').wordClasses g || _) = _
    rw [this]
    rfl

theorem wordClasses_repaired (p : Piece) : (Piece.char p.repaired).wordClasses = p.wordClasses := by
  have := words_repaired [p]
  simpa [Piece.wordClasses, Piece.classes] using this

theorem rune_repaired (p : Piece) : (Piece.char p.repaired).rune = p.rune := by
  cases p <;> rfl

theorem joined_repaired (M L : List Int) (ps : List Piece) :
    joinedClasses M L ((ps.map Piece.repaired).map Piece.char) = joinedClasses M L ps := by
  cases ps with
  | nil => rfl
  | cons p ps =>
    have h1 : ((ps.map Piece.repaired).map Piece.char).map (middleClasses M) = ps.map (middleClasses M) := by
      rw [List.map_map, List.map_map]
      exact List.map_congr_left fun p _ => middle_repaired M p
    have h2 : ((ps.map Piece.repaired).map Piece.char).head?.any (fun q => q.wordClasses.alnum false)
        = ps.head?.any fun q => q.wordClasses.alnum false := by
      cases ps with
      | nil => rfl
      | cons q ps => exact congrArg (fun w : WSet => w.alnum false) (wordClasses_repaired q)
    simp only [List.map_cons, joinedClasses, h1, leadClasses, rune_repaired, wordClasses_repaired, h2]

/-- The joined words of a text are given by the rules. -/
theorem joinedWords_unique (M L : List Int) : ∀ {P W : List (List Piece)}, P.flatten = W.flatten → (∀ p ∈ P, p ≠ []) →
    (∀ w ∈ W, w ≠ []) → (∀ A g B, P = A ++ g :: B → JoinedWord M L g B.flatten) →
    (∀ A g B, W = A ++ g :: B → JoinedWord M L g B.flatten) → P = W
  | [], [], _, _, _, _, _ => rfl
  | [], w :: W, h, _, hw, _, _ => by
    simp only [List.flatten_nil, List.flatten_cons] at h
    exact absurd (List.append_eq_nil_iff.mp h.symm).1 (hw w (by simp))
  | p :: P, [], h, hp, _, _, _ => by
    simp only [List.flatten_nil, List.flatten_cons] at h
    exact absurd (List.append_eq_nil_iff.mp h).1 (hp p (by simp))
  | p :: P, w :: W, h, hp, hw, h1, h2 => by
    have hpn := List.length_pos_iff.mpr (hp p (by simp))
    have hwn := List.length_pos_iff.mpr (hw w (by simp))
    have j1 := h1 [] p P rfl
    have j2 := h2 [] w W rfl
    simp only [List.flatten_cons] at h
    have hlen := congrArg List.length h
    simp only [List.length_append] at hlen
    have eq : p.length = w.length := by
      rcases Nat.lt_trichotomy p.length w.length with hl | hl | hl
      · have hP : P.flatten ≠ [] := by
          intro e
          rw [e] at hlen
          simp at hlen
          omega
        have := j1.2 hP
        rw [h, j2.1 p.length hpn hl] at this
        cases this
      · exact hl
      · have hW : W.flatten ≠ [] := by
          intro e
          rw [e] at hlen
          simp at hlen
          omega
        have := j2.2 hW
        rw [← h, j1.1 w.length hwn hl] at this
        cases this
    obtain ⟨rfl, hf⟩ := List.append_inj h eq
    rw [joinedWords_unique M L hf (fun x hx => hp x (List.mem_cons_of_mem _ hx)) (fun x hx => hw x (List.mem_cons_of_mem _ hx))
      (fun A g B e => h1 (p :: A) g B (by rw [e]; rfl)) (fun A g B e => h2 (p :: A) g B (by rw [e]; rfl))]

theorem pieces_chars : ∀ s : List Char, Pieces (utf8 s) (s.map Piece.char) []
  | [] => .nil
  | c :: s => .char c (pieces_chars s)

/-- **C64** for words with joiners, by the split function (and so for scanners and, without a space among the joiners, for
iterators, C31). -/
theorem C64_joiners (j : Option Words.Joiners) (data : Bytes) :
    ∃ ps t gs, Pieces data ps t ∧ Splits (Words.joinersSplitFunc j) data (tokenBytes t gs) ∧ gs.flatten = ps ∧ (∀ g ∈ gs, g ≠ [])
      ∧ Splits (Words.joinersSplitFunc j) (utf8 (ps.map Piece.repaired)) (gs.map fun g => utf8 (g.map Piece.repaired)) := by
  obtain ⟨ps, t, gs, h0, h1, h2, h3, h4⟩ := C50_split j data
  obtain ⟨ps', t', ws, k0, k1, k2, k3, k4⟩ := C50_split j (utf8 (ps.map Piece.repaired))
  obtain ⟨rfl, rfl⟩ := k0.unique (pieces_chars _)
  refine ⟨ps, t, gs, h0, h1, h2, h3, ?_⟩
  have hw : ws = gs.map (List.map fun p => Piece.char p.repaired) := by
    refine joinedWords_unique _ _ ?_ k3 ?_ k4 ?_
    · rw [k2, ← List.map_flatten, h2, List.map_map]
      rfl
    · intro w hw
      obtain ⟨g, hg, rfl⟩ := List.mem_map.mp hw
      simpa using h3 g hg
    · intro A g B hAB
      obtain ⟨A', B', e1, rfl, e2⟩ := List.map_eq_append_iff.mp hAB
      obtain ⟨g', B', rfl, rfl, rfl⟩ := List.map_eq_cons_iff.mp e2
      have hj := h4 A' g' B' e1
      have ej := joined_repaired ((j.bind (·.middle)).getD []) ((j.bind (·.leading)).getD []) (g' ++ B'.flatten)
      rw [List.map_map] at ej
      unfold JoinedWord at hj ⊢
      rw [← List.map_flatten, ← List.map_append, List.length_map]
      rw [show (fun p => Piece.char p.repaired) = Piece.char ∘ Piece.repaired from rfl, ej]
      refine ⟨hj.1, fun hn => hj.2 (by simpa using hn)⟩
  rw [hw, tokenBytes_nil, List.map_map] at k1
  have e : ∀ g : List Piece, (g.map fun p => Piece.char p.repaired).flatMap Piece.bytes = utf8 (g.map Piece.repaired) := by
    intro g
    induction g with
    | nil => rfl
    | cons p g ih => rw [List.map_cons, List.flatMap_cons, ih]; rfl
  simpa only [Function.comp_def, e] using k1

/-! ## C61 and C62 for arbitrary bytes -/

/-- The pieces of the tokens of a package, and what is known of their boundaries. -/
theorem byte_levels {big small : Pkg} {gb sb : List Piece → List Piece → Prop} {cut : List Char → List Char → Prop} (data : Bytes)
    (hg : ∃ ps t gs, Pieces data ps t ∧ defaultTokens small data = .ok (tokenBytes t gs) ∧ gs.flatten = ps ∧ (∀ g ∈ gs, g ≠ [])
      ∧ ∀ a b, ps = a ++ b → (Boundary gs a ↔ gb a b))
    (hw : ∃ ps t gs, Pieces data ps t ∧ defaultTokens big data = .ok (tokenBytes t gs) ∧ gs.flatten = ps ∧ (∀ g ∈ gs, g ≠ [])
      ∧ ∀ a b, ps = a ++ b → Boundary gs a → sb a b)
    (h : ∀ a b, sb a b → (gb a b ↔ ¬ cut (a.map Piece.repaired) (b.map Piece.repaired))) :
    ∃ ps t gs ws, Pieces data ps t ∧ defaultTokens small data = .ok (tokenBytes t gs)
      ∧ defaultTokens big data = .ok (tokenBytes t ws) ∧ gs.flatten = ps ∧ ws.flatten = ps
      ∧ (∀ g ∈ gs, g ≠ []) ∧ (∀ w ∈ ws, w ≠ [])
      ∧ ∀ a b, ps = a ++ b → Boundary ws a → (Boundary gs a ↔ ¬ cut (a.map Piece.repaired) (b.map Piece.repaired)) := by
  obtain ⟨ps, t, gs, g0, g1, g2, g3, g4⟩ := hg
  obtain ⟨ps', t', ws, w0, w1, w2, w3, w4⟩ := hw
  obtain ⟨rfl, rfl⟩ := w0.unique g0
  refine ⟨ps', t', gs, ws, g0, g1, w1, g2, w2, g3, w3, fun a b hab ha => ?_⟩
  rw [g4 a b hab]
  exact h a b (w4 a b hab ha)

/-- **C61** for arbitrary bytes, ill-formed ones as U+FFFD. Missing: the positions of `WordCutsGrapheme`. -/
theorem C61_bytes_partial (big : Pkg) (hb : big = .words ∨ big = .phrases) (data : Bytes) :
    ∃ ps t gs ws, Pieces data ps t ∧ defaultTokens .graphemes data = .ok (tokenBytes t gs)
      ∧ defaultTokens big data = .ok (tokenBytes t ws) ∧ gs.flatten = ps ∧ ws.flatten = ps
      ∧ (∀ g ∈ gs, g ≠ []) ∧ (∀ w ∈ ws, w ≠ [])
      ∧ ∀ a b, ps = a ++ b → Boundary ws a →
        (Boundary gs a ↔ ¬ WordCutsGrapheme (a.map Piece.repaired) (b.map Piece.repaired)) := by
  rcases hb with rfl | rfl
  · obtain ⟨ps, t, ws, w0, w1, w2, w3, w4⟩ := C42_words data
    refine byte_levels data (C42_graphemes data) ⟨ps, t, ws, w0, w1, w2, w3, fun a b hab => (w4 a b hab).mp⟩ fun a b h => ?_
    rw [← words_repaired, ← words_repaired] at h
    rw [← graphemes_repaired, ← graphemes_repaired]
    exact wordCuts_iff h
  · obtain ⟨ps, t, ws, w0, w1, w2, w3, w4⟩ := C42_phrases data
    refine byte_levels data (C42_graphemes data) ⟨ps, t, ws, w0, w1, w2, w3, fun a b hab => (w4 a b hab).mp⟩ fun a b h => ?_
    rw [← phrases_repaired, ← phrases_repaired] at h
    rw [← graphemes_repaired, ← graphemes_repaired]
    exact wordCuts_iff (wordBreak_of_phraseBreak h)

/-- **C61** for the sentences of arbitrary bytes. Missing: the positions of `SentenceCutsGrapheme`. -/
theorem C61_sentences_bytes_partial (data : Bytes) :
    ∃ ps t gs ws, Pieces data ps t ∧ defaultTokens .graphemes data = .ok (tokenBytes t gs)
      ∧ defaultTokens .sentences data = .ok (tokenBytes t ws) ∧ gs.flatten = ps ∧ ws.flatten = ps
      ∧ (∀ g ∈ gs, g ≠ []) ∧ (∀ w ∈ ws, w ≠ [])
      ∧ ∀ a b, ps = a ++ b → Boundary ws a →
        (Boundary gs a ↔ ¬ SentenceCutsGrapheme (a.map Piece.repaired) (b.map Piece.repaired)) := by
  refine byte_levels data (C42_graphemes data) (sentences_boundary data) fun a b h => ?_
  rw [← graphemes_repaired, ← graphemes_repaired]
  exact sentenceCutsGrapheme_iff h

/-- **C62** for words of arbitrary bytes. Missing: the positions of `SentenceCutsWord`. -/
theorem C62_words_bytes_partial (data : Bytes) :
    ∃ ps t gs ws, Pieces data ps t ∧ defaultTokens .words data = .ok (tokenBytes t gs)
      ∧ defaultTokens .sentences data = .ok (tokenBytes t ws) ∧ gs.flatten = ps ∧ ws.flatten = ps
      ∧ (∀ g ∈ gs, g ≠ []) ∧ (∀ w ∈ ws, w ≠ [])
      ∧ ∀ a b, ps = a ++ b → Boundary ws a →
        (Boundary gs a ↔ ¬ SentenceCutsWord (a.map Piece.repaired) (b.map Piece.repaired)) := by
  refine byte_levels data (C42_words data) (sentences_boundary data) fun a b h => ?_
  rw [← words_repaired, ← words_repaired]
  exact sentenceCutsWord_iff h

/-- **C62** for phrases of arbitrary bytes. Missing: the positions of `SentenceCutsPhrase`. -/
theorem C62_phrases_bytes_partial (data : Bytes) :
    ∃ ps t gs ws, Pieces data ps t ∧ defaultTokens .phrases data = .ok (tokenBytes t gs)
      ∧ defaultTokens .sentences data = .ok (tokenBytes t ws) ∧ gs.flatten = ps ∧ ws.flatten = ps
      ∧ (∀ g ∈ gs, g ≠ []) ∧ (∀ w ∈ ws, w ≠ [])
      ∧ ∀ a b, ps = a ++ b → Boundary ws a →
        (Boundary gs a ↔ ¬ SentenceCutsPhrase (a.map Piece.repaired) (b.map Piece.repaired)) := by
  refine byte_levels data (C42_phrases data) (sentences_boundary data) fun a b h => ?_
  rw [← phrases_repaired, ← phrases_repaired]
  exact sentenceCutsPhrase_iff h

/-! ## examples -/

-- A stray continuation byte between letters: two words and it alone, repaired or not.
example : defaultTokens .words [0x61, 0x80, 0x62] = .ok [[0x61], [0x80], [0x62]]
    ∧ defaultTokens .words (utf8 ['a', '�', 'b']) = .ok [utf8 ['a'], utf8 ['�'], utf8 ['b']] := by decide +kernel
-- An overlong encoding takes an accent, as U+FFFD does.
example : defaultTokens .graphemes ([0xE0, 0x80, 0x80] ++ utf8 ['\u0301', 'a']) = .ok [[0xE0, 0x80, 0x80] ++ utf8 ['\u0301'], [0x61]]
    ∧ defaultTokens .graphemes (utf8 ['�', '\u0301', 'a']) = .ok [utf8 ['�', '\u0301'], [0x61]] := by decide +kernel
-- With an incomplete encoding at the end two sentences become one.
example : defaultTokens .sentences (utf8 "a. 1".toList ++ [0xF0]) = .ok [utf8 "a. 1".toList ++ [0xF0]]
    ∧ defaultTokens .sentences (utf8 "a. 1".toList) = .ok [utf8 "a. ".toList, utf8 "1".toList] := by decide +kernel

end Uax29
