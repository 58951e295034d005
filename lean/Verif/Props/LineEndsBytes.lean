import Verif.Props.Clusters
import Verif.Props.Pieces
/-! # Line ends, control characters and marks in arbitrary bytes: C19, C20 -/
namespace Uax29
open Spec

theorem carriage_ne : Piece.char '\r' ≠ Piece.char '\n' := fun h => absurd (Piece.char.inj h) (by decide)

/-- `Calm` for pieces. -/
def CalmPieces (ctl : Piece → Prop) (g : List Piece) : Prop :=
  ∀ x c d y, g = x ++ c :: d :: y → (c = .char '\r' ∧ d = .char '\n') ∨ (¬ ctl c ∧ ¬ ctl d)

theorem calmPieces_alone {ctl : Piece → Prop} (hcr : ctl (.char '\r')) (hlf : ctl (.char '\n')) :
    ∀ {t : List Piece}, CalmPieces ctl t →
    (∃ c, t = [c]) ∨ t = [.char '\r', .char '\n'] ∨ ∀ c ∈ t, ¬ ctl c
  | [], _ => by simp
  | [c], _ => by simp
  | c :: d :: t, h => by
    have h1 := h [] c d t rfl
    have htail : CalmPieces ctl (d :: t) := by
      intro x c' d' y hx
      exact h (c :: x) c' d' y (by rw [hx]; rfl)
    rcases h1 with ⟨rfl, rfl⟩ | ⟨h1, h2⟩
    · right; left
      cases t with
      | nil => rfl
      | cons e t =>
        rcases htail [] (.char '\n') e t rfl with ⟨h3, _⟩ | ⟨h3, _⟩
        · exact absurd h3.symm carriage_ne
        · exact absurd hlf h3
    · right; right
      rcases calmPieces_alone hcr hlf htail with ⟨c', h3⟩ | h3 | h3
      · simp only [List.cons.injEq] at h3
        obtain ⟨rfl, rfl⟩ := h3
        intro x hx
        simp only [List.mem_cons, List.not_mem_nil, or_false] at hx
        rcases hx with rfl | rfl
        · exact h1
        · exact h2
      · simp only [List.cons.injEq] at h3
        rw [h3.1] at h2
        exact absurd hcr h2
      · intro x hx
        rcases List.mem_cons.mp hx with rfl | hx
        · exact h1
        · exact h3 x hx

theorem pieces_alone {ctl : Piece → Prop} (hcr : ctl (.char '\r')) (hlf : ctl (.char '\n')) {gs : List (List Piece)}
    (hb : ∀ a c d b, gs.flatten = (a ++ [c]) ++ d :: b → (ctl c ∨ ctl d) → ¬ (c = .char '\r' ∧ d = .char '\n') →
      Boundary gs (a ++ [c])) :
    ∀ g ∈ gs, ∀ c ∈ g, ctl c → g = [c] ∨ g = [.char '\r', .char '\n'] := by
  intro t ht c hc hctl
  obtain ⟨A, B, rfl⟩ := List.append_of_mem ht
  have hcalm : CalmPieces ctl t := by
    intro x c d y hx
    apply Classical.byContradiction
    intro hn
    have := hb (A.flatten ++ x) c d (y ++ B.flatten) (by simp [hx]) (by
      apply Classical.byContradiction
      intro h
      exact hn (.inr ⟨fun h1 => h (.inl h1), fun h1 => h (.inr h1)⟩)) (fun h => hn (.inl h))
    have h2 := boundary_inside (x := x ++ [c]) (y := d :: y) (by simp) (by simp) B A
    rw [show (x ++ [c]) ++ d :: y = t by simp [hx]] at h2
    rw [List.append_assoc] at this
    exact h2 this
  rcases calmPieces_alone hcr hlf hcalm with ⟨c', h⟩ | h | h
  · rw [h, List.mem_singleton] at hc
    left; rw [h, hc]
  · exact .inr h
  · exact absurd hctl (h c hc)

/-- A piece with a class that only one character has is that character. -/
theorem only_char {σ : Type} {f : Char → σ} {bad : σ} {P : σ → Prop} {e : Char} (hbad : ¬ P bad)
    (ho : ∀ c, P (f c) → c = e) {q : Piece} (h : P (q.classes f bad)) : q = .char e := by
  cases q with
  | char c => rw [ho c h]
  | bad bs => exact absurd h hbad

/-- C19 for arbitrary bytes: a CR LF pair is never separated. -/
theorem C19_bytes_pair (p : Pkg) (data : Bytes) :
    ∃ ps t gs, Pieces data ps t ∧ defaultTokens p data = .ok (tokenBytes t gs) ∧ gs.flatten = ps
      ∧ ∀ a b, ps = a ++ .char '\r' :: .char '\n' :: b → ¬ Boundary gs (a ++ [.char '\r']) := by
  cases p with
  | graphemes =>
    obtain ⟨ps, t, gs, h0, h1, h2, _, h4⟩ := C42_graphemes data
    refine ⟨ps, t, gs, h0, h1, h2, fun a b hab => ?_⟩
    rw [h4 (a ++ [Piece.char '\r']) (Piece.char '\n' :: b) (by simp [hab])]
    have k1 : graphemeClasses '\r' .CR = true := by decide +kernel
    have k2 : graphemeClasses '\n' .LF = true := by decide +kernel
    simp [graphemeBreak, graphemeJoins, Piece.classes, k1, k2]
  | words =>
    obtain ⟨ps, t, gs, h0, h1, h2, _, h4⟩ := C42_words data
    refine ⟨ps, t, gs, h0, h1, h2, fun a b hab => ?_⟩
    rw [h4 (a ++ [Piece.char '\r']) (Piece.char '\n' :: b) (by simp [hab])]
    have k1 : wordClasses '\r' .CR = true := by decide +kernel
    have k2 : wordClasses '\n' .LF = true := by decide +kernel
    simp [wordBreak, joins, Piece.classes, k1, k2]
  | phrases =>
    obtain ⟨ps, t, gs, h0, h1, h2, _, h4⟩ := C42_phrases data
    refine ⟨ps, t, gs, h0, h1, h2, fun a b hab => ?_⟩
    rw [h4 (a ++ [Piece.char '\r']) (Piece.char '\n' :: b) (by simp [hab])]
    have k1 : phraseClasses '\r' .CR = true := by decide +kernel
    have k2 : phraseClasses '\n' .LF = true := by decide +kernel
    simp [phraseBreak, joins, Piece.classes, k1, k2]
  | sentences =>
    obtain ⟨ps, t, gs, h0, h1, h2, _, h4⟩ := C42_sentences_cut data
    refine ⟨ps, t, gs, h0, h1, h2, fun a b hab => ?_⟩
    rw [h4 (a ++ [Piece.char '\r']) (Piece.char '\n' :: b) (by simp [hab])]
    have k1 : sentenceClass '\r' = .CR := by decide +kernel
    have k2 : sentenceClass '\n' = .LF := by decide +kernel
    simp [sentenceBreak, sjoins, sjoinsIf, Piece.classes, k1, k2]

/-- C19 for arbitrary bytes: a grapheme whose pieces contain a control character, CR or LF is just that character, or CR LF; only
the last one may have bytes of a cut off encoding after it. -/
theorem C19_bytes_graphemes (data : Bytes) :
    ∃ ps t gs, Pieces data ps t ∧ defaultTokens .graphemes data = .ok (tokenBytes t gs) ∧ gs.flatten = ps
      ∧ ∀ g ∈ gs, ∀ c, .char c ∈ g → (c = '\r' ∨ c = '\n' ∨ graphemeClasses c .Control = true) →
        g = [.char c] ∨ g = [.char '\r', .char '\n'] := by
  obtain ⟨ps, t, gs, h0, h1, h2, _, h4⟩ := C42_graphemes data
  refine ⟨ps, t, gs, h0, h1, h2, ?_⟩
  have k1 : graphemeClasses '\r' .CR = true := by decide +kernel
  have k2 : graphemeClasses '\n' .LF = true := by decide +kernel
  have := pieces_alone (ctl := fun q => (q.classes graphemeClasses fun _ => false).control = true) (gs := gs)
    (by simp [GSet.control, Piece.classes, k1]) (by simp [GSet.control, Piece.classes, k2]) (by
      intro a c d b hab hctl hn
      rw [h4 (a ++ [c]) (d :: b) (by rw [← h2, hab])]
      have h3 : (c.classes graphemeClasses (fun _ => false) .CR && d.classes graphemeClasses (fun _ => false) .LF) = false := by
        cases h5 : (c.classes graphemeClasses (fun _ => false) .CR && d.classes graphemeClasses (fun _ => false) .LF)
        · rfl
        · rw [Bool.and_eq_true] at h5
          exact absurd ⟨only_char (P := fun s : GSet => s .CR = true) (by simp) (fun _ => Graphemes.cr_only) h5.1,
            only_char (P := fun s : GSet => s .LF = true) (by simp) (fun _ => Graphemes.lf_only) h5.2⟩ hn
      simp only [graphemeBreak, List.map_append, List.map_cons, List.map_nil, List.reverse_append, List.reverse_cons,
        List.reverse_nil, List.nil_append, List.singleton_append]
      rw [graphemeJoins, h3, if_neg (by simp), if_pos (by simpa using hctl)]
      simp)
  intro g hg c hc h
  refine this g hg (.char c) hc ?_
  rcases h with rfl | rfl | h
  · simp [GSet.control, Piece.classes, k1]
  · simp [GSet.control, Piece.classes, k2]
  · simp [GSet.control, Piece.classes, h]

/-- C19 for arbitrary bytes: a word whose pieces contain CR, LF or another newline is just that character, or CR LF. -/
theorem C19_bytes_words (data : Bytes) :
    ∃ ps t gs, Pieces data ps t ∧ defaultTokens .words data = .ok (tokenBytes t gs) ∧ gs.flatten = ps
      ∧ ∀ g ∈ gs, ∀ c, .char c ∈ g → (c = '\r' ∨ c = '\n' ∨ wordClasses c .Newline = true) →
        g = [.char c] ∨ g = [.char '\r', .char '\n'] := by
  obtain ⟨ps, t, gs, h0, h1, h2, _, h4⟩ := C42_words data
  refine ⟨ps, t, gs, h0, h1, h2, ?_⟩
  have k1 : wordClasses '\r' .CR = true := by decide +kernel
  have k2 : wordClasses '\n' .LF = true := by decide +kernel
  have := pieces_alone (ctl := fun q => (q.classes wordClasses fun _ => false).newline = true) (gs := gs)
    (by simp [WSet.newline, Piece.classes, k1]) (by simp [WSet.newline, Piece.classes, k2]) (by
      intro a c d b hab hctl hn
      rw [h4 (a ++ [c]) (d :: b) (by rw [← h2, hab])]
      have h3 : (c.classes wordClasses (fun _ => false) .CR && d.classes wordClasses (fun _ => false) .LF) = false := by
        cases h5 : (c.classes wordClasses (fun _ => false) .CR && d.classes wordClasses (fun _ => false) .LF)
        · rfl
        · rw [Bool.and_eq_true] at h5
          exact absurd ⟨only_char (P := fun s : WSet => s .CR = true) (by simp) (fun _ => Words.cr_only) h5.1,
            only_char (P := fun s : WSet => s .LF = true) (by simp) (fun _ => Words.lf_only) h5.2⟩ hn
      simp only [wordBreak, List.map_append, List.map_cons, List.map_nil, List.reverse_append, List.reverse_cons,
        List.reverse_nil, List.nil_append, List.singleton_append]
      rw [joins, h3, if_neg (by simp), if_pos (by simpa using hctl)]
      simp)
  intro g hg c hc h
  refine this g hg (.char c) hc ?_
  rcases h with rfl | rfl | h
  · simp [WSet.newline, Piece.classes, k1]
  · simp [WSet.newline, Piece.classes, k2]
  · simp [WSet.newline, Piece.classes, h]

/-- C19 for arbitrary bytes: the same holds for phrases. -/
theorem C19_bytes_phrases (data : Bytes) :
    ∃ ps t gs, Pieces data ps t ∧ defaultTokens .phrases data = .ok (tokenBytes t gs) ∧ gs.flatten = ps
      ∧ ∀ g ∈ gs, ∀ c, .char c ∈ g → (c = '\r' ∨ c = '\n' ∨ phraseClasses c .Newline = true) →
        g = [.char c] ∨ g = [.char '\r', .char '\n'] := by
  obtain ⟨ps, t, gs, h0, h1, h2, _, h4⟩ := C42_phrases data
  refine ⟨ps, t, gs, h0, h1, h2, ?_⟩
  have k1 : phraseClasses '\r' .CR = true := by decide +kernel
  have k2 : phraseClasses '\n' .LF = true := by decide +kernel
  have := pieces_alone (ctl := fun q => (q.classes phraseClasses fun _ => false).newline = true) (gs := gs)
    (by simp [WSet.newline, Piece.classes, k1]) (by simp [WSet.newline, Piece.classes, k2]) (by
      intro a c d b hab hctl hn
      rw [h4 (a ++ [c]) (d :: b) (by rw [← h2, hab])]
      have h3 : (c.classes phraseClasses (fun _ => false) .CR && d.classes phraseClasses (fun _ => false) .LF) = false := by
        cases h5 : (c.classes phraseClasses (fun _ => false) .CR && d.classes phraseClasses (fun _ => false) .LF)
        · rfl
        · rw [Bool.and_eq_true] at h5
          exact absurd ⟨only_char (P := fun s : WSet => s .CR = true) (by simp) (fun _ => Phrases.cr_only) h5.1,
            only_char (P := fun s : WSet => s .LF = true) (by simp) (fun _ => Phrases.lf_only) h5.2⟩ hn
      simp only [phraseBreak, List.map_append, List.map_cons, List.map_nil, List.reverse_append, List.reverse_cons,
        List.reverse_nil, List.nil_append, List.singleton_append]
      rw [joins, h3, if_neg (by simp), if_pos (by simpa using hctl)]
      simp)
  intro g hg c hc h
  refine this g hg (.char c) hc ?_
  rcases h with rfl | rfl | h
  · simp [WSet.newline, Piece.classes, k1]
  · simp [WSet.newline, Piece.classes, k2]
  · simp [WSet.newline, Piece.classes, h]

/-- C19 for arbitrary bytes: a sentence ends with its first CR LF, CR, LF or other separator; only the bytes of a cut off
encoding at the end of the input may follow in it. -/
theorem C19_bytes_sentences (data : Bytes) :
    ∃ ps t gs, Pieces data ps t ∧ defaultTokens .sentences data = .ok (tokenBytes t gs) ∧ gs.flatten = ps
      ∧ ∀ g ∈ gs, ∀ x c y, g = x ++ .char c :: y → (c = '\r' ∨ c = '\n' ∨ sentenceClass c = .Sep) →
        y = [] ∨ (c = '\r' ∧ y = [.char '\n']) := by
  obtain ⟨ps, t, gs, h0, h1, h2, _, h4⟩ := C42_sentences_cut data
  refine ⟨ps, t, gs, h0, h1, h2, ?_⟩
  have k1 : sentenceClass '\r' = .CR := by decide +kernel
  have k2 : sentenceClass '\n' = .LF := by decide +kernel
  have key : ∀ A g B x c d y, gs = A ++ g :: B → g = x ++ .char c :: d :: y → (sentenceClass c).paraSep = true →
      c = '\r' ∧ d = .char '\n' := by
    intro A g B x c d y hAB hx hc
    apply Classical.byContradiction
    intro hn
    have h6 := boundary_inside (x := x ++ [Piece.char c]) (y := d :: y) (by simp) (by simp) B A
    rw [show (x ++ [Piece.char c]) ++ d :: y = g by simp [hx], ← hAB] at h6
    refine h6 ?_
    rw [h4 _ (d :: y ++ B.flatten) (by rw [← h2, hAB]; simp [hx])]
    have h3 : ¬ (sentenceClass c = .CR ∧ d.classes sentenceClass .Other = .LF) :=
      fun h5 => hn ⟨Sentences.cr_only h5.1,
        only_char (P := fun s : SB => s = .LF) (by simp) (fun _ => Sentences.lf_only) h5.2⟩
    right
    have e : (Piece.char c).classes sentenceClass .Other = sentenceClass c := rfl
    simp [sentenceBreak, sjoins, sjoinsIf, e, h3, hc]
  intro g hg x c y hx hc
  obtain ⟨A, B, hAB⟩ := List.append_of_mem hg
  have hc' : (sentenceClass c).paraSep = true := by
    rcases hc with rfl | rfl | h
    · rw [k1]; rfl
    · rw [k2]; rfl
    · rw [h]; rfl
  cases y with
  | nil => exact .inl rfl
  | cons d y =>
    right
    obtain ⟨rfl, rfl⟩ := key A g B x c d y hAB hx hc'
    refine ⟨rfl, ?_⟩
    cases y with
    | nil => rfl
    | cons e y =>
      have := key A g B (x ++ [.char '\r']) '\n' e y hAB (by simp [hx]) (by rw [k2]; rfl)
      cases this.1

/-- C20 for arbitrary bytes: a grapheme whose first piece is an Extend, ZWJ or SpacingMark character is the first one, or
the piece before it is a control character or line end. So marks also join ill-formed bytes. -/
theorem C20_bytes (data : Bytes) :
    ∃ ps t gs, Pieces data ps t ∧ defaultTokens .graphemes data = .ok (tokenBytes t gs) ∧ gs.flatten = ps
      ∧ ∀ A c g B, gs = A ++ (.char c :: g) :: B →
        (graphemeClasses c .Extend = true ∨ graphemeClasses c .ZWJ = true ∨ graphemeClasses c .SpacingMark = true) →
        A = [] ∨ ∃ d, A.flatten.getLast? = some (.char d)
          ∧ (graphemeClasses d .Control = true ∨ graphemeClasses d .CR = true ∨ graphemeClasses d .LF = true) := by
  obtain ⟨ps, t, gs, h0, h1, h2, h3, h4⟩ := C42_graphemes data
  refine ⟨ps, t, gs, h0, h1, h2, ?_⟩
  intro A c g B hAB hc
  by_cases hA : A = []
  · exact .inl hA
  right
  have hne : A.flatten ≠ [] := flatten_ne_nil (fun g hg => h3 g (by rw [hAB]; simp [hg])) hA
  have hlast := List.dropLast_concat_getLast hne
  have hb := boundary_before A ((Piece.char c :: g) :: B)
  rw [← hAB, ← hlast, h4 _ (Piece.char c :: g ++ B.flatten) (by rw [hlast, ← h2, hAB]; simp)] at hb
  rw [List.getLast?_eq_some_getLast hne]
  generalize A.flatten.getLast hne = d at *
  have hmark : (graphemeClasses c).control = false := by
    have := Graphemes.okValue.all (P := fun v => (gset v .Extend = true ∨ gset v .ZWJ = true ∨ gset v .SpacingMark = true) →
      (gset v).control = false) (by decide +kernel) (Graphemes.okValue_of (Graphemes.wf.prop_value c))
    rw [graphemeClasses_eq] at hc ⊢
    exact this hc
  simp only [graphemeBreak, List.map_append, List.map_cons, List.map_nil, List.reverse_append, List.reverse_cons,
    List.reverse_nil, List.nil_append, List.cons_append] at hb
  rw [graphemeJoins] at hb
  cases hd : (d.classes graphemeClasses fun _ => false).control with
  | true =>
    cases d with
    | bad bs => simp [Piece.classes, GSet.control] at hd
    | char d =>
      refine ⟨d, rfl, ?_⟩
      simp only [Piece.classes, GSet.control, Bool.or_eq_true] at hd
      rcases hd with (h | h) | h
      · exact .inl h
      · exact .inr (.inl h)
      · exact .inr (.inr h)
  | false =>
    split at hb
    · simp at hb
    · rw [hd] at hb
      have e : (Piece.char c).classes graphemeClasses (fun _ => false) = graphemeClasses c := rfl
      rw [e, hmark] at hb
      rcases hc with h | h | h <;> simp [h] at hb

-- a stray continuation byte before CR LF and after LF, and a lone surrogate encoding before a mark
example : defaultTokens .graphemes [0x80, 0x0D, 0x0A, 0x0A, 0x80, 0xCC, 0x81, 0x0A, 0xCC, 0x81]
    = .ok [[0x80], [0x0D, 0x0A], [0x0A], [0x80, 0xCC, 0x81], [0x0A], [0xCC, 0x81]]
    ∧ defaultTokens .words [0x61, 0xFF, 0x0D, 0x0A, 0xFF, 0x0A] = .ok [[0x61], [0xFF], [0x0D, 0x0A], [0xFF], [0x0A]]
    ∧ defaultTokens .sentences [0xFF, 0x0A, 0x80, 0x0D, 0x0A, 0xF0] = .ok [[0xFF, 0x0A], [0x80, 0x0D, 0x0A, 0xF0]] := by
  decide +kernel
-- a cut off encoding at the end is in the token of the line end before it
example : defaultTokens .words [0x61, 0x0A, 0xF0, 0x9F] = .ok [[0x61], [0x0A, 0xF0, 0x9F]]
    ∧ Pieces [0x61, 0x0A, 0xF0, 0x9F] [.char 'a', .char '\n'] [0xF0, 0x9F] :=
  ⟨by decide +kernel, .char 'a' (.char '\n' (.cut (by decide)))⟩

end Uax29
