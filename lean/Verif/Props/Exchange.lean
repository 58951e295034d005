import Verif.Spec.Exchange
import Verif.Props.Repair
/-! # Property C68: only the properties of the characters count -/
namespace Uax29
open Spec

/-- The exchange of a character. -/
def exchangeChar (φ : UInt8 → UInt8) (c : Char) : Char :=
  if c.toNat < 0x80 then Char.ofNat (φ (UInt8.ofNat c.toNat)).toNat else c

/-- The exchange of a piece. -/
def exchangePiece (φ : UInt8 → UInt8) : Piece → Piece
  | .char c => .char (exchangeChar φ c)
  | .bad bs => .bad (bs.map φ)

theorem encode_ascii {b : UInt8} (h : b < 0x80) : String.utf8EncodeChar (Char.ofNat b.toNat) = [b] := by
  have := forall_uint8 (P := fun b => !decide (b < 0x80) || String.utf8EncodeChar (Char.ofNat b.toNat) == [b])
    (by decide +kernel) b
  simpa [h] using this

/-- An encoding is one ASCII byte, or has no ASCII byte. -/
theorem encode_split (c : Char) :
    (c.toNat < 0x80 ∧ UInt8.ofNat c.toNat < 0x80 ∧ String.utf8EncodeChar c = [UInt8.ofNat c.toNat])
    ∨ (¬ c.toNat < 0x80 ∧ ∀ b ∈ String.utf8EncodeChar c, 0x80 ≤ b) := by
  rw [show c.toNat = c.val.toNat from rfl]
  rcases encode_cases c with ⟨h1, b0, he, h2⟩ | ⟨h1, h1', b0, b1, he, h2, h3⟩ |
    ⟨h1, h1', b0, b1, b2, he, h2, h3, h4⟩ | ⟨h1, h1', b0, b1, b2, b3, he, h2, h3, h4, h5⟩
  · refine .inl ⟨h1, ?_, ?_⟩
    · rw [UInt8.lt_iff_toNat_lt, toNat_ofNat_lt (by omega)]; exact h1
    · rw [he, ← h2, UInt8.ofNat_toNat]
  all_goals
    refine .inr ⟨by omega, fun b hb => ?_⟩
    rw [he] at hb
    simp only [List.mem_cons, List.not_mem_nil, or_false] at hb
    rw [UInt8.le_iff_toNat_le, show (0x80 : UInt8).toNat = 0x80 from rfl]
    rcases hb with rfl | hb <;> try omega
    try (rcases hb with rfl | hb <;> try omega)
    try (rcases hb with rfl | rfl <;> omega)
    try (subst hb; omega)

variable {σ : Type} {f : Char → σ} {φ : UInt8 → UInt8}

theorem Spec.Exchanges.high (hφ : Exchanges f φ) {b x : UInt8} (hx : 0x80 ≤ x) (h : φ b = x) : b = x := by
  by_cases hb : b < 0x80
  · exact absurd (hφ.ascii b hb).1 (by rw [h]; exact UInt8.not_lt.mpr hx)
  · rw [← h, hφ.rest b (UInt8.not_lt.mp hb)]

theorem Spec.Exchanges.map_high (hφ : Exchanges f φ) : ∀ {l : Bytes}, (∀ b ∈ l, 0x80 ≤ b) → l.map φ = l
  | [], _ => rfl
  | b :: l, h => by
    rw [List.map_cons, hφ.rest b (h b (by simp)), hφ.map_high fun x hx => h x (by simp [hx])]

theorem Spec.Exchanges.encode (hφ : Exchanges f φ) (c : Char) :
    String.utf8EncodeChar (exchangeChar φ c) = (String.utf8EncodeChar c).map φ := by
  rcases encode_split c with ⟨h1, h2, h3⟩ | ⟨h1, h2⟩
  · rw [exchangeChar, if_pos h1, h3, encode_ascii (hφ.ascii _ h2).1]; rfl
  · rw [exchangeChar, if_neg h1, hφ.map_high h2]

theorem Spec.Exchanges.announced (hφ : Exchanges f φ) (b : UInt8) : announced (φ b) = announced b := by
  by_cases hb : b < 0x80
  · have h := (hφ.ascii b hb).1
    rw [Spec.announced, Spec.announced, if_pos (UInt8.lt_of_lt_of_le hb (by decide)),
      if_pos (UInt8.lt_of_lt_of_le h (by decide))]
  · rw [hφ.rest b (UInt8.not_lt.mp hb)]

theorem Spec.Exchanges.continuation (hφ : Exchanges f φ) (b : UInt8) : continuation (φ b) = continuation b := by
  by_cases hb : b < 0x80
  · have h := (hφ.ascii b hb).1
    rw [Spec.continuation, Spec.continuation, decide_eq_false (UInt8.not_le.mpr hb), decide_eq_false (UInt8.not_le.mpr h),
      Bool.false_and, Bool.false_and]
  · rw [hφ.rest b (UInt8.not_lt.mp hb)]

theorem Spec.Exchanges.pieceLength (hφ : Exchanges f φ) : ∀ d : Bytes, pieceLength (d.map φ) = pieceLength d
  | [] => rfl
  | b :: rest => by
    rw [List.map_cons, Spec.pieceLength, Spec.pieceLength, hφ.announced, ← List.map_take, List.takeWhile_map, List.length_map]
    congr 3
    funext x
    exact hφ.continuation x

/-- What is an encoded character after the exchange was one before. -/
theorem Spec.Exchanges.decode (hφ : Exchanges f φ) {d e : Bytes} {c : Char} (h : d.map φ = String.utf8EncodeChar c ++ e) :
    ∃ c' e', d = String.utf8EncodeChar c' ++ e' := by
  obtain ⟨d1, d2, rfl, h1, h2⟩ := List.map_eq_append_iff.mp h
  rcases encode_split c with ⟨_, k2, k3⟩ | ⟨_, k2⟩
  · rw [k3] at h1
    obtain ⟨b, rfl, hb⟩ : ∃ b, d1 = [b] ∧ φ b = UInt8.ofNat c.toNat := by
      cases d1 with
      | nil => cases h1
      | cons b d1 =>
        cases d1 with
        | nil => exact ⟨b, rfl, (List.cons.inj h1).1⟩
        | cons _ _ => simp at h1
    have hlt : b < 0x80 := by
      refine UInt8.not_le.mp fun hle => ?_
      rw [hφ.rest b hle] at hb
      rw [hb] at hle
      exact absurd k2 (UInt8.not_lt.mpr hle)
    exact ⟨_, d2, by rw [encode_ascii hlt]⟩
  · refine ⟨c, d2, ?_⟩
    rw [← h1] at k2
    have : d1.map φ = d1 := by
      conv => rhs; rw [← List.map_id d1]
      refine List.map_congr_left fun b hb => ?_
      exact (hφ.high (k2 _ (List.mem_map_of_mem hb)) rfl).symm
    rw [← h1, this]

/-- The pieces of a text after the exchange. -/
theorem Spec.Exchanges.pieces (hφ : Exchanges f φ) {d t : Bytes} {ps : List Piece} (h : Pieces d ps t) :
    Pieces (d.map φ) (ps.map (exchangePiece φ)) (t.map φ) := by
  induction h with
  | nil => exact .nil
  | cut short => exact .cut (by rwa [hφ.announced, List.length_map])
  | char c _ ih => rw [List.map_append, ← hφ.encode]; exact .char _ ih
  | @bad b bs d t ps long ill len _ ih =>
    rw [List.map_append, List.map_cons]
    have e : φ b :: bs.map φ ++ d.map φ = (b :: bs ++ d).map φ := by simp
    refine .bad ?_ ?_ ?_ ih
    · rw [e, hφ.announced, List.length_map]; exact long
    · intro c x hc
      rw [e] at hc
      obtain ⟨c', x', h'⟩ := hφ.decode hc
      exact ill c' x' h'
    · rw [e, hφ.pieceLength, len]; simp

theorem Spec.Exchanges.classes (hφ : Exchanges f φ) (o : σ) (l : List Piece) :
    (l.map (exchangePiece φ)).map (Piece.classes f o) = l.map (Piece.classes f o) := by
  rw [List.map_map]
  refine List.map_congr_left fun p _ => ?_
  cases p with
  | bad _ => rfl
  | char c =>
    show f (exchangeChar φ c) = f c
    rcases encode_split c with ⟨h1, h2, _⟩ | ⟨h1, _⟩
    · rw [exchangeChar, if_pos h1, (hφ.ascii _ h2).2, toNat_ofNat_lt (by omega), Char.ofNat_toNat]
    · rw [exchangeChar, if_neg h1]

theorem Spec.Exchanges.bytes (hφ : Exchanges f φ) (g : List Piece) :
    (g.map (exchangePiece φ)).flatMap Piece.bytes = (g.flatMap Piece.bytes).map φ := by
  induction g with
  | nil => rfl
  | cons p g ih =>
    rw [List.map_cons, List.flatMap_cons, List.flatMap_cons, List.map_append, ih]
    cases p with
    | char c => rw [exchangePiece, Piece.bytes, hφ.encode, Piece.bytes]
    | bad _ => rfl

theorem Spec.Exchanges.tokenBytes (hφ : Exchanges f φ) (t : Bytes) : ∀ gs : List (List Piece),
    tokenBytes (t.map φ) (gs.map (List.map (exchangePiece φ))) = (tokenBytes t gs).map (List.map φ)
  | [] => by cases t <;> rfl
  | [g] => by simp [Spec.tokenBytes, hφ.bytes]
  | g :: g' :: gs => by
    have ih := hφ.tokenBytes t (g' :: gs)
    rw [List.map_cons] at ih
    rw [List.map_cons, List.map_cons, tokenBytes_cons, tokenBytes_cons, ih, hφ.bytes, List.map_cons]

/-- Tokens before and after the exchange, both by the same rules, correspond. -/
theorem exchanged_tokens {ps : List Piece} {gs ws : List (List Piece)} (break_ : List Piece → List Piece → Prop)
    (h1 : gs.flatten = ps) (h2 : ∀ g ∈ gs, g ≠ []) (h3 : ∀ a b, ps = a ++ b → (Boundary gs a ↔ break_ a b))
    (k1 : ws.flatten = ps.map (exchangePiece φ)) (k2 : ∀ w ∈ ws, w ≠ [])
    (k3 : ∀ a b, ps = a ++ b → (Boundary ws (a.map (exchangePiece φ)) ↔ break_ a b)) :
    ws = gs.map (List.map (exchangePiece φ)) := by
  have hf : (gs.map (List.map (exchangePiece φ))).flatten = ps.map (exchangePiece φ) := by rw [← List.map_flatten, h1]
  refine tokens_unique (k1.trans hf.symm) k2 ?_ ?_
  · intro w hw
    obtain ⟨g, hg, rfl⟩ := List.mem_map.mp hw
    simpa using h2 g hg
  · intro a b hab
    rw [k1] at hab
    obtain ⟨a', b', hp, rfl, rfl⟩ := List.map_eq_append_iff.mp hab
    rw [k3 a' b' hp, boundary_map _ (h1.trans hp), h3 a' b' hp]

/-- **C68** Exchanging ASCII characters for others with the same properties does not move a boundary, whatever the text:
graphemes. -/
theorem C68_graphemes (φ : UInt8 → UInt8) (hφ : Exchanges graphemeClasses φ) (data : Bytes) :
    ∃ ts, defaultTokens .graphemes data = .ok ts ∧ defaultTokens .graphemes (data.map φ) = .ok (ts.map (List.map φ)) := by
  obtain ⟨ps, t, gs, h0, h1, h2, h3, h4⟩ := C42_graphemes data
  obtain ⟨ps', t', ws, k0, k1, k2, k3, k4⟩ := C42_graphemes (data.map φ)
  obtain ⟨rfl, rfl⟩ := k0.unique (hφ.pieces h0)
  refine ⟨_, h1, ?_⟩
  rw [k1, ← hφ.tokenBytes, exchanged_tokens _ h2 h3 h4 k2 k3]
  intro a b hab
  rw [k4 _ (b.map (exchangePiece φ)) (by rw [hab, List.map_append]), hφ.classes, hφ.classes]

/-- C68, words. -/
theorem C68_words (φ : UInt8 → UInt8) (hφ : Exchanges wordClasses φ) (data : Bytes) :
    ∃ ts, defaultTokens .words data = .ok ts ∧ defaultTokens .words (data.map φ) = .ok (ts.map (List.map φ)) := by
  obtain ⟨ps, t, gs, h0, h1, h2, h3, h4⟩ := C42_words data
  obtain ⟨ps', t', ws, k0, k1, k2, k3, k4⟩ := C42_words (data.map φ)
  obtain ⟨rfl, rfl⟩ := k0.unique (hφ.pieces h0)
  refine ⟨_, h1, ?_⟩
  rw [k1, ← hφ.tokenBytes, exchanged_tokens _ h2 h3 h4 k2 k3]
  intro a b hab
  rw [k4 _ (b.map (exchangePiece φ)) (by rw [hab, List.map_append]), hφ.classes, hφ.classes]

/-- C68, phrases. -/
theorem C68_phrases (φ : UInt8 → UInt8) (hφ : Exchanges phraseClasses φ) (data : Bytes) :
    ∃ ts, defaultTokens .phrases data = .ok ts ∧ defaultTokens .phrases (data.map φ) = .ok (ts.map (List.map φ)) := by
  obtain ⟨ps, t, gs, h0, h1, h2, h3, h4⟩ := C42_phrases data
  obtain ⟨ps', t', ws, k0, k1, k2, k3, k4⟩ := C42_phrases (data.map φ)
  obtain ⟨rfl, rfl⟩ := k0.unique (hφ.pieces h0)
  refine ⟨_, h1, ?_⟩
  rw [k1, ← hφ.tokenBytes, exchanged_tokens _ h2 h3 h4 k2 k3]
  intro a b hab
  rw [k4 _ (b.map (exchangePiece φ)) (by rw [hab, List.map_append]), hφ.classes, hφ.classes]

/-- C68, sentences. -/
theorem C68_sentences (φ : UInt8 → UInt8) (hφ : Exchanges sentenceClass φ) (data : Bytes) :
    ∃ ts, defaultTokens .sentences data = .ok ts ∧ defaultTokens .sentences (data.map φ) = .ok (ts.map (List.map φ)) := by
  obtain ⟨ps, t, gs, h0, h1, h2, h3, h4⟩ := C42_sentences_cut data
  obtain ⟨ps', t', ws, k0, k1, k2, k3, k4⟩ := C42_sentences_cut (data.map φ)
  obtain ⟨rfl, rfl⟩ := k0.unique (hφ.pieces h0)
  refine ⟨_, h1, ?_⟩
  rw [k1, ← hφ.tokenBytes, exchanged_tokens _ h2 h3 h4 k2 k3]
  intro a b hab
  rw [k4 _ (b.map (exchangePiece φ)) (by rw [hab, List.map_append]), hφ.classes, hφ.classes]
  simp only [List.map_eq_nil_iff]

/-! ## upper and lower case, masks -/

theorem exchanges_of (h1 : ∀ n : Fin 128, φ (UInt8.ofNat n) < 0x80)
    (h2 : ∀ n : Fin 128, f (Char.ofNat (φ (UInt8.ofNat n)).toNat) = f (Char.ofNat n))
    (h3 : ∀ b, 0x80 ≤ b → φ b = b) : Exchanges f φ := by
  refine ⟨fun b hb => ?_, h3⟩
  have e : UInt8.ofNat b.toNat = b := UInt8.ofNat_toNat
  have k1 := h1 ⟨b.toNat, hb⟩
  have k2 := h2 ⟨b.toNat, hb⟩
  dsimp only at k1 k2
  rw [e] at k1 k2
  exact ⟨k1, k2⟩

theorem upper_rest (b : UInt8) (h : 0x80 ≤ b) : upper b = b := by
  have := forall_uint8 (P := fun b => !decide (0x80 ≤ b) || upper b == b) (by decide +kernel) b
  simpa [h] using this
theorem lower_rest (b : UInt8) (h : 0x80 ≤ b) : lower b = b := by
  have := forall_uint8 (P := fun b => !decide (0x80 ≤ b) || lower b == b) (by decide +kernel) b
  simpa [h] using this
theorem masked_rest (b : UInt8) (h : 0x80 ≤ b) : masked b = b := by
  have := forall_uint8 (P := fun b => !decide (0x80 ≤ b) || masked b == b) (by decide +kernel) b
  simpa [h] using this

theorem upper_graphemes : Exchanges graphemeClasses upper :=
  exchanges_of (by decide +kernel) (fun n => funext fun g => by revert n; cases g <;> decide +kernel) upper_rest
theorem upper_words : Exchanges wordClasses upper :=
  exchanges_of (by decide +kernel) (fun n => funext fun g => by revert n; cases g <;> decide +kernel) upper_rest
theorem upper_phrases : Exchanges phraseClasses upper :=
  exchanges_of (by decide +kernel) (fun n => funext fun g => by revert n; cases g <;> decide +kernel) upper_rest
theorem lower_graphemes : Exchanges graphemeClasses lower :=
  exchanges_of (by decide +kernel) (fun n => funext fun g => by revert n; cases g <;> decide +kernel) lower_rest
theorem lower_words : Exchanges wordClasses lower :=
  exchanges_of (by decide +kernel) (fun n => funext fun g => by revert n; cases g <;> decide +kernel) lower_rest
theorem lower_phrases : Exchanges phraseClasses lower :=
  exchanges_of (by decide +kernel) (fun n => funext fun g => by revert n; cases g <;> decide +kernel) lower_rest
theorem masked_graphemes : Exchanges graphemeClasses masked :=
  exchanges_of (by decide +kernel) (fun n => funext fun g => by revert n; cases g <;> decide +kernel) masked_rest
theorem masked_words : Exchanges wordClasses masked :=
  exchanges_of (by decide +kernel) (fun n => funext fun g => by revert n; cases g <;> decide +kernel) masked_rest
theorem masked_phrases : Exchanges phraseClasses masked :=
  exchanges_of (by decide +kernel) (fun n => funext fun g => by revert n; cases g <;> decide +kernel) masked_rest
theorem masked_sentences : Exchanges sentenceClass masked :=
  exchanges_of (by decide +kernel) (by decide +kernel) masked_rest

/-- C68, the case of ASCII letters does not matter for graphemes, words and phrases. -/
theorem C68_case (p : Pkg) (hp : p ≠ .sentences) (data : Bytes) :
    ∃ ts, defaultTokens p data = .ok ts ∧ defaultTokens p (data.map upper) = .ok (ts.map (List.map upper))
      ∧ defaultTokens p (data.map lower) = .ok (ts.map (List.map lower)) := by
  cases p with
  | sentences => exact absurd rfl hp
  | graphemes =>
    obtain ⟨ts, h1, h2⟩ := C68_graphemes upper upper_graphemes data
    obtain ⟨ts', h1', h2'⟩ := C68_graphemes lower lower_graphemes data
    cases h1.symm.trans h1'
    exact ⟨ts, h1, h2, h2'⟩
  | words =>
    obtain ⟨ts, h1, h2⟩ := C68_words upper upper_words data
    obtain ⟨ts', h1', h2'⟩ := C68_words lower lower_words data
    cases h1.symm.trans h1'
    exact ⟨ts, h1, h2, h2'⟩
  | phrases =>
    obtain ⟨ts, h1, h2⟩ := C68_phrases upper upper_phrases data
    obtain ⟨ts', h1', h2'⟩ := C68_phrases lower lower_phrases data
    cases h1.symm.trans h1'
    exact ⟨ts, h1, h2, h2'⟩

/-- C68, masking digits, capital and small letters does not move a boundary of any package. -/
theorem C68_mask (p : Pkg) (data : Bytes) :
    ∃ ts, defaultTokens p data = .ok ts ∧ defaultTokens p (data.map masked) = .ok (ts.map (List.map masked)) := by
  cases p with
  | graphemes =>
    exact C68_graphemes masked masked_graphemes data
  | words =>
    exact C68_words masked masked_words data
  | phrases =>
    exact C68_phrases masked masked_phrases data
  | sentences => exact C68_sentences masked masked_sentences data

-- All letters have a case, and nothing else has.
example : (utf8 "aAzZ`{@[5é".toList).map upper = utf8 "AAZZ`{@[5é".toList
    ∧ (utf8 "aAzZ`{@[5É".toList).map lower = utf8 "aazz`{@[5É".toList := by decide +kernel
-- The case does matter for sentences.
example : defaultTokens .sentences (utf8 "Vol. two".toList) = .ok [utf8 "Vol. two".toList]
    ∧ defaultTokens .sentences ((utf8 "Vol. two".toList).map upper) = .ok [utf8 "VOL. ".toList, utf8 "TWO".toList] := by
  decide +kernel
-- Ill-formed bytes and a cut off encoding that takes a letter with it.
example : defaultTokens .words [0x61, 0x62, 0x20, 0x63, 0x80, 0x64, 0xE2, 0x65] = .ok [[0x61, 0x62], [0x20], [0x63], [0x80], [0x64, 0xE2, 0x65]]
    ∧ defaultTokens .words ([0x61, 0x62, 0x20, 0x63, 0x80, 0x64, 0xE2, 0x65].map upper)
      = .ok [[0x41, 0x42], [0x20], [0x43], [0x80], [0x44, 0xE2, 0x45]] := by
  decide +kernel
example : defaultTokens .sentences ((utf8 "Mr. Smith paid 3.50. Then it rained.".toList).map masked)
    = .ok [utf8 "Aa. ".toList, utf8 "Aaaaa aaaa 0.00. ".toList, utf8 "Aaaa aa aaaaaa.".toList] := by decide +kernel

end Uax29
