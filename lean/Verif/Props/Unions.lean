import Verif.Props.Pieces
import Verif.Proofs.TwoTables
/-! # Property C33: phrases are unions of words -/
namespace Uax29
open Spec

/-- C33, the tables of the two packages give every character the same properties. -/
theorem C33_classes (c : Char) : phraseClasses c = wordClasses c := by
  rw [phraseClasses_eq, Words.wordClasses_eq, prop_strip, pset_strip (Words.wf.prop_value c)]

theorem unitJoins_mono {left : List WSet} {b : WSet} {next : Option WSet} (h : unitJoins false left b next = true) :
    unitJoins true left b next = true := by
  have any_mono : ∀ {f g : WSet → Bool} {o : Option WSet}, (∀ x, f x = true → g x = true) → o.any f = true → o.any g = true := by
    intro f g o hfg ho
    cases o with
    | none => cases ho
    | some x => exact hfg x ho
  have h1 : ∀ x : WSet, x.ahLetter false = true → x.ahLetter true = true := by
    intro x hx
    simp only [WSet.ahLetter, Bool.false_and, Bool.or_false] at hx
    simp [WSet.ahLetter, hx]
  have h2 : ∀ x : WSet, x.alnum false = true → x.alnum true = true := by
    intro x hx
    simp only [WSet.alnum, Bool.false_and, Bool.or_false, Bool.or_eq_true] at hx
    rcases hx with hx | hx
    · simp [WSet.alnum, h1 x hx]
    · simp [WSet.alnum, hx]
  unfold unitJoins at h ⊢
  simp only [Bool.or_eq_true, Bool.and_eq_true] at h ⊢
  rcases h with ((((((((((h | h) | h) | h) | h) | h) | h) | h) | h) | h) | h) | h
  · simp only [any_mono h2 h.1, h2 _ h.2, true_and, true_or]
  · simp only [any_mono h1 h.1.1, h.1.2, any_mono h1 h.2, true_and, true_or, or_true]
  · simp only [any_mono h1 h.1.1, h.1.2, h1 _ h.2, true_and, true_or, or_true]
  · simp only [h, true_and, true_or, or_true]
  · simp only [h.1.1, h.1.2, h.2, true_and, true_or, or_true]
  · simp only [h.1.1, h.1.2, h.2, true_and, true_or, or_true]
  · simp only [h.1.1, h.1.2, h.2, true_and, true_or, or_true]
  · simp only [h.1.1, h.1.2, h.2, true_and, true_or, or_true]
  · simp only [h.1, h.2, true_and, true_or, or_true]
  · have := any_mono (g := fun x => x.ahLetter true || x .Numeric || x .Katakana || x .ExtendNumLet) (by
      intro x hx
      simp only [Bool.or_eq_true] at hx ⊢
      rcases hx with ((hx | hx) | hx) | hx
      · exact .inl (.inl (.inl (h1 x hx)))
      · exact .inl (.inl (.inr hx))
      · exact .inl (.inr hx)
      · exact .inr hx) h.1
    simp only [this, h.2, true_and, true_or, or_true]
  · obtain ⟨h3, (h4 | h4) | h4⟩ := h
    · simp only [h3, h1 _ h4, true_and, true_or, or_true]
    · simp only [h3, h4, true_and, true_or, or_true]
    · simp only [h3, h4, true_and, true_or, or_true]
  · exact .inr h

/-- Where the word rules join, the phrase rules do. -/
theorem joins_mono : ∀ {left right : List WSet}, joins false left right = true → joins true left right = true
  | [], _, h => by simp [joins] at h
  | _ :: _, [], h => by simp [joins] at h
  | a :: left, b :: right, h => by
    unfold joins at h ⊢
    dsimp only at h ⊢
    split
    · rfl
    rename_i h1
    rw [if_neg h1] at h
    split
    · rename_i h2
      rw [if_pos h2] at h
      exact h
    rename_i h2
    rw [if_neg h2] at h
    split
    · rfl
    rename_i h3
    rw [if_neg h3] at h
    split
    · rfl
    rename_i h4
    rw [if_neg h4] at h
    split
    · rfl
    rename_i h5
    rw [if_neg h5] at h
    exact unitJoins_mono h

theorem tokenBytes_cons (t : Bytes) (g g' : List Piece) (gs : List (List Piece)) :
    tokenBytes t (g :: g' :: gs) = g.flatMap Piece.bytes :: tokenBytes t (g' :: gs) :=
  tokenBytes.eq_3 t g (g' :: gs) (by simp)

/-- The boundaries of tokens as bytes. -/
theorem tokenBytes_boundary (t : Bytes) : ∀ {gs : List (List Piece)} {a : Bytes}, (∀ g ∈ gs, g ≠ []) →
    Boundary (tokenBytes t gs) a →
    a = [] ∨ a = gs.flatten.flatMap Piece.bytes ++ t
      ∨ ∃ a' b', gs.flatten = a' ++ b' ∧ b' ≠ [] ∧ Boundary gs a' ∧ a = a'.flatMap Piece.bytes
  | [], a, _, h => by
    obtain ⟨n, rfl⟩ := h
    unfold tokenBytes
    cases n with
    | zero => exact .inl rfl
    | succ n =>
      by_cases ht : t = []
      · simp [ht]
      · simp [ht]
  | [g], a, _, h => by
    rw [tokenBytes, boundary_cons] at h
    rcases h with rfl | ⟨a', rfl, n, hn⟩
    · exact .inl rfl
    · have : a' = [] := by rw [← hn]; simp
      subst this
      exact .inr (.inl (by simp))
  | g :: g' :: gs, a, hne, h => by
    rw [tokenBytes_cons, boundary_cons] at h
    rcases h with rfl | ⟨a', rfl, h⟩
    · exact .inl rfl
    rcases tokenBytes_boundary t (fun x hx => hne x (List.mem_cons_of_mem _ hx)) h with
      rfl | rfl | ⟨a2, b2, h1, h2, h3, rfl⟩
    · refine .inr (.inr ⟨g, (g' :: gs).flatten, rfl, by simp [hne g' (by simp)], ?_, by simp⟩)
      rw [boundary_cons]
      exact .inr ⟨[], by simp, boundary_nil _⟩
    · refine .inr (.inl ?_)
      simp [List.flatMap_append]
    · refine .inr (.inr ⟨g ++ a2, b2, by rw [List.flatten_cons, h1, List.append_assoc], h2, ?_, by simp⟩)
      rw [boundary_cons]
      exact .inr ⟨a2, rfl, h3⟩

theorem tokenBytes_flatten (t : Bytes) : ∀ gs : List (List Piece),
    (tokenBytes t gs).flatten = gs.flatten.flatMap Piece.bytes ++ t
  | [] => by
    unfold tokenBytes
    by_cases ht : t = [] <;> simp [ht]
  | [g] => by simp [tokenBytes]
  | g :: g' :: gs => by
    rw [tokenBytes_cons, List.flatten_cons, tokenBytes_flatten t (g' :: gs)]
    simp [List.flatMap_append]

theorem boundary_tokenBytes (t : Bytes) : ∀ {gs : List (List Piece)} {a b : List Piece}, Boundary gs a →
    gs.flatten = a ++ b → b ≠ [] → Boundary (tokenBytes t gs) (a.flatMap Piece.bytes)
  | [], a, b, _, h, hb => by simp at h; exact absurd h.2 hb
  | [g], a, b, h, hf, hb => by
    rw [boundary_cons] at h
    rcases h with rfl | ⟨a', rfl, h⟩
    · exact boundary_nil _
    · simp only [List.flatten_cons, List.flatten_nil, List.append_assoc] at hf
      have := congrArg List.length hf
      simp only [List.length_append, List.length_nil] at this
      have := List.length_pos_iff.mpr hb
      omega
  | g :: g' :: gs, a, b, h, hf, hb => by
    rw [boundary_cons] at h
    rcases h with rfl | ⟨a', rfl, h⟩
    · exact boundary_nil _
    · rw [List.flatten_cons, List.append_assoc] at hf
      rw [tokenBytes_cons, boundary_cons]
      exact .inr ⟨_, List.flatMap_append, boundary_tokenBytes t h (List.append_cancel_left hf) hb⟩

/-- Tokens whose boundaries are boundaries of other tokens are made up of those. -/
theorem unions {α : Type} : ∀ {P W : List (List α)}, P.flatten = W.flatten → (∀ w ∈ W, w ≠ []) →
    (∀ a, Boundary P a → Boundary W a) →
    ∃ G : List (List (List α)), G.flatten = W ∧ G.map List.flatten = P
  | [], W, hf, hw, _ => by
    cases W with
    | nil => exact ⟨[], rfl, rfl⟩
    | cons w W =>
      simp only [List.flatten_nil, List.flatten_cons] at hf
      exact absurd (List.append_eq_nil_iff.mp hf.symm).1 (hw w (by simp))
  | p :: P, W, hf, hw, h => by
    obtain ⟨n, hn⟩ := h p (boundary_cons.mpr (.inr ⟨[], by simp, boundary_nil _⟩))
    have hW : W.flatten = (W.take n).flatten ++ (W.drop n).flatten := by
      rw [← List.flatten_append, List.take_append_drop]
    obtain ⟨G, h1, h2⟩ := unions (P := P) (W := W.drop n) (by
        rw [List.flatten_cons, hW, hn] at hf
        exact List.append_cancel_left hf)
      (fun w hx => hw w (List.mem_of_mem_drop hx)) (by
        intro a ha
        obtain ⟨m, hm⟩ := h (p ++ a) (boundary_cons.mpr (.inr ⟨a, rfl, ha⟩))
        rcases Nat.le_total n m with hnm | hnm
        · refine ⟨m - n, ?_⟩
          have : W.take m = W.take n ++ (W.drop n).take (m - n) := by
            conv => lhs; rw [show m = n + (m - n) by omega, List.take_add]
          rw [this, List.flatten_append, hn] at hm
          exact List.append_cancel_left hm
        · have : W.take n = W.take m ++ (W.drop m).take (n - m) := by
            conv => lhs; rw [show n = m + (n - m) by omega, List.take_add]
          rw [this, List.flatten_append, hm] at hn
          have h3 := congrArg List.length hn
          simp only [List.length_append] at h3
          have : a = [] := List.length_eq_zero_iff.mp (by omega)
          exact this ▸ boundary_nil _)
    exact ⟨W.take n :: G, by rw [List.flatten_cons, h1, List.take_append_drop], by rw [List.map_cons, hn, h2]⟩

/-- C33, every phrase boundary is a word boundary, and every phrase is made up of whole words, for every
byte sequence. -/
theorem C33_unions (data : Bytes) :
    ∃ ws phrases, defaultTokens .words data = .ok ws ∧ defaultTokens .phrases data = .ok phrases
      ∧ (∀ a, Boundary phrases a → Boundary ws a)
      ∧ ∃ G : List (List Bytes), G.flatten = ws ∧ G.map List.flatten = phrases := by
  obtain ⟨ps, t, gs, h0, h1, h2, h3, h4⟩ := C42_words data
  obtain ⟨ps', t', hs, k0, k1, k2, k3, k4⟩ := C42_phrases data
  obtain ⟨rfl, rfl⟩ := k0.unique h0
  have hB : ∀ a, Boundary (tokenBytes t' hs) a → Boundary (tokenBytes t' gs) a := by
    intro a ha
    rcases tokenBytes_boundary t' k3 ha with rfl | rfl | ⟨a', b', e, hb, ha', rfl⟩
    · exact boundary_nil _
    · rw [k2, ← h2, ← tokenBytes_flatten]
      exact ⟨_, by rw [List.take_length]⟩
    · rw [k2] at e
      refine boundary_tokenBytes t' ?_ (h2.trans e) hb
      rw [h4 a' b' e]
      rw [k4 a' b' e] at ha'
      have hc : Piece.classes phraseClasses (fun _ => false) = Piece.classes wordClasses (fun _ => false) := by
        congr 1
        funext c
        exact C33_classes c
      rw [hc] at ha'
      unfold phraseBreak at ha'
      unfold wordBreak
      simp only [Bool.or_eq_true, Bool.not_eq_true'] at ha' ⊢
      rcases ha' with ha' | ha'
      · exact .inl ha'
      · refine .inr (Bool.eq_false_iff.mpr fun hj => ?_)
        rw [joins_mono hj] at ha'
        cases ha'
  refine ⟨_, _, h1, k1, hB, unions ?_ ?_ hB⟩
  · rw [tokenBytes_flatten, tokenBytes_flatten, h2, k2]
  · have hne : ∀ x : Piece, x ∈ ps' → x.bytes ≠ [] := by
      intro x hx
      have := ((h0.decodes Words.wf Words.strict).values (Words.trie.pieceChunk x) (List.mem_map.mpr ⟨x, hx, rfl⟩)).2
      exact this
    have key : ∀ gs : List (List Piece), (∀ g ∈ gs, g ≠ []) → (∀ g ∈ gs, ∀ x ∈ g, x.bytes ≠ []) →
        ∀ w ∈ tokenBytes t' gs, w ≠ [] := by
      intro gs
      have hg : ∀ g : List Piece, g ≠ [] → (∀ x ∈ g, x.bytes ≠ []) → g.flatMap Piece.bytes ≠ [] := by
        intro g h1 h2 h3
        cases g with
        | nil => exact h1 rfl
        | cons x g =>
          rw [List.flatMap_cons, List.append_eq_nil_iff] at h3
          exact h2 x (by simp) h3.1
      induction gs with
      | nil =>
        intro _ _ w hw
        unfold tokenBytes at hw
        by_cases ht : t' = []
        · simp [ht] at hw
        · simp only [ht, if_false, List.mem_singleton] at hw
          exact hw ▸ ht
      | cons g gs ih =>
        intro h1 h2 w hw
        cases gs with
        | nil =>
          simp only [tokenBytes, List.mem_singleton] at hw
          subst hw
          intro h3
          exact hg g (h1 g (by simp)) (h2 g (by simp)) (List.append_eq_nil_iff.mp h3).1
        | cons g' gs =>
          rw [tokenBytes_cons] at hw
          rcases List.mem_cons.mp hw with rfl | hw
          · exact hg g (h1 g (by simp)) (h2 g (by simp))
          · exact ih (fun x hx => h1 x (List.mem_cons_of_mem _ hx)) (fun x hx => h2 x (List.mem_cons_of_mem _ hx)) w hw
    exact key gs h3 fun g hg x hx => hne x (by rw [← h2]; exact List.mem_flatten.mpr ⟨g, hg, hx⟩)

-- The phrase "ab 1" is made up of three words; the comma is a phrase and a word.
example : defaultTokens .words (utf8 "ab 1,".toList)
    = .ok [utf8 "ab".toList, utf8 " ".toList, utf8 "1".toList, utf8 ",".toList] := by decide +kernel
example : defaultTokens .phrases (utf8 "ab 1,".toList) = .ok [utf8 "ab 1".toList, utf8 ",".toList] := by
  decide +kernel
-- With bytes that are no text, and an encoding that is cut off.
example : defaultTokens .words [0x61, 0x20, 0x80, 0x20, 0xF0] = .ok [[0x61], [0x20], [0x80], [0x20, 0xF0]] := by
  decide +kernel
example : defaultTokens .phrases [0x61, 0x20, 0x80, 0x20, 0xF0] = .ok [[0x61, 0x20], [0x80], [0x20, 0xF0]] := by
  decide +kernel

end Uax29
