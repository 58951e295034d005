import Verif.Props.SyncJoiners
import Verif.Spec.Parallel
import Verif.Model.Chars
/-! # C106: a text may be tokenized in parallel -/
namespace Uax29
open Spec

/-- C106 for two parts, any bytes: the first tokens `ts` of the second part go to the first part, and the others stay. -/
theorem C106_two (p : Pkg) (a b : Bytes) (hb : StartsFresh b) (hf : ¬ FlagFirst p b) (ts tl : List Bytes)
    (h : defaultTokens p b = .ok (ts ++ tl)) (hn : unsynced p < ts.length) (hw : Complete (a ++ ts.flatten)) :
    ∃ us, defaultTokens p (a ++ ts.flatten) = .ok us ∧ defaultTokens p (a ++ b) = .ok (us ++ tl) := by
  obtain ⟨us, h1, h2⟩ := C73_sync p a b hb hf ts tl h hn
  have e : a ++ b = a ++ ts.flatten ++ tl.flatten := by
    rw [default_segs] at h
    have := (splitAdv_good p).segs_flatten b
    rw [Except.ok.inj h, List.flatten_append] at this
    rw [← this, List.append_assoc]
  exact ⟨us, (C74_divide p (a ++ ts.flatten) tl.flatten hw us tl (e ▸ h1) h2).1, h1⟩

/-- Tokens of UTF-8 are UTF-8 together. -/
theorem tokens_utf8 (p : Pkg) (c : Config p) (s : List Char) (ts tl : List Bytes) (h : tokens p c (utf8 s) = .ok (ts ++ tl)) :
    ∃ r, ts.flatten = utf8 r := by
  obtain ⟨us, h1, h2⟩ := C07_iterator p c (utf8 s) ⟨s, rfl⟩
  rw [h] at h1
  have h1 := Except.ok.inj h1
  have all : ∀ ts : List Bytes, (∀ t ∈ ts, ValidUtf8 t) → ∃ r, ts.flatten = utf8 r := by
    intro ts
    induction ts with
    | nil => exact fun _ => ⟨[], rfl⟩
    | cons t ts ih =>
      intro h
      obtain ⟨r, hr⟩ := ih fun x hx => h x (List.mem_cons_of_mem _ hx)
      obtain ⟨q, hq⟩ := h t List.mem_cons_self
      exact ⟨q ++ r, by rw [List.flatten_cons, hr, hq, utf8_append]⟩
  exact all ts fun t ht => h2 t (by rw [← h1]; exact List.mem_append_left _ ht)

/-- The workers, for any way to tokenize for which more text changes the last `m` tokens only and text before the first `k` only. -/
theorem workers_eq {ε : Type} {F : Bytes → Except ε (List Bytes)} {T : Bytes → List Bytes} {k m : Nat} {Flag : Bytes → Prop}
    (hT : ∀ d, F d = .ok (T d))
    (happ : ∀ a b ts tl, F a = .ok (ts ++ tl) → m ≤ tl.length → ∃ us, F (tl.flatten ++ b) = .ok us ∧ F (a ++ b) = .ok (ts ++ us))
    (htwo : ∀ a b, StartsFresh b → ¬ Flag b → ∀ ts tl, F b = .ok (ts ++ tl) → k < ts.length → Complete (a ++ ts.flatten) →
      ∃ us, F (a ++ ts.flatten) = .ok us ∧ F (a ++ b) = .ok (us ++ tl))
    (hutf : ∀ s ts tl, F (utf8 s) = .ok (ts ++ tl) → ∃ r, ts.flatten = utf8 r) :
    ∀ (rest : List (List Char)) (b : List Char),
      (∀ part ∈ rest, k + 1 + m ≤ (T (utf8 part)).length) →
      (∀ A B, rest = A ++ B → B ≠ [] → ¬ Flag (utf8 B.flatten)) →
      T (utf8 (b ++ rest.flatten)) = worker T (k + 1) (utf8 b) (rest.map utf8) ++ followers T (k + 1) (rest.map utf8)
  | [], b, _, _ => by simp [worker, followers]
  | c :: rest, b, hl, hf => by
    have ih := workers_eq hT happ htwo hutf rest c (fun x hx => hl x (List.mem_cons_of_mem _ hx))
      (fun A B h hB => hf (c :: A) B (by rw [h, List.cons_append]) hB)
    have hlc := hl c List.mem_cons_self
    have hlen : ((T (utf8 c)).take (k + 1)).length = k + 1 := by
      rw [List.length_take]; omega
    -- more text does not change the first tokens of the part
    have hW : ∃ us, worker T (k + 1) (utf8 c) (rest.map utf8) = (T (utf8 c)).take (k + 1) ++ us := by
      have happ' : ∀ x, ∃ us, T (utf8 c ++ x) = (T (utf8 c)).take (k + 1) ++ us := by
        intro x
        obtain ⟨us, -, h⟩ := happ (utf8 c) x ((T (utf8 c)).take (k + 1)) ((T (utf8 c)).drop (k + 1))
          (by rw [List.take_append_drop, hT]) (by rw [List.length_drop]; omega)
        rw [hT] at h
        exact ⟨us, Except.ok.inj h⟩
      cases rest with
      | nil => exact ⟨_, (List.take_append_drop _ _).symm⟩
      | cons d rest => exact happ' _
    obtain ⟨us, hus⟩ := hW
    obtain ⟨r, hr⟩ := hutf c ((T (utf8 c)).take (k + 1)) ((T (utf8 c)).drop (k + 1))
      (by rw [List.take_append_drop, hT])
    obtain ⟨vs, h1, h2⟩ := htwo (utf8 b) (utf8 (c ++ rest.flatten)) (startsFresh_utf8 _)
      (hf [] (c :: rest) rfl (List.cons_ne_nil _ _)) ((T (utf8 c)).take (k + 1))
      (us ++ followers T (k + 1) (rest.map utf8)) (by rw [hT, ih, hus, List.append_assoc]) (by omega)
      (by rw [hr, ← utf8_append]; exact complete_utf8 _)
    rw [hT] at h1 h2
    rw [List.flatten_cons, utf8_append, Except.ok.inj h2, ← Except.ok.inj h1, List.map_cons, followers, hus,
      List.drop_left' hlen, worker]

/-- **C106** Let a text be divided into parts, and let each part but the first have a few tokens and not begin with a letter of a
flag. If each worker tokenizes its part together with the first tokens of the next one (three for words and phrases, two for
graphemes and sentences), and leaves out as many tokens at the begin, the workers yield the tokens of the text. -/
theorem C106_parallel (p : Pkg) (T : Bytes → List Bytes) (hT : ∀ d, defaultTokens p d = .ok (T d)) (parts : List (List Char))
    (hl : ∀ part ∈ parts.tail, unsynced p + 1 + unsettled p ≤ (T (utf8 part)).length)
    (hf : ∀ A B, parts = A ++ B → A ≠ [] → B ≠ [] → ¬ FlagFirst p (utf8 B.flatten)) :
    defaultTokens p (utf8 parts.flatten) = .ok (inParallel T (unsynced p + 1) (parts.map utf8)) := by
  cases parts with
  | nil =>
    rw [default_segs]
    have : segs (splitAdv (splitFunc p)) [] = [] := by
      have h := (splitAdv_good p).segs_flatten []
      have h0 := (splitAdv_good p).segs_ne_nil []
      cases e : segs (splitAdv (splitFunc p)) [] with
      | nil => rfl
      | cons x l =>
        rw [e] at h h0
        exact absurd (List.append_eq_nil_iff.mp h).1 (h0 x List.mem_cons_self)
    exact congrArg _ this
  | cons b rest =>
    rw [hT, List.flatten_cons, workers_eq hT (C71_append p) (C106_two p)
      (fun s ts tl h => tokens_utf8 p (Iterator.defaultConfig p) s ts tl (by rw [← defaultTokens_eq, h])) rest b hl
      (fun A B h hB => hf (b :: A) B (by rw [h, List.cons_append]) (List.cons_ne_nil _ _) hB)]
    rfl

/-- C106 for words with middle joiners other than the blank. -/
theorem C106_middle (M : List Int) (hM : (0x20 : Int) ∉ M) (T : Bytes → List Bytes)
    (hT : ∀ d, tokens .words (some ⟨some M, none⟩) d = .ok (T d)) (parts : List (List Char))
    (hl : ∀ part ∈ parts.tail, 5 ≤ (T (utf8 part)).length)
    (hf : ∀ A B, parts = A ++ B → A ≠ [] → B ≠ [] → ¬ FlagFirst .words (utf8 B.flatten)) :
    tokens .words (some ⟨some M, none⟩) (utf8 parts.flatten) = .ok (inParallel T 3 (parts.map utf8)) := by
  cases parts with
  | nil => rfl
  | cons b rest =>
    rw [hT, List.flatten_cons, workers_eq (k := 2) (m := 2) (Flag := FlagFirst .words) hT (C71_joiners (some ⟨some M, none⟩)) ?_
      (tokens_utf8 .words (some ⟨some M, none⟩)) rest b hl
      (fun A B h hB => hf (b :: A) B (by rw [h, List.cons_append]) (List.cons_ne_nil _ _) hB)]
    · rfl
    · intro a b hb hf ts tl h hn hw
      obtain ⟨us, h1, h2⟩ := C73_middle M hM a b hb hf ts tl h hn
      have e : a ++ b = a ++ ts.flatten ++ tl.flatten := by
        rw [tokens_middle_segs hM] at h
        have := (goodAdv_of_good (Words.splitFunc_good (some ⟨some M, none⟩))).segs_flatten b
        rw [Except.ok.inj h, List.flatten_append] at this
        rw [← this, List.append_assoc]
      exact ⟨us, (C74_joiners (some ⟨some M, none⟩) (a ++ ts.flatten) tl.flatten hw us tl (e ▸ h1) h2).1, h1⟩

-- three parts of "I can't; see 3.14 or so on", cut within "can't" and within the number
example : inParallel (fun d => match defaultTokens .words d with | .ok ts => ts | .error _ => []) 3
      [utf8 (chars "I can"), utf8 (chars "'t; see 3"), utf8 (chars ".14 or so on")]
    = [utf8 (chars "I"), utf8 (chars " "), utf8 (chars "can't"), utf8 (chars ";"), utf8 (chars " "), utf8 (chars "see"), utf8 (chars " "),
      utf8 (chars "3.14"), utf8 (chars " "), utf8 (chars "or"), utf8 (chars " "), utf8 (chars "so"), utf8 (chars " "), utf8 (chars "on")] := by
  decide +kernel
/-- Two tokens in place of three are not enough for words. -/
theorem C106_least (T : Bytes → List Bytes) (hT : ∀ d, defaultTokens .words d = .ok (T d)) :
    ∃ parts : List (List Char), (∀ part ∈ parts.tail, 5 ≤ (T (utf8 part)).length)
      ∧ (∀ A B, parts = A ++ B → A ≠ [] → B ≠ [] → ¬ FlagFirst .words (utf8 B.flatten))
      ∧ defaultTokens .words (utf8 parts.flatten) ≠ .ok (inParallel T 2 (parts.map utf8)) := by
  have e : T = fun d => match defaultTokens .words d with | .ok ts => ts | .error _ => [] := by
    funext d
    rw [hT]
  subst e
  refine ⟨[chars "a", chars "\u0308'b c d e"], by decide +kernel, ?_, by decide +kernel⟩
  intro A B h hA hB hflag
  obtain ⟨x, A, rfl⟩ := List.exists_cons_of_ne_nil hA
  obtain ⟨y, B, rfl⟩ := List.exists_cons_of_ne_nil hB
  obtain ⟨rfl, h⟩ := List.cons.inj h
  cases A with
  | cons z A =>
    have := congrArg List.length h
    simp at this
  | nil =>
    rw [← show _ = y :: B from (List.cons.inj h).2] at hflag
    rcases startsFlag_cons (x := '\u0308') (d := utf8 (chars "'b c d e")) hflag with h | ⟨_, h⟩
    · revert h; unfold regionalIndicator; decide
    · rcases startsFlag_cons (x := '\'') (d := utf8 (chars "b c d e")) h with h | ⟨h, _⟩
      · revert h; unfold regionalIndicator; decide
      · revert h; decide +kernel

-- with two tokens in place of three the text before may be wrong: "a", then "\u0308'b c d e"
example : inParallel (fun d => match defaultTokens .words d with | .ok ts => ts | .error _ => []) 2
      [utf8 (chars "a"), utf8 (chars "\u0308'b c d e")]
    = [utf8 (chars "a\u0308"), utf8 (chars "'"), utf8 (chars "b"), utf8 (chars " "), utf8 (chars "c"), utf8 (chars " "), utf8 (chars "d"),
      utf8 (chars " "), utf8 (chars "e")]
  ∧ defaultTokens .words (utf8 (chars "a\u0308'b c d e"))
    = .ok [utf8 (chars "a\u0308'b"), utf8 (chars " "), utf8 (chars "c"), utf8 (chars " "), utf8 (chars "d"),
      utf8 (chars " "), utf8 (chars "e")] := by decide +kernel
-- the joiner `-`: "x a-b c d e f" cut before the joiner
example : inParallel (fun d => match tokens .words (some ⟨some [0x2D], none⟩) d with | .ok ts => ts | .error _ => []) 3
      [utf8 (chars "x a"), utf8 (chars "-b c d e f")]
    = [utf8 (chars "x"), utf8 (chars " "), utf8 (chars "a-b"), utf8 (chars " "), utf8 (chars "c"), utf8 (chars " "), utf8 (chars "d"),
      utf8 (chars " "), utf8 (chars "e"), utf8 (chars " "), utf8 (chars "f")] := by
  decide +kernel

end Uax29
